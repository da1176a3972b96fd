import Verif.Model.EventSource
/-! Specification vocabulary for event sources (C07, C08, C15). -/
namespace Jq

variable {γ : Type}

/-- The calendar days from `a` to `b`, both included. -/
def daysFromTo (a b : Int) : List Int := (List.range (b - a + 1).toNat).map fun (k : Nat) => a + (k : Int)

/-- The configured entries and the time of day (offset from midnight) that each expression denotes. -/
def EntryTimes (cfg : ECfg) (entries : List (Str × γ)) (offs : List (Int × γ)) : Prop :=
  entries.map (fun e => (entryTime cfg.periods 0 e.1, e.2)) = offs.map fun o => (.ok o.1, o.2)

/-- All events of a day in the order the entries were added: one per entry, restricted to
`start ≤ time ≤ end`. -/
def rawDay (st : Int) (en : Option Int) (offs : List (Int × γ)) (d : Int) : List (Int × γ) :=
  (offs.map fun o => (d * dayUs + o.1, o.2)).filter fun e => decide (st ≤ e.1) && en.all fun x => decide (e.1 ≤ x)

/-- The events of a day in order of time, entries at the same time in the order they were added. -/
def dayEvents (st : Int) (en : Option Int) (offs : List (Int × γ)) (d : Int) : List (Int × γ) :=
  sortBy (·.1) (rawDay st en offs d)

/-- The events of a list of days, day by day. -/
def eventsOf (st : Int) (en : Option Int) (offs : List (Int × γ)) (ds : List Int) : List (Int × γ) :=
  ds.flatMap (dayEvents st en offs)

/-- The start time that the source uses: the given one in history mode, else the current time. -/
def effectiveStart (cfg : ECfg) (start : Option Int) (now : Int) : Int :=
  match start with
  | some s => if cfg.historyStart then s else now
  | none => now

end Jq
