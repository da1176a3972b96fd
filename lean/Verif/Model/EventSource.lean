import Verif.Model.TimeExpr
import Verif.Py.Sort
/-!
# Event sources

Models class `EventSource` (`event_source.py:20-159`).  A date is a day number, a datetime a number of
microseconds, as in `TimeExpr.lean`; `dt.date()` is division by `dayUs`.  An event is (datetime, class).
The trading periods used by the entries (`event_source.py:163-166`) are fixed for the life of the source
(the strategy's options are set before the sources are created).
Calls that read the date (`datetime.date.today()`, line 73) take the reading as an argument.
The `while` loop of `gen_events` may run for ever: it has a fuel, and `none` means the fuel ran out.
`register_event_changed`/`on_events_changed` callbacks are modelled in `Verif/Model/Reschedule.lean`.
-/
namespace Jq

/-- Scheduler settings used by event sources: `ENABLE_HISTORY_START`, `EVENT_DAYS_COUNT`
(`scheduler/config.py:16,19`, bound at import in `event_source.py:62`) and the trading periods. -/
structure ECfg where
  historyStart : Bool
  count : Nat
  periods : Periods

/-- `event_source.py:26-43` the attributes of an `EventSource`. -/
structure ESrc (γ : Type) where
  daily : List (Str × γ) := []
  events : List (Int × γ) := []
  days : List Int := []
  start : Option Int
  endAt : Option Int
  need : Bool := true
  hasHis : Bool := false
deriving DecidableEq

variable {γ : Type}

/-- `event_source.py:75-76`: `count` consecutive dates from `start` (`range` of a negative count is empty). -/
def dayRange (start : Int) (count : Int) : List Int :=
  (List.range count.toNat).map fun (k : Nat) => start + (k : Int)

/-- `event_source.py:62-80` `_get_days`.  `start` is set by `setup` before this is called; without it
line 69 raises `AttributeError`. -/
def ESrc.getDays (cfg : ECfg) (today : Int) (s : ESrc γ) : ESrc γ × Py (List Int) :=
  if cfg.historyStart || s.endAt.isSome then
    if s.hasHis then (s, .ok [])
    else
      match s.start with
      | none => (s, .error .attributeError)
      | some st =>
        let n : Int := match s.endAt with
          | some e => e / dayUs - st / dayUs + 1
          | none => cfg.count
        ({ s with hasHis := true }, .ok (dayRange (st / dayUs) n))
  else ({ s with hasHis := true }, .ok (dayRange today cfg.count))

/-- `event_source.py:53-60` `_reset_events_if_needed`. -/
def ESrc.resetIfNeeded (cfg : ECfg) (today : Int) (s : ESrc γ) : ESrc γ × Py Unit :=
  if !s.need then (s, .ok ())
  else
    match ({ s with events := [], hasHis := false } : ESrc γ).getDays cfg today with
    | (s', .error e) => (s', .error e)
    | (s', .ok ds) => ({ s' with days := ds, need := false }, .ok ())

/-- `event_source.py:45-51` `setup`. -/
def ESrc.setup (cfg : ECfg) (now : Int) (s : ESrc γ) : ESrc γ × Py Unit :=
  let s := if s.start.isNone || !cfg.historyStart then { s with start := some now } else s
  s.resetIfNeeded cfg (now / dayUs)

/-- `event_source.py:82-88` `daily` on a source without callbacks. -/
def ESrc.addDaily (s : ESrc γ) (expr : Str) (c : γ) : ESrc γ :=
  { s with daily := s.daily ++ [(expr, c)], need := true }

/-- `event_source.py:137-159` `add_event`: `dt < start` and `dt > end` are dropped; with no start the
comparison raises `TypeError`. -/
def ESrc.addEvent (cfg : ECfg) (day : Int) (expr : Str) (c : γ) (s : ESrc γ) : ESrc γ × Py Unit :=
  match entryTime cfg.periods day expr with
  | .error e => (s, .error e)
  | .ok dt =>
    match s.start with
    | none => (s, .error .typeError)
    | some st =>
      if dt < st then (s, .ok ())
      else if s.endAt.any (fun e => decide (e < dt)) then (s, .ok ())
      else ({ s with events := s.events ++ [(dt, c)] }, .ok ())

/-- `event_source.py:133-135` `add_daily_events`; the first error propagates. -/
def ESrc.addEvents (cfg : ECfg) (day : Int) : List (Str × γ) → ESrc γ → ESrc γ × Py Unit
  | [], s => (s, .ok ())
  | (expr, c) :: rest, s =>
    match s.addEvent cfg day expr c with
    | (s', .error e) => (s', .error e)
    | (s', .ok ()) => ESrc.addEvents cfg day rest s'

/-- `event_source.py:121-129` the loop of `gen_events`; `clock i` is the date read in iteration `i`. -/
def ESrc.genLoop (cfg : ECfg) (clock : Nat → Int) : Nat → Nat → ESrc γ → Option (ESrc γ × Py Unit)
  | 0, _, _ => none
  | fuel + 1, i, s =>
    if s.events ≠ [] then some (s, .ok ())
    else
      let r : ESrc γ × Py Unit :=
        if s.days = [] then
          match s.getDays cfg (clock i) with
          | (s', .error e) => (s', .error e)
          | (s', .ok ds) => ({ s' with days := ds }, .ok ())
        else (s, .ok ())
      match r with
      | (s, .error e) => some (s, .error e)
      | (s, .ok ()) =>
        match s.days with
        | [] => some (s, .ok ())
        | d :: ds =>
          match ({ s with days := ds } : ESrc γ).addEvents cfg d s.daily with
          | (s', .error e) => some (s', .error e)
          | (s', .ok ()) => ESrc.genLoop cfg clock fuel (i + 1) s'

/-- `event_source.py:116-131` `gen_events`.  `clock 0` is also the date read by the reset. -/
def ESrc.genEvents (cfg : ECfg) (clock : Nat → Int) (fuel : Nat) (s : ESrc γ) : Option (ESrc γ × Py Unit) :=
  match s.resetIfNeeded cfg (clock 0) with
  | (s, .error e) => some (s, .error e)
  | (s, .ok ()) =>
    if s.events ≠ [] then some (s, .ok ())
    else
      match ESrc.genLoop cfg clock fuel 0 s with
      | none => none
      | some (s, .error e) => some (s, .error e)
      | some (s, .ok ()) => some ({ s with events := sortBy (·.1) s.events }, .ok ())

/-- `event_source.py:96-104` `peek_next_event`. -/
def ESrc.peek (cfg : ECfg) (clock : Nat → Int) (fuel : Nat) (s : ESrc γ) :
    Option (ESrc γ × Py (Option (Int × γ))) :=
  match s.genEvents cfg clock fuel with
  | none => none
  | some (s, .error e) => some (s, .error e)
  | some (s, .ok ()) => some (s, .ok s.events.head?)

/-- `event_source.py:106-114` `get_next_event`. -/
def ESrc.getNext (cfg : ECfg) (clock : Nat → Int) (fuel : Nat) (s : ESrc γ) :
    Option (ESrc γ × Py (Option (Int × γ))) :=
  match s.genEvents cfg clock fuel with
  | none => none
  | some (s, .error e) => some (s, .error e)
  | some (s, .ok ()) => some ({ s with events := s.events.tail }, .ok s.events.head?)

/-- Successive calls of `get_next_event`, the `k`-th reading the clock `clocks k`: the state after them and
the results. -/
def ESrc.getMany (cfg : ECfg) (fuel : Nat) (clocks : Nat → Nat → Int) :
    Nat → ESrc γ → Option (ESrc γ × List (Py (Option (Int × γ))))
  | 0, s => some (s, [])
  | n + 1, s =>
    match ESrc.getMany cfg fuel clocks n s with
    | none => none
    | some (s, out) =>
      match s.getNext cfg (clocks n) fuel with
      | none => none
      | some (s, r) => some (s, out ++ [r])

/-- `EventSource(start, end)`, `setup()` at `now`, then `daily(…)` for each entry: how the strategy makes a
source (`strategy.py:105-126`). -/
def ESrc.build (cfg : ECfg) (start endAt : Option Int) (now : Int) (entries : List (Str × γ)) :
    ESrc γ × Py Unit :=
  match ESrc.setup cfg now { start := start, endAt := endAt } with
  | (s, .error e) => (s, .error e)
  | (s, .ok ()) => (entries.foldl (fun s e => s.addDaily e.1 e.2) s, .ok ())

end Jq
