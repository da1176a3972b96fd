import Verif.Model.Strategy
/-! Specification vocabulary for `set_options` (C76–C78). -/
namespace Jq

/-- The number that decimal digits stand for. -/
def decimal (w : Str) : Nat := w.foldl (fun n c => 10 * n + (c.toNat - '0'.toNat)) 0

/-- `w` is one or two decimal digits standing for `n`, which is below `lim`. -/
def ClockField (w : Str) (lim n : Nat) : Prop :=
  (w.length = 1 ∨ w.length = 2) ∧ (∀ c ∈ w, '0' ≤ c ∧ c ≤ '9') ∧ decimal w = n ∧ n < lim

/-- A value stands for a time of day (microseconds): a `datetime.time`, or a text `h:m:s`. -/
inductive GivenTime : TimeVal → Int → Prop where
  | time (t : Int) : GivenTime (.time t) t
  | text (h m s : Str) (nh nm ns : Nat) (hh : ClockField h 24 nh) (hm : ClockField m 60 nm) (hs : ClockField s 60 ns) :
      GivenTime (.text (h ++ ':' :: m ++ ':' :: s)) (((nh * 3600 + nm * 60 + ns : Nat) : Int) * secUs)

/-- A value stands for a period: two times. -/
inductive GivenPeriod : PairVal → Int × Int → Prop where
  | mk {a b : TimeVal} {x y : Int} (ha : GivenTime a x) (hb : GivenTime b y) : GivenPeriod (.seq [a, b]) (x, y)

/-- Values stand for periods, one for each. -/
inductive GivenPeriods : List PairVal → Periods → Prop where
  | nil : GivenPeriods [] []
  | cons {p : PairVal} {q : Int × Int} {ps : List PairVal} {qs : Periods} (hp : GivenPeriod p q) (hps : GivenPeriods ps qs) :
      GivenPeriods (p :: ps) (q :: qs)

/-- What is kept of a value given for periods: the periods it stands for, or a value that counts as false. -/
inductive KeptPeriods : PerVal → PerVal → Prop where
  | falsy : KeptPeriods .falsy .falsy
  | seq {ps : List PairVal} {qs : Periods} (h : GivenPeriods ps qs) : KeptPeriods (.seq ps) (.ofPeriods qs)

/-- The same for an option that may be absent. -/
inductive KeptOption : Option PerVal → Option PerVal → Prop where
  | none : KeptOption none none
  | some {v v' : PerVal} (h : KeptPeriods v v') : KeptOption (some v) (some v')

/-- `o'` is what is kept of the options `o`: all of them, the periods as times. -/
structure KeptOptions (o o' : Opts) : Prop where
  market : KeptOption o.marketPeriod o'.marketPeriod
  period : KeptOption o.syncPeriod o'.syncPeriod
  interval : ∀ e, o.syncInternal ≠ some (.error e)
  same : o'.useAccount = o.useAccount ∧ o'.syncBalance = o.syncBalance ∧ o'.syncOrder = o.syncOrder ∧
    o'.syncInternal = o.syncInternal ∧ o'.accountNo = o.accountNo

/-- The options can be understood. -/
def Understood (o : Opts) : Prop := ∃ o', KeptOptions o o'

end Jq
