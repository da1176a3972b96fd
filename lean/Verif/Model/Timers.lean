import Verif.Model.EventSource
/-!
# Repeating daily timers

Models the entries made for an `every_minute` task (`strategy.py:107-123`) and for the account
synchronisation timer (`account.py:123-159`).  Both make clock-time entries with a `while` loop; the loop
has a fuel (`none`: ran out) because the step of the account timer comes from the user.
The step `sync_internal` is a float number of seconds which `timedelta` rounds to microseconds; it is an
integer number of microseconds here.  The type checks of the periods (`strategy.py:113-117`,
`account.py:141-145`) hold by construction of `Periods`.
-/
namespace Jq

/-- `dt.strftime("%H:%M:%S")`: the time of day, fractions of a second dropped. -/
def hmsStr (t : Int) : Str :=
  let s := ((t % dayUs) / secUs).toNat
  two (s / 3600) ++ ':' :: two (s / 60 % 60) ++ ':' :: two (s % 60)

/-- `while current <= end: daily(current.strftime(…)); current += step`. -/
def timesLoop (endT step : Int) : Nat → Int → Option (List Str)
  | 0, _ => none
  | fuel + 1, cur =>
    if cur ≤ endT then (timesLoop endT step fuel (cur + step)).map (hmsStr cur :: ·) else some []

/-- One loop per period (`strategy.py:112-123`, `account.py:140-151`), on day `day`. -/
def periodTimes (fuel : Nat) (day step : Int) : Periods → Option (List Str)
  | [] => some []
  | p :: ps =>
    match timesLoop (day * dayUs + p.2) step fuel (day * dayUs + p.1) with
    | none => none
    | some ts => (periodTimes fuel day step ps).map (ts ++ ·)

/-- Microseconds per minute. -/
def minUs : Int := 60 * secUs

/-- `strategy.py:109-123`: the entries of an `every_minute` task scheduled on day `today`. -/
def everyMinuteEntries {γ} (fuel : Nat) (today : Int) (mp : Periods) (c : γ) : Option (List (Str × γ)) :=
  (periodTimes fuel today minUs mp).map fun ts => ts.map fun t => (t, c)

/-- `account.py:130-151`: the entries of the synchronisation timer made at `now0`.  An empty list of periods
counts as unset (line 134). -/
def syncTimerEntries {γ} (fuel : Nat) (now0 step : Int) (periods : Periods) (c : γ) : Option (List (Str × γ)) :=
  let now := now0 / secUs * secUs
  let ts :=
    if periods = [] then timesLoop (now / dayUs * dayUs + 86399 * secUs) step fuel (now + step)
    else periodTimes fuel (now / dayUs) step periods
  ts.map fun ts => ts.map fun t => (t, c)

/-- `account.py:129-159`: the source of the synchronisation timer.  `setup` is not called on it; the start is
that of the context. -/
def syncTimerSource {γ} (fuel : Nat) (ctxStart : Int) (ctxEnd : Option Int) (now step : Int) (periods : Periods) (c : γ) :
    Option (ESrc γ) :=
  (syncTimerEntries fuel now step periods c).map fun es =>
    es.foldl (fun s e => s.addDaily e.1 e.2) { start := some ctxStart, endAt := ctxEnd }

end Jq
