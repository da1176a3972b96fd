import Verif.Model.LockWait
import Verif.Spec.TradeGate
/-! Specification vocabulary for waiting for the file lock (C93). -/
namespace Jq

/-- After the attempt the call waits and tries again: somebody else has the lock, and the time is not over. -/
structure Held (W : WaitConf) (a : Attempt) : Prop where
  opened : a.opening = none
  taken : a.lock = .taken
  early : a.clock < W.start + W.timeOut
  interval : 0 ≤ W.interval

/-- The attempt is the last one, and the call ends in this way. -/
inductive LastTry (W : WaitConf) (a : Attempt) : Py Unit → Prop
  | written : a.opening = none → a.lock = .free → a.flush = none → LastTry W a (.ok ())
  | timedOut : a.opening = none → a.lock = .taken → W.start + W.timeOut ≤ a.clock → LastTry W a (.error .timeOut)
  | notOpened (e : PyErr) : a.opening = some e → LastTry W a (.error e)
  | lockFails (e : PyErr) : a.opening = none → a.lock = .fails e → LastTry W a (.error e)
  | notWritten (e : PyErr) (n : Nat) : a.opening = none → a.lock = .free → a.flush = some (e, n) → LastTry W a (.error e)
  | noSleep : a.opening = none → a.lock = .taken → a.clock < W.start + W.timeOut → W.interval < 0 → LastTry W a (.error .valueError)

/-- What others do before an attempt: they add `text` to the file `f`, and do not touch the file otherwise. -/
def Adds (f : FileId) (a : Attempt) (text : Str) : Prop :=
  ∀ fs, (a.ext fs f).getD [] = (fs f).getD [] ++ text

/-- All that others have added up to attempt `k`. -/
def addedUpTo (x : Nat → Str) (k : Nat) : Str := (List.range (k + 1)).flatMap x

/-- The clock goes on by at least `d` from each attempt to the next. -/
def Ticks (W : WaitConf) (att : Nat → Attempt) (d : Int) : Prop :=
  W.start ≤ (att 0).clock ∧ ∀ i, (att i).clock + d ≤ (att (i + 1)).clock

end Jq
