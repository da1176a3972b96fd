import Verif.Model.TradeGate
/-!
# Waiting for the file lock

The loop of `_write` (`trade_gate.py:287-302`): `appendLine` (`Model/TradeGate`) is what its last attempt does, here are the attempts.

Time is in whole units of any size: readings of the clock are integers.  Simplified: `time.time() - start` is exact; opening the file and
finding its end are one step with locking it (apart: `Model/FileWriters`); `portalocker.unlock` does not fail.
-/
namespace Jq

/-- What `portalocker.lock` does. -/
inductive LockTry where
  | free
  /-- `BlockingIOError` or `AlreadyLocked` -/
  | taken
  /-- another exception -/
  | fails (e : PyErr)
deriving DecidableEq, Repr

/-- One turn of the loop. -/
structure Attempt where
  /-- what others did to the files since the attempt before -/
  ext : Files → Files := id
  /-- the exception of `open`, if it fails -/
  opening : Option PyErr := none
  lock : LockTry := .free
  /-- the exception when the file is closed, if the text cannot be written, and how much of it was -/
  flush : Option (PyErr × Nat) := none
  /-- the clock after the attempt to lock -/
  clock : Int := 0

/-- The options and the moment the call began (`trade_gate.py:288`, `552-553`). -/
structure WaitConf where
  start : Int
  timeOut : Int
  interval : Int

/-- `trade_gate.py:289-302`: the attempts from number `i` on, at most `fuel` of them.  `none`: not over by then.  Otherwise the number of
the last attempt, the files and how the call ends.  A negative interval is refused by `time.sleep`. -/
def writeLoop (W : WaitConf) (att : Nat → Attempt) (win : Bool) (f : FileId) (header line : Str) :
    Nat → Nat → Files → Option (Nat × Files × Py Unit)
  | 0, _, _ => none
  | fuel + 1, i, fs =>
    let a := att i
    let fs := a.ext fs
    match a.opening with
    | some e => some (i, fs, .error e)
    | none =>
      let opened := fs.set f (some ((fs f).getD []))
      match a.lock with
      | .fails e => some (i, opened, .error e)
      | .free =>
        let old := (opened f).getD []
        let text := onDisk win (if old.length = 0 then header ++ linesep win ++ line else line)
        match a.flush with
        | none => some (i, opened.set f (some (old ++ text)), .ok ())
        | some (e, n) => some (i, opened.set f (some (old ++ text.take n)), .error e)
      | .taken =>
        if W.timeOut ≤ a.clock - W.start then some (i, opened, .error .timeOut)
        else if W.interval < 0 then some (i, opened, .error .valueError)
        else writeLoop W att win f header line fuel (i + 1) opened

end Jq
