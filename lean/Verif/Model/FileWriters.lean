import Verif.Model.TradeGate
/-!
# Many processes appending to one file

`_write` (`trade_gate.py:287-302`) step by step, with any number of calls in any processes at the same time (POSIX).
A call that is one of many of a process is a separate writer here, so every interleaving of processes is one of writers.

* `open(file, "a")` makes the file and puts the position of this descriptor at the end; what others append later does not
  move it, so `fp.tell()` is the size at the time of the opening, not at the time of the lock.
* `fp.write` only fills a buffer; `finally` gives the lock back; the text reaches the file when `with` closes it, in one
  appending `write` (records are much shorter than the buffer).
* A process may be killed at any time; the kernel then gives its lock back.
-/
namespace Jq

/-- Where a call of `_write` is. -/
inductive WPhase where
  /-- not begun, or waiting to try again (`trade_gate.py:290-291`, `300`) -/
  | idle
  /-- `trade_gate.py:291` -/
  | opened
  /-- `trade_gate.py:293` -/
  | locked
  /-- `trade_gate.py:294-297` the text is in the buffer -/
  | buffered (text : Str)
  /-- `trade_gate.py:301-302` after the unlock, before the file is closed -/
  | unlocked (text : Str)
  /-- the file is closed; the call has not returned yet -/
  | closed
  | returned
  /-- `trade_gate.py:298-299` -/
  | timedOut
  | killed
deriving DecidableEq, Repr

/-- The file, the lock and the calls. -/
structure Writers where
  file : Option Str
  lock : Option Nat := none
  phase : Nat → WPhase := fun _ => .idle
  /-- what `fp.tell()` gives for the descriptor opened last by the call; `none`: not opened -/
  tell : Nat → Option Nat := fun _ => none

def Writers.at (w : Writers) (i : Nat) (p : WPhase) : Writers := { w with phase := fun j => if j = i then p else w.phase j }

/-- `trade_gate.py:287-302`; `header` with its line end, `line i` the record of call `i`. -/
inductive WStep (header : Str) (line : Nat → Str) : Writers → Writers → Prop
  | open (w : Writers) (i : Nat) : w.phase i = .idle →
      WStep header line w { w.at i .opened with file := some (w.file.getD []), tell := fun j => if j = i then some (w.file.getD []).length else w.tell j }
  | lock (w : Writers) (i : Nat) : w.phase i = .opened → w.lock = none → WStep header line w { w.at i .locked with lock := some i }
  | busy (w : Writers) (i : Nat) : w.phase i = .opened → w.lock.isSome → WStep header line w (w.at i .idle)
  | timeOut (w : Writers) (i : Nat) : w.phase i = .opened → w.lock.isSome → WStep header line w (w.at i .timedOut)
  | write (w : Writers) (i : Nat) : w.phase i = .locked →
      WStep header line w (w.at i (.buffered (if w.tell i = some 0 then header ++ line i else line i)))
  | unlock (w : Writers) (i : Nat) (t : Str) : w.phase i = .buffered t → WStep header line w { w.at i (.unlocked t) with lock := none }
  | close (w : Writers) (i : Nat) (t : Str) : w.phase i = .unlocked t →
      WStep header line w { w.at i .closed with file := some (w.file.getD [] ++ t) }
  | ret (w : Writers) (i : Nat) : w.phase i = .closed → WStep header line w (w.at i .returned)
  | kill (w : Writers) (i : Nat) : w.phase i ≠ .returned → w.phase i ≠ .timedOut →
      WStep header line w { w.at i .killed with lock := if w.lock = some i then none else w.lock }

/-- Any number of steps. -/
inductive WRun (header : Str) (line : Nat → Str) : Writers → Writers → Prop
  | refl (w : Writers) : WRun header line w w
  | step {w x y : Writers} : WRun header line w x → WStep header line x y → WRun header line w y

end Jq
