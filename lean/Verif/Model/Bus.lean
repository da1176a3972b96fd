import Verif.Py.Dict
import Verif.Py.Sort
/-!
# Event bus

Models `EventBus` (`bus.py:10-62`) and `create_event_class` (`event.py:23-29`).  `C` are event classes with
the subclass relation `sub c c'` (an instance of `c` is an instance of `c'`), `K` are callbacks with Python's
`==`.  The model of `emit` gives the callbacks in the order in which they are called; a callback that raises
ends the emission there, and callbacks that change the bus while it is emitting are in `Model/BusLive`.
-/
namespace Jq

variable {C K : Type} [DecidableEq C] [DecidableEq K]

/-- `bus.py:18`: `_subscribes`, class → priority → callbacks. -/
abbrev Bus (C K : Type) := Dict C (Dict Int (List K))

/-- `bus.py:20-30` `register`: `setdefault(event_cls, {}).setdefault(priority, []).append(callback)`. -/
def Bus.register (b : Bus C K) (c : C) (cb : K) (prio : Int) : Bus C K :=
  let d := (dget b c).getD []
  dset b c (dset d prio ((dget d prio).getD [] ++ [cb]))

/-- `list.remove(x)`: the first occurrence; `none` is `ValueError`. -/
def removeFirst (cb : K) : List K → Option (List K)
  | [] => none
  | k :: ks => if k = cb then some ks else (removeFirst cb ks).map (k :: ·)

/-- `bus.py:32-45` `unregister`: remove from the list of every priority, ignoring `ValueError`. -/
def Bus.unregister (b : Bus C K) (c : C) (cb : K) : Bus C K :=
  match dget b c with
  | none => b
  | some d => dset b c (d.map fun e => (e.1, (removeFirst cb e.2).getD e.2))

/-- `bus.py:47-62` `emit` of an event of class `ec`: the callbacks called, in order. -/
def Bus.emit (sub : C → C → Bool) (b : Bus C K) (ec : C) : List K :=
  b.flatMap fun e =>
    if sub ec e.1 then (sortBy (fun p => -p) (dkeys e.2)).flatMap fun p => (dget e.2 p).getD []
    else []

/-- An operation on the bus. -/
inductive BusOp (C K : Type) where
  | register (c : C) (cb : K) (prio : Int)
  | unregister (c : C) (cb : K)

/-- Apply an operation. -/
def Bus.apply (b : Bus C K) : BusOp C K → Bus C K
  | .register c cb p => b.register c cb p
  | .unregister c cb => b.unregister c cb

end Jq
