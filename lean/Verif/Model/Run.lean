import Verif.Model.Strategy
import Verif.Model.Sources
import Verif.Model.Millis
/-!
# A whole run of a strategy

Puts together `Strategy.schedule` (`strategy.py:98-131`), `EventSourceScheduler.schedule`
(`event_source.py:193-230`), the event bus (`bus.py:47-62`) and the event loop (`loop.py`): the callbacks on the
loop work on real event sources, and the bus calls the user's functions and the account.

`Verif/Model/Sources.lean` sees a source only through the sequence of its events; here nothing is abstracted from it.
`schedule_id not in self._event_sources` (line 207) never holds, because nothing unschedules the sources of a strategy.
What a callback on the bus does is an input: how it changes the state `α` of everything outside the loop (account,
trade gate, the user's variables, the clock), and whether it raises.  Callbacks do not push messages and do not
register or schedule anything (no API does so outside `process_initialize`).
-/
namespace Jq

/-- What does not change during a run: settings, the bus, the class table (name → priority), the dates that
`datetime.date.today()` returns (`dates p j`: in the `j`-th iteration of the `p`-th poll of a source), and what the
callbacks on the bus do. -/
structure RunEnv (α : Type) where
  cfg : ECfg
  fuel : Nat
  bus : Bus Str Cb
  classes : Dict Str Int
  dates : Nat → Nat → Int
  act : Cb → α → α × Option PyErr

/-- What changes: the event sources, the state of the callbacks, the calls made by the bus (a log for the
specification), the number of polls, and whether a poll did not return. -/
structure RunW (α : Type) where
  srcs : Nat → ESrc Str
  st : α
  calls : List Cb := []
  polls : Nat := 0
  hung : Bool := false

variable {α : Type}

/-- Replace source `i` after a poll. -/
def RunW.polled (w : RunW α) (i : Nat) (s : ESrc Str) : RunW α :=
  { w with srcs := fun j => if j = i then s else w.srcs j, polls := w.polls + 1 }

/-- `event_source.py:218-226` `push_next_msg` of source `i`. -/
def runPush (R : RunEnv α) (i : Nat) (w : RunW α) : RunW α × List (Act Nat) × Option PyErr :=
  match (w.srcs i).peek R.cfg (R.dates w.polls) R.fuel with
  | none => ({ w with hung := true }, [], none)
  | some (s, .error e) => (w.polled i s, [], some e)
  | some (s, .ok none) => (w.polled i s, [], none)
  | some (s, .ok (some (dt, cls))) =>
    (w.polled i s, [.push (dtToMillis dt) ((dget R.classes cls).getD 0) i], none)

/-- `bus.py:47-62` with `strategy.py:93-96`: the callbacks are called in order; the first exception propagates. -/
def runEmit (R : RunEnv α) : List Cb → RunW α → RunW α × Option PyErr
  | [], w => (w, none)
  | .user _ none :: _, w => (w, some .typeError)
  | cb :: cbs, w =>
    match R.act cb w.st with
    | (a, some e) => ({ w with st := a, calls := w.calls ++ [cb] }, some e)
    | (a, none) => runEmit R cbs { w with st := a, calls := w.calls ++ [cb] }

/-- `event_source.py:206-216` `callback` of source `i`. -/
def runExec (R : RunEnv α) (i : Nat) (w : RunW α) : RunW α × List (Act Nat) × Option PyErr :=
  match (w.srcs i).getNext R.cfg (R.dates w.polls) R.fuel with
  | none => ({ w with hung := true }, [], none)
  | some (s, .error e) => (w.polled i s, [], some e)
  | some (s, .ok none) => (w.polled i s, [], none)
  | some (s, .ok (some (_, cls))) =>
    match runEmit R (R.bus.emit sameClass cls) (w.polled i s) with
    | (w', some e) => (w', [], some e)
    | (w', none) => runPush R i w'

/-- `event_source.py:193-230` for the `i`-th, `i+1`-th, … source, before the loop runs: the source has been made (with
an outcome) and its first message is pushed.  An exception ends the set-up. -/
def runStart (R : RunEnv α) :
    Nat → List (ESrc Str × Py Unit) → LoopSt (RunW α) Nat PyErr → LoopSt (RunW α) Nat PyErr × Option PyErr
  | _, [], l => (l, none)
  | _, (_, .error e) :: _, l => (l, some e)
  | i, (s, .ok ()) :: rest, l =>
    match runPush R i { l.world with srcs := fun j => if j = i then s else l.world.srcs j } with
    | (w, acts, err) =>
      let l' := acts.foldl LoopSt.act { l with world := w }
      match err with
      | some e => (l', some e)
      | none => runStart R (i + 1) rest l'

/-- `strategy.py:105-129`: the sources of the tasks, the `i`-th one with `setup` at `nows i`. -/
def taskSources (cfg : ECfg) (start endAt : Option Int) (nows : Nat → Int) (entries : List (Str × List (Str × Str))) :
    List (ESrc Str × Py Unit) :=
  entries.mapIdx fun i e => ESrc.build cfg start endAt (nows i) e.2

/-- The loop before the set-up: no messages, no sources. -/
def runEmpty (a : α) : LoopSt (RunW α) Nat PyErr :=
  { world := { srcs := fun _ => { start := none, endAt := none }, st := a } }

end Jq
