import Verif.Model.Queue
/-!
# The event loop

Models `jqtrade/scheduler/loop.py` as a labelled transition system.  The environment chooses the
labels: when handles of libuv fire, what the clock reads, when a signal arrives, when another
thread pushes a message.  `check_queue` is split at its blocking points (queue pop, clock reading),
so that pushes of other threads can happen in between.

Simplifications: logging is dropped; only `Exception`s are considered (not `BaseException`);
`libuv` is its handles `_loop_notifier` (a pending flag: sends coalesce) and `_timer` (armed target).
The timer is represented by the wall-clock time it is meant to fire at (`now + wait_time`), and it may
fire at any moment (early or late): the theorems do not rely on the accuracy of timers.
-/
namespace Jq

/-- What a callback may do to the loop: push a message (`loop.py:110-114` with a fresh `Message`,
as in `event_source.py:223-226` or `loop.py:132-134`), or call `stop()` (`loop.py:57-61`). -/
inductive Act (κ : Type) where
  | push (time priority : Int) (data : κ)
  | stop

/-- Where `check_queue` (`loop.py:63-94`) is: not running; at the `while` test (line 65); between
`pop` (line 67) and the clock reading (line 73), holding the message popped. -/
inductive Phase (κ : Type) where
  | idle
  | checking
  | holding (m : Msg κ)

/-- `loop.py:25-38` the attributes of `EventLoop`, the state `world` of the callbacks, and two logs
kept for the specification: `fired` (messages whose callback ran, with the clock reading that allowed it,
oldest first) and `errs` (exceptions raised by callbacks, oldest first). -/
structure LoopSt (σ κ ε : Type) where
  queue : List (Msg κ) := []
  counter : Nat := 0
  stopRequested : Bool := false
  exception : Option ε := none
  timer : Option Int := none
  notified : Bool := false
  halted : Bool := false
  strategyTime : Option Int := none
  phase : Phase κ := .idle
  world : σ
  fired : List (Msg κ × Int) := []
  errs : List ε := []

/-- The environment's choices. -/
inductive Label (κ : Type) where
  /-- libuv runs the callback of `_loop_notifier` (`loop.py:29`) -/
  | wakeNotify
  /-- libuv runs the callback of `_timer` (`loop.py:83-86`) -/
  | wakeTimer
  /-- `loop.py:65-71`: the `while` test and the pop -/
  | pop
  /-- `loop.py:73-91`: the clock reads `now`; `exits` are the answers of the registered exit
  checkers (`loop.py:124-130`) -/
  | clock (now : Int) (exits : List Bool)
  /-- libuv runs a signal handler (`loop.py:136-150`) -/
  | signal
  /-- another thread calls `push_message` (`loop.py:110-114`) -/
  | external (time priority : Int) (data : κ)

section
variable {σ κ ε : Type}

/-- `loop.py:57-61` `stop`. -/
def LoopSt.stop (s : LoopSt σ κ ε) : LoopSt σ κ ε :=
  if s.stopRequested then s else { s with stopRequested := true, notified := true }

/-- `loop.py:110-114` `push_message(Message(...))` with `notify=True`; `message.py:18-19`. -/
def LoopSt.pushNew (s : LoopSt σ κ ε) (t p : Int) (d : κ) : LoopSt σ κ ε :=
  { s with queue := pushMsg s.queue ⟨t, p, s.counter + 1, d⟩, counter := s.counter + 1,
           notified := true }

/-- The effect of one action of a callback on the loop. -/
def LoopSt.act (s : LoopSt σ κ ε) : Act κ → LoopSt σ κ ε
  | .push t p d => s.pushNew t p d
  | .stop => s.stop

/-- `loop.py:96-105` `handle_message`.  `exec d w` is the behaviour of the callback: new world, actions
on the loop in order, and the exception it ends with, if any. -/
def LoopSt.handle (exec : κ → σ → σ × List (Act κ) × Option ε) (s : LoopSt σ κ ε) (m : Msg κ)
    (now : Int) : LoopSt σ κ ε :=
  let s1 := { s with strategyTime := some m.time, fired := s.fired ++ [(m, now)] }
  let r := exec m.data s1.world
  let s2 := r.2.1.foldl LoopSt.act { s1 with world := r.1 }
  match r.2.2 with
  | none => s2
  | some e => { s2 with exception := some e, errs := s2.errs ++ [e] }.stop

/-- One transition; `none` when the label is not enabled. -/
def LoopSt.step (exec : κ → σ → σ × List (Act κ) × Option ε) (s : LoopSt σ κ ε) :
    Label κ → Option (LoopSt σ κ ε)
  | .wakeNotify =>
    match s.phase, s.notified with
    | .idle, true => some { s with phase := .checking, notified := false }
    | _, _ => none
  | .wakeTimer =>
    match s.phase, s.timer with
    | .idle, some _ => some { s with phase := .checking, timer := none }
    | _, _ => none
  | .pop =>
    match s.phase with
    | .checking =>
      if s.stopRequested then
        -- lines 65, 93-94
        some { s with phase := .idle, halted := true }
      else
        match popMin s.queue with
        | none =>
          -- lines 68-71, 93-94
          some { s with stopRequested := true, phase := .idle, halted := true }
        | some (m, r) => some { s with queue := r, phase := .holding m }
    | _ => none
  | .clock now exits =>
    match s.phase with
    | .holding m =>
      if m.time > now then
        if exits.any id then
          -- lines 75-77, 93-94
          some { s.stop with phase := .idle, halted := true }
        else
          -- lines 79-89 (message pushed back without notification)
          some { s with timer := some m.time, queue := pushMsg s.queue m, phase := .idle }
      else
        -- line 91
        some ({ s with phase := .checking }.handle exec m now)
    | _ => none
  | .signal =>
    match s.phase with
    | .idle => some s.stop
    | _ => none
  | .external t p d => some (s.pushNew t p d)

/-- An execution: a sequence of enabled transitions. -/
def LoopSt.run (exec : κ → σ → σ × List (Act κ) × Option ε) (s : LoopSt σ κ ε) :
    List (Label κ) → Option (LoopSt σ κ ε)
  | [] => some s
  | l :: ls => (s.step exec l).bind fun s' => s'.run exec ls

/-- `loop.py:54-55`: what `run()` raises once the loop has ended. -/
def LoopSt.runRaises (s : LoopSt σ κ ε) : Option ε := s.exception

end

end Jq
