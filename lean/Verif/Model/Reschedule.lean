import Verif.Model.EventSource
/-!
# Changing a scheduled source

Models `EventSourceScheduler.schedule`/`unschedule` (`event_source.py:193-234`) together with
`EventSource.daily`, `on_events_changed` and `register_event_changed` (`event_source.py:82-94`), i.e. what
`Verif/Model/Sources.lean` leaves out.  One source and one scheduler.

`σ` is the state of the source; `peek` is `peek_next_event` on it (time and priority of the next event, or an
exception); its own possible non-termination is the subject of C15.
-/
namespace Jq

/-- The callbacks registered with the source (one `reschedule` closure for each schedule id, in order), the
ids in `_event_sources`, the class counter `_unique_id` and the messages pushed (time, priority, the schedule
id of the callback's closure). -/
structure ReSt (σ : Type) where
  src : σ
  callbacks : List Nat := []
  live : List Nat := []
  lastId : Nat := 0
  msgs : List (Int × Int × Nat) := []
deriving DecidableEq

variable {σ : Type}

/-- `event_source.py:218-226` `push_next_msg` for the closure of schedule id `n`. -/
def ReSt.pushNext (peek : σ → σ × Py (Option (Int × Int))) (n : Nat) (s : ReSt σ) : ReSt σ × Py Unit :=
  match peek s.src with
  | (src, .error e) => ({ s with src := src }, .error e)
  | (src, .ok none) => ({ s with src := src }, .ok ())
  | (src, .ok (some (t, p))) => ({ s with src := src, msgs := s.msgs ++ [(t, p, n)] }, .ok ())

/-- `event_source.py:193-230` `schedule`: a new id, the callback is registered, the next message is pushed. -/
def ReSt.schedule (peek : σ → σ × Py (Option (Int × Int))) (s : ReSt σ) : ReSt σ × Py Unit :=
  let n := s.lastId + 1
  ReSt.pushNext peek n { s with lastId := n, live := s.live ++ [n], callbacks := s.callbacks ++ [n] }

/-- `event_source.py:232-234` `unschedule`. -/
def ReSt.unschedule (n : Nat) (s : ReSt σ) : ReSt σ := { s with live := s.live.filter (· ≠ n) }

/-- `event_source.py:90-91`: `for _callback in self._event_changed_callback: _callback(self)`.  Python's list
iterator keeps an index into the list and sees the elements appended during the iteration; each callback is
`reschedule` (`event_source.py:201-204`).  `none`: the fuel ran out. -/
def ReSt.notify (peek : σ → σ × Py (Option (Int × Int))) : Nat → Nat → ReSt σ → Option (ReSt σ × Py Unit)
  | 0, _, _ => none
  | fuel + 1, i, s =>
    match s.callbacks[i]? with
    | none => some (s, .ok ())
    | some n =>
      match (s.unschedule n).schedule peek with
      | (s', .error e) => some (s', .error e)
      | (s', .ok ()) => ReSt.notify peek fuel (i + 1) s'

/-- `event_source.py:82-91` `daily` (`add` appends the entry and sets the regeneration flag). -/
def ReSt.daily (peek : σ → σ × Py (Option (Int × Int))) (add : σ → σ) (fuel : Nat) (s : ReSt σ) :
    Option (ReSt σ × Py Unit) :=
  ReSt.notify peek fuel 0 { s with src := add s.src }

/-- `event_source.py:206-216` the callback of the message pushed for schedule id `n`: the event to emit, if
any, and the next message.  `next` is `get_next_event`. -/
def ReSt.fire (peek next : σ → σ × Py (Option (Int × Int))) (n : Nat) (s : ReSt σ) : ReSt σ × Py (Option (Int × Int)) :=
  if n ∈ s.live then
    match next s.src with
    | (src, .error e) => ({ s with src := src }, .error e)
    | (src, .ok none) => ({ s with src := src }, .ok none)
    | (src, .ok (some ev)) =>
      match ReSt.pushNext peek n { s with src := src } with
      | (s', .error e) => (s', .error e)
      | (s', .ok ()) => (s', .ok (some ev))
  else (s, .ok none)

/-- `peek_next_event` of an `EventSource` on a fixed date with enough fuel: (milliseconds, priority). -/
def esPeek (cfg : ECfg) (fuel : Nat) (today : Int) (s : ESrc Int) : ESrc Int × Py (Option (Int × Int)) :=
  match s.peek cfg (fun _ => today) fuel with
  | none => (s, .ok none)
  | some (s', .error e) => (s', .error e)
  | some (s', .ok r) => (s', .ok (r.map fun e => (e.1 / 1000, e.2)))

end Jq
