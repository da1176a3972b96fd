import Verif.Model.Heapq
/-!
# The thread-safe queue

Models `ThreadSafeQueue` (`queue.py:48-73`): every operation takes the lock, runs the body of the
base class, and releases the lock.  The bodies are split into the single reads and writes of the heap
array made by `heapq` (so a thread switch may happen between any two of them, which is more than
CPython's GIL allows).
-/
namespace Jq

/-- An operation body as a small-step machine over a shared state `S`, with local states `L` and
results `R`. -/
structure Body (S L Op R : Type) where
  start : Op → L
  step : L → S → S × (L ⊕ R)

/-- Where a thread is: outside any operation; in the body of one (holding the lock); body finished, lock
not yet released. -/
inductive PC (L R : Type) where
  | out
  | inside (l : L)
  | finished (r : R)

/-- The shared state, the lock, the threads with their remaining programs, and the log of completed
operations (thread, operation, result), oldest first. -/
structure Conf (S L Op R : Type) where
  shared : S
  lock : Option Nat := none
  pc : Nat → PC L R := fun _ => .out
  prog : Nat → List Op
  log : List (Nat × Op × R) := []

/-- Function update. -/
def upd {β : Type} (f : Nat → β) (i : Nat) (b : β) : Nat → β := fun j => if j = i then b else f j

/-- One step of thread `t` (`none` if it cannot step): acquire the lock (`with self._lock`, `queue.py:60`,
`64`, `68`, `72`) when free; one step of the body (`queue.py:61`, `65`, `69`, `73`); release the lock. -/
def Conf.step {S L Op R} (B : Body S L Op R) (c : Conf S L Op R) (t : Nat) :
    Option (Conf S L Op R) :=
  match c.pc t with
  | .out =>
    match c.prog t, c.lock with
    | op :: _, none => some { c with lock := some t, pc := upd c.pc t (.inside (B.start op)) }
    | _, _ => none
  | .inside l =>
    match B.step l c.shared with
    | (s', .inl l') => some { c with shared := s', pc := upd c.pc t (.inside l') }
    | (s', .inr r) => some { c with shared := s', pc := upd c.pc t (.finished r) }
  | .finished r =>
    match c.prog t with
    | op :: ops => some { c with lock := none, pc := upd c.pc t .out, prog := upd c.prog t ops,
                                 log := c.log ++ [(t, op, r)] }
    | [] => none

/-- An execution: the sequence of threads that step. -/
def Conf.run {S L Op R} (B : Body S L Op R) (c : Conf S L Op R) : List Nat → Option (Conf S L Op R)
  | [] => some c
  | t :: ts => (c.step B t).bind fun c' => c'.run B ts

/-- The operations of the queue (`queue.py:59-73`). -/
inductive TOp (α : Type) where
  | push (x : α)
  | pop
  | top
  | empty

/-- Their results (`none` in `popped`/`top` is `QueueEmptyError`). -/
inductive TRes (α : Type) where
  | pushed
  | popped (x : Option α)
  | top (x : Option α)
  | empty (b : Bool)
deriving DecidableEq

/-- Local states of the bodies: where `heapq` is, with the values it holds. -/
inductive HLoc (α : Type) where
  | pushStart (x : α)
  | popStart
  | popRoot (last : α)
  | up (item : α) (pos : Nat) (ret : α)
  | down (item : α) (pos : Nat) (ret : Option α)
  | topStart
  | emptyStart

/-- Result of an operation that ends with `_siftdown`: a push, or a pop returning the old root. -/
def downRes {α} : Option α → TRes α
  | none => .pushed
  | some x => .popped (some x)

/-- One read-and-write of `heapq` (see `Verif/Model/Heapq.lean`).  The `none` branch of a read is an index
out of range, which does not occur. -/
def heapStep {α} (lt : α → α → Bool) : HLoc α → List α → List α × (HLoc α ⊕ TRes α)
  | .pushStart x, h => (h ++ [x], .inl (.down x h.length none))
  | .popStart, h =>
    match h.getLast? with
    | none => (h, .inr (.popped none))
    | some last => (h.dropLast, .inl (.popRoot last))
  | .popRoot last, h =>
    match h with
    | [] => ([], .inr (.popped (some last)))
    | root :: rest => (last :: rest, .inl (.up last 0 root))
  | .up item pos ret, h =>
    if hc : 2 * pos + 1 < h.length then
      (h.set pos (h[minChild lt h (2 * pos + 1) hc]'(minChild_lt ..)),
        .inl (.up item (minChild lt h (2 * pos + 1) hc) ret))
    else (h.set pos item, .inl (.down item pos (some ret)))
  | .down item pos ret, h =>
    if 0 < pos then
      match h[(pos - 1) / 2]? with
      | none => (h, .inr (downRes ret))
      | some par =>
        if lt item par then (h.set pos par, .inl (.down item ((pos - 1) / 2) ret))
        else (h.set pos item, .inr (downRes ret))
    else (h.set pos item, .inr (downRes ret))
  | .topStart, h => (h, .inr (.top h.head?))
  | .emptyStart, h => (h, .inr (.empty (h.length == 0)))

/-- The bodies of `queue.py:24-45`. -/
def queueBody {α} (lt : α → α → Bool) : Body (List α) (HLoc α) (TOp α) (TRes α) where
  start
    | .push x => .pushStart x
    | .pop => .popStart
    | .top => .topStart
    | .empty => .emptyStart
  step := heapStep lt

end Jq
