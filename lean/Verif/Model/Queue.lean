/-!
# The message queue

Models `jqtrade/scheduler/message.py` and `jqtrade/scheduler/queue.py` (class `PriorityQueue`).

The list inside `heapq` is represented by the bag of pending messages; `heappop` is represented
by its contract (remove the least tuple).  The array algorithm itself is modelled, and proved to
meet this contract, in `Verif/Model/Heapq.lean`.
-/
namespace Jq

/-- `message.py:12-19` `Message.__init__`.  `time` is in milliseconds (`int(time)`), `data` stands
for callback plus callback_data, `seq` is the value of the class counter at creation. -/
structure Msg (κ : Type) where
  time : Int
  priority : Int
  seq : Nat
  data : κ
deriving Repr, DecidableEq

/-- `message.py:22-23` `sort_key = (time, -priority, seq_number)` compared as Python tuples
(lexicographically).  `keyLt a b` is `a.sort_key < b.sort_key`. -/
def keyLt {κ} (a b : Msg κ) : Prop :=
  a.time < b.time ∨ (a.time = b.time ∧
    (-a.priority < -b.priority ∨ (-a.priority = -b.priority ∧ a.seq < b.seq)))

instance {κ} (a b : Msg κ) : Decidable (keyLt a b) := by unfold keyLt; infer_instance

/-- `queue.py:28-34` `PriorityQueue.pop`: `heapq.heappop` removes and returns the entry with the
least `sort_key`; `none` is `QueueEmptyError`.  (Two entries with one key would make Python compare
the `Message` objects and raise; the class counter makes keys distinct, see
`c01_keys_distinct`.) -/
def popMin {κ} : List (Msg κ) → Option (Msg κ × List (Msg κ))
  | [] => none
  | m :: q =>
    match popMin q with
    | none => some (m, [])
    | some (x, r) => if keyLt x m then some (x, m :: r) else some (m, q)

/-- `queue.py:24-26` `PriorityQueue.push`. -/
def pushMsg {κ} (q : List (Msg κ)) (m : Msg κ) : List (Msg κ) := m :: q

/-- Client operations: create a message (`Message(...)`, `message.py:12-19`) and push it
(`loop.py:110-111`), pop, or push the message popped last again (`loop.py:88`). -/
inductive QOp (κ : Type) where
  | new (time priority : Int) (data : κ)
  | pop
  | back

/-- Queue, class counter `Message._unique_num`, messages popped and kept by the client (latest
first). -/
structure QState (κ : Type) where
  pending : List (Msg κ) := []
  counter : Nat := 0
  taken : List (Msg κ) := []

/-- Result of one operation. -/
inductive QRes (κ : Type) where
  | pushed
  | popped (m : Msg κ)
  | empty
deriving DecidableEq

/-- One client operation: `message.py:18-19` (counter), `queue.py:24-34`. -/
def qstep {κ} (s : QState κ) : QOp κ → QState κ × QRes κ
  | .new t p d =>
    let c := s.counter + 1
    ({ s with pending := pushMsg s.pending ⟨t, p, c, d⟩, counter := c }, .pushed)
  | .pop =>
    match popMin s.pending with
    | none => (s, .empty)
    | some (m, r) => ({ s with pending := r, taken := m :: s.taken }, .popped m)
  | .back =>
    match s.taken with
    | [] => (s, .pushed)
    | m :: ts => ({ s with pending := pushMsg s.pending m, taken := ts }, .pushed)

/-- A history of client operations: final state and results, oldest first. -/
def qrun {κ} (s : QState κ) : List (QOp κ) → QState κ × List (QRes κ)
  | [] => (s, [])
  | o :: os =>
    let r := qstep s o
    let r' := qrun r.1 os
    (r'.1, r.2 :: r'.2)

end Jq
