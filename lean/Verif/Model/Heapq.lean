import Verif.Model.Queue
/-!
# CPython's `heapq`

`queue.py:26` and `queue.py:30` call `heapq.heappush` and `heapq.heappop`.  This file models the
algorithm of the standard library (`Lib/heapq.py`, functions `heappush`, `heappop`, `_siftdown`,
`_siftup`; the C version performs the same comparisons) on the array of entries.
`lt` is the comparison `<` of the entries.
-/
namespace Jq

/-- `heapq._siftdown(heap, 0, pos)`: move the hole at `pos` towards the root until `item` fits.
`heap[pos]` is the stale content of the hole. -/
def siftdown {α} (lt : α → α → Bool) (heap : List α) (item : α) (pos : Nat)
    (h : pos < heap.length) : List α :=
  if hp : 0 < pos then
    have h' : (pos - 1) / 2 < heap.length := by omega
    if lt item (heap[(pos - 1) / 2]) then
      siftdown lt (heap.set pos (heap[(pos - 1) / 2])) item ((pos - 1) / 2) (by simpa using h')
    else heap.set pos item
  else heap.set pos item
termination_by pos
decreasing_by omega

/-- Choice of the smaller child in `heapq._siftup`: the right one when it exists and the left one
is not smaller. -/
def minChild {α} (lt : α → α → Bool) (heap : List α) (c : Nat) (hc : c < heap.length) : Nat :=
  if hr : c + 1 < heap.length then
    if lt (heap[c]) (heap[c + 1]) then c else c + 1
  else c

theorem minChild_lt {α} (lt : α → α → Bool) (heap : List α) (c : Nat) (hc : c < heap.length) :
    minChild lt heap c hc < heap.length := by
  unfold minChild; split
  · split <;> omega
  · omega

theorem minChild_ge {α} (lt : α → α → Bool) (heap : List α) (c : Nat) (hc : c < heap.length) :
    c ≤ minChild lt heap c hc ∧ minChild lt heap c hc ≤ c + 1 := by
  unfold minChild; split
  · split <;> omega
  · omega

/-- `heapq._siftup(heap, 0)` with the hole at `pos`: bubble the smaller child up until the hole is
at a leaf, put `item` there, then `_siftdown`. -/
def siftup {α} (lt : α → α → Bool) (heap : List α) (item : α) (pos : Nat)
    (h : pos < heap.length) : List α :=
  if hc : 2 * pos + 1 < heap.length then
    have h' := minChild_lt lt heap (2 * pos + 1) hc
    have h'' := minChild_ge lt heap (2 * pos + 1) hc
    siftup lt (heap.set pos (heap[minChild lt heap (2 * pos + 1) hc])) item
      (minChild lt heap (2 * pos + 1) hc) (by simpa using h')
  else siftdown lt (heap.set pos item) item pos (by simpa using h)
termination_by heap.length - pos
decreasing_by simp; omega

/-- `heapq.heappush(heap, item)`. -/
def heappush {α} (lt : α → α → Bool) (heap : List α) (item : α) : List α :=
  siftdown lt (heap ++ [item]) item heap.length (by simp)

/-- `heapq.heappop(heap)`: `none` is `IndexError` (empty heap).  `heap.pop()` takes the last
entry, which then replaces the root. -/
def heappop {α} (lt : α → α → Bool) (heap : List α) : Option (α × List α) :=
  match heap.getLast? with
  | none => none
  | some lastelt =>
    match hr : heap.dropLast with
    | [] => some (lastelt, [])
    | root :: rest => some (root, siftup lt (lastelt :: rest) lastelt 0 (by simp))

/-- The comparison of the entries `(sort_key, item)` (`queue.py:26`). -/
def msgLt {κ} (a b : Msg κ) : Bool := decide (keyLt a b)

/-- The queue on the array heap; fields as in `QState`. -/
structure HState (κ : Type) where
  heap : List (Msg κ) := []
  counter : Nat := 0
  taken : List (Msg κ) := []

/-- One client operation on the array heap: `message.py:18-19`, `queue.py:24-34`. -/
def hstep {κ} (s : HState κ) : QOp κ → HState κ × QRes κ
  | .new t p d =>
    let c := s.counter + 1
    ({ s with heap := heappush msgLt s.heap ⟨t, p, c, d⟩, counter := c }, .pushed)
  | .pop =>
    match heappop msgLt s.heap with
    | none => (s, .empty)
    | some (m, r) => ({ s with heap := r, taken := m :: s.taken }, .popped m)
  | .back =>
    match s.taken with
    | [] => (s, .pushed)
    | m :: ts => ({ s with heap := heappush msgLt s.heap m, taken := ts }, .pushed)

/-- A history of client operations: final state and results, oldest first. -/
def hrun {κ} (s : HState κ) : List (QOp κ) → HState κ × List (QRes κ)
  | [] => (s, [])
  | o :: os =>
    let r := hstep s o
    let r' := hrun r.1 os
    (r'.1, r.2 :: r'.2)

/-- `queue.py:36-42` `PriorityQueue.top`: `self._queue[0]`; `none` is `QueueEmptyError`. -/
def HState.top {κ} (s : HState κ) : Option (Msg κ) := s.heap[0]?

/-- `queue.py:44-45` `PriorityQueue.empty`. -/
def HState.isEmpty {κ} (s : HState κ) : Bool := s.heap.length == 0

end Jq
