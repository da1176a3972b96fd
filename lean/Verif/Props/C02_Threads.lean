import Verif.Lemmas.ThreadQueue
/-! C02: the thread-safe queue behaves as if each operation were atomic. -/
namespace Jq
variable {α : Type} {lt : α → α → Bool}

/-- Any number of threads with any programs, from heap `h0`. -/
def startThreads (h0 : List α) (progs : Nat → List (TOp α)) :
    Conf (List α) (HLoc α) (TOp α) (TRes α) := { shared := h0, prog := progs }

/-- In every interleaving, the completed operations, taken in the order in which they released the
lock, have exactly the results that the atomic queue gives when they are executed one after another;
and for each thread they are the beginning of its program, in order. -/
theorem c02_linearizable (h0 : List α) (progs : Nat → List (TOp α)) (ts : List Nat)
    (c : Conf (List α) (HLoc α) (TOp α) (TRes α))
    (h : (startThreads h0 progs).run (queueBody lt) ts = some c) :
    (seqRun (atomicOp lt) h0 (c.log.map (·.2.1))).2 = c.log.map (·.2.2) ∧
    ∀ t, (c.log.filter (·.1 = t)).map (·.2.1) ++ c.prog t = progs t := by
  have i := Lin.run (f := atomicOp lt) runs_queue (Lin.init (queueBody lt) _ h0 progs) h
  exact ⟨i.results, i.progs⟩

/-- Whenever the lock is free, the heap is the one the atomic queue would have. -/
theorem c02_quiescent_state (h0 : List α) (progs : Nat → List (TOp α)) (ts : List Nat)
    (c : Conf (List α) (HLoc α) (TOp α) (TRes α))
    (h : (startThreads h0 progs).run (queueBody lt) ts = some c) (hfree : c.lock = none) :
    c.shared = (seqRun (atomicOp lt) h0 (c.log.map (·.2.1))).1 :=
  ((Lin.run (f := atomicOp lt) runs_queue (Lin.init (queueBody lt) _ h0 progs) h).free hfree).1

/-- At most one thread is inside an operation at any moment. -/
theorem c02_mutual_exclusion (h0 : List α) (progs : Nat → List (TOp α)) (ts : List Nat)
    (c : Conf (List α) (HLoc α) (TOp α) (TRes α))
    (h : (startThreads h0 progs).run (queueBody lt) ts = some c) (t u : Nat)
    (ht : c.pc t ≠ .out) (hu : c.pc u ≠ .out) : t = u := by
  have i := Lin.run (f := atomicOp lt) runs_queue (Lin.init (queueBody lt) _ h0 progs) h
  cases hl : c.lock with
  | none => exact absurd ((i.free hl).2 t) ht
  | some v =>
    have := (i.held v hl).1
    by_cases e1 : t = v
    · by_cases e2 : u = v
      · rw [e1, e2]
      · exact absurd (this u e2) hu
    · exact absurd (this t e1) ht

/-- Items pushed and items delivered, in a log. -/
def pushedItems : List (Nat × TOp α × TRes α) → List α
  | [] => []
  | (_, .push x, _) :: l => x :: pushedItems l
  | _ :: l => pushedItems l

def poppedItems : List (Nat × TOp α × TRes α) → List α
  | [] => []
  | (_, .pop, .popped (some x)) :: l => x :: poppedItems l
  | _ :: l => poppedItems l

private theorem conserve (sw : StrictWeak lt) (h0 : List α) (hh : IsHeap lt h0)
    (log : List (Nat × TOp α × TRes α))
    (hres : (seqRun (atomicOp lt) h0 (log.map (·.2.1))).2 = log.map (·.2.2)) :
    ((seqRun (atomicOp lt) h0 (log.map (·.2.1))).1 ++ poppedItems log).Perm
      (h0 ++ pushedItems log) := by
  induction log generalizing h0 with
  | nil => simp [seqRun, poppedItems, pushedItems]
  | cons e log ih =>
    obtain ⟨t, op, r⟩ := e
    simp only [List.map_cons, seqRun, List.cons.injEq] at hres ⊢
    obtain ⟨hr, hres⟩ := hres
    cases op with
    | push x =>
      simp only [atomicOp] at hr hres ⊢
      have := ih _ (heappush_heap sw h0 x hh) hres
      subst hr
      refine this.trans ?_
      simp only [pushedItems]
      refine ((heappush_perm h0 x).append_right _).trans ?_
      simp only [List.cons_append]
      exact List.perm_middle.symm
    | pop =>
      cases hp : heappop lt h0 with
      | none =>
        simp only [atomicOp, hp] at hr hres ⊢
        subst hr
        exact ih _ hh hres
      | some p =>
        obtain ⟨x, h'⟩ := p
        simp only [atomicOp, hp] at hr hres ⊢
        subst hr
        obtain ⟨hperm, hh', -⟩ := heappop_some sw hh hp
        have := ih _ hh' hres
        simp only [poppedItems, pushedItems]
        refine List.perm_middle.trans ?_
        refine (this.cons x).trans ?_
        exact (hperm.symm.append_right _)
    | top =>
      simp only [atomicOp] at hr hres ⊢
      subst hr
      exact ih _ hh hres
    | empty =>
      simp only [atomicOp] at hr hres ⊢
      subst hr
      exact ih _ hh hres

/-- No item is lost or delivered twice: whenever the lock is free, the items in the queue and those
delivered are exactly the initial items and those pushed. -/
theorem c02_no_loss_no_duplicate (sw : StrictWeak lt) (h0 : List α) (hh : IsHeap lt h0)
    (progs : Nat → List (TOp α)) (ts : List Nat)
    (c : Conf (List α) (HLoc α) (TOp α) (TRes α))
    (h : (startThreads h0 progs).run (queueBody lt) ts = some c) (hfree : c.lock = none) :
    (c.shared ++ poppedItems c.log).Perm (h0 ++ pushedItems c.log) := by
  rw [c02_quiescent_state h0 progs ts c h hfree]
  exact conserve sw h0 hh c.log (c02_linearizable h0 progs ts c h).1

/-- Three threads, preempted in the middle of their operations: thread 1 tries to enter while thread 0
is inside and cannot (its step is not enabled). -/
private def demoProgs : Nat → List (TOp Nat) := fun t =>
  if t = 0 then [.push 5, .push 3] else if t = 1 then [.pop] else if t = 2 then [.push 4] else []

private def demoLt (a b : Nat) : Bool := decide (a < b)

private theorem demoLt_sw : StrictWeak demoLt where
  asymm := by intro a b h; simp [demoLt] at *; omega
  negtrans := by intro a b c h h'; simp [demoLt] at *; omega

example : ((startThreads [] demoProgs).run (queueBody demoLt) [0, 0, 1]).isNone = true := by decide

example : ((startThreads [] demoProgs).run (queueBody demoLt)
    [0, 0, 0, 0, 2, 2, 2, 2, 2, 0, 0, 0, 0, 0, 1, 1, 1, 1, 1, 1, 1, 1]).map
    (fun c => (c.shared, c.log.map (fun e => (e.1, e.2.2)), c.lock.isNone)) =
    some ([4, 5], [(0, .pushed), (2, .pushed), (0, .pushed), (1, .popped (some 3))], true) := by
  decide

example : StrictWeak demoLt ∧ IsHeap demoLt [] := ⟨demoLt_sw, fun i hi => by simp at hi⟩

end Jq
