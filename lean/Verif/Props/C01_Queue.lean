import Verif.Lemmas.Heapq
import Verif.Spec.Queue
/-! C01: pending messages come out in (time, priority, creation) order, none lost or duplicated. -/
namespace Jq
variable {κ : Type}

/-- Simulation between the array heap and the bag. -/
private structure Sim (h : HState κ) (q : QState κ) : Prop where
  heap : IsHeap msgLt h.heap
  perm : h.heap.Perm q.pending
  counter : h.counter = q.counter
  taken : h.taken = q.taken
  inv : QInv q

private theorem seqNodup_left {a b : List (Msg κ)} (h : SeqNodup (a ++ b)) : SeqNodup a := by
  unfold SeqNodup at *; rw [List.map_append] at h; exact (List.nodup_append.1 h).1

private theorem sim_init : Sim ({} : HState κ) {} :=
  ⟨fun i hi => by simp at hi, List.Perm.refl _, rfl, rfl, QInv_init⟩

private theorem sim_step {h : HState κ} {q : QState κ} (s : Sim h q) (o : QOp κ) :
    Sim (hstep h o).1 (qstep q o).1 ∧ (hstep h o).2 = (qstep q o).2 := by
  have inv' := QInv_step s.inv o
  cases o with
  | new t p d =>
    refine ⟨⟨heappush_heap msgLt_sw _ _ s.heap, ?_, ?_, s.taken, inv'⟩, rfl⟩
    · simp only [hstep, qstep, pushMsg, s.counter]
      exact (heappush_perm ..).trans (s.perm.cons _)
    · simp only [hstep, qstep, s.counter]
  | pop =>
    simp only [hstep, qstep] at *
    cases hh : heappop msgLt h.heap with
    | none =>
      have h0 := heappop_none.1 hh
      have : q.pending = [] := by
        have := s.perm; rw [h0] at this; exact List.nil_perm.1 this
      rw [this]
      exact ⟨s, rfl⟩
    | some p =>
      obtain ⟨m, r⟩ := p
      obtain ⟨hp, hheap, hmin⟩ := heappop_some msgLt_sw s.heap hh
      have hn : SeqNodup q.pending := seqNodup_left s.inv.1
      cases hq : popMin q.pending with
      | none =>
        have h0 := popMin_none.1 hq
        have := s.perm.symm.trans hp
        rw [h0] at this
        exact absurd (List.nil_perm.1 this) (by simp)
      | some p' =>
        obtain ⟨m', r'⟩ := p'
        rw [hq] at inv'
        have hm'h : m' ∈ h.heap := s.perm.mem_iff.2 (popMin_mem hq)
        have hmq : m ∈ q.pending := s.perm.mem_iff.1 (hp.mem_iff.2 (List.mem_cons_self ..))
        have e : m = m' := by
          by_cases e : m = m'
          · exact e
          · have h1 := popMin_lt hn hq m hmq e
            have h2 := hmin m' hm'h
            simp only [msgLt, decide_eq_false_iff_not] at h2
            exact absurd h1 h2
        subst e
        refine ⟨⟨hheap, ?_, s.counter, ?_, inv'⟩, rfl⟩
        · exact ((hp.symm.trans s.perm).trans (popMin_perm hq)).cons_inv
        · simp only [s.taken]
  | back =>
    have ht := s.taken
    simp only [hstep, qstep] at *
    cases hq : q.taken with
    | nil => rw [hq] at ht; rw [ht]; exact ⟨s, rfl⟩
    | cons m ts =>
      rw [hq] at ht inv'; rw [ht]
      exact ⟨⟨heappush_heap msgLt_sw _ _ s.heap, (heappush_perm ..).trans (s.perm.cons _),
        s.counter, rfl, inv'⟩, rfl⟩

private theorem sim_run {h : HState κ} {q : QState κ} (s : Sim h q) (os : List (QOp κ)) :
    Sim (hrun h os).1 (qrun q os).1 ∧ (hrun h os).2 = (qrun q os).2 := by
  induction os generalizing h q with
  | nil => exact ⟨s, rfl⟩
  | cons o os ih =>
    obtain ⟨h1, h2⟩ := sim_step s o
    obtain ⟨h3, h4⟩ := ih h1
    exact ⟨h3, by simp only [hrun, qrun]; rw [h2, h4]⟩

private theorem keyLt_before {a b : Msg κ} (h : keyLt a b) : Before a b := by
  unfold keyLt at h; unfold Before; omega

/-- The array heap and the bag with "remove the least" give the same results for every history, so
the rest of the model may use the bag. -/
theorem c01_heap_refines_bag (os : List (QOp κ)) : (hrun {} os).2 = (qrun {} os).2 :=
  (sim_run sim_init os).2

/-- In the queue reached by any history, a pop delivers a pending message that comes before every
other pending one, and removes exactly it. -/
theorem c01_pop_delivers_least (os : List (QOp κ)) (s' : HState κ) (m : Msg κ)
    (h : hstep (hrun {} os).1 .pop = (s', .popped m)) :
    m ∈ (hrun {} os).1.heap ∧ (∀ x ∈ (hrun {} os).1.heap, x ≠ m → Before m x) ∧
    (hrun {} os).1.heap.Perm (m :: s'.heap) := by
  have hs := (sim_run (κ := κ) sim_init os).1
  generalize (hrun {} os).1 = s at *
  generalize (qrun {} os).1 = q at *
  simp only [hstep] at h
  split at h
  · simp at h
  · rename_i m' r hh
    simp at h
    obtain ⟨rfl, rfl⟩ := h
    obtain ⟨hp, -, hmin⟩ := heappop_some msgLt_sw hs.heap hh
    have hm : m' ∈ s.heap := hp.mem_iff.2 (List.mem_cons_self ..)
    refine ⟨hm, ?_, hp⟩
    intro x hx hne
    have hn : SeqNodup s.heap := (seqNodup_left hs.inv.1).perm hs.perm.symm
    have hseq : m'.seq ≠ x.seq := fun e => hne (seqNodup_eq hn hx hm e.symm)
    have h1 := hmin x hx
    simp only [msgLt, decide_eq_false_iff_not] at h1
    exact keyLt_before ((keyLt_total hseq).resolve_right h1)

/-- A pop reports an empty queue exactly when nothing is pending (and then changes nothing). -/
theorem c01_pop_empty_iff (os : List (QOp κ)) :
    (hstep (hrun {} os).1 .pop).2 = .empty ↔ (hrun (κ := κ) {} os).1.heap = [] := by
  simp only [hstep]
  split
  · rename_i h; simpa using heappop_none.1 h
  · rename_i m r h
    simp only [reduceCtorEq, false_iff]
    intro h0; rw [h0] at h; simp [heappop] at h

/-- `top` shows exactly the message the next pop delivers, and `empty` says exactly whether that pop would report an
empty queue. -/
theorem c01_top_and_empty (os : List (QOp κ)) (m : Msg κ) :
    ((hrun {} os).1.top = some m ↔ (hstep (hrun {} os).1 .pop).2 = .popped m) ∧
    ((hrun (κ := κ) {} os).1.isEmpty = true ↔ (hstep (hrun (κ := κ) {} os).1 .pop).2 = .empty) := by
  refine ⟨?_, ?_⟩
  · generalize (hrun {} os).1 = s
    obtain ⟨hp, c, tk⟩ := s
    cases hp with
    | nil => simp [HState.top, hstep, heappop]
    | cons a l =>
      rcases List.eq_nil_or_concat l with rfl | ⟨l', b, rfl⟩
      · have : heappop msgLt [a] = some (a, []) := rfl
        simp [HState.top, hstep, this]
      · have hl : (a :: l'.concat b).getLast? = some b := by
          rw [List.concat_eq_append, ← List.cons_append]; exact List.getLast?_concat
        have hd : (a :: l'.concat b).dropLast = a :: l' := by
          rw [List.concat_eq_append, ← List.cons_append]; exact List.dropLast_concat
        have : ∃ r, heappop msgLt (a :: l'.concat b) = some (a, r) := by
          unfold heappop
          rw [hl]
          simp only
          split
          · rename_i h; rw [hd] at h; cases h
          · rename_i root rest h
            rw [hd] at h
            obtain ⟨rfl, rfl⟩ := List.cons.inj h
            exact ⟨_, rfl⟩
        obtain ⟨r, hr⟩ := this
        simp only [HState.top, hstep, hr, List.getElem?_cons_zero, Option.some.injEq, QRes.popped.injEq]
  · rw [c01_pop_empty_iff]
    simp [HState.isEmpty]

private theorem no_loss_aux (q : QState κ) (os : List (QOp κ)) :
    ((qrun q os).1.pending ++ (qrun q os).1.taken).Perm
      (created q.counter os ++ (q.pending ++ q.taken)) := by
  induction os generalizing q with
  | nil => exact List.Perm.refl _
  | cons o os ih =>
    have h := ih (qstep q o).1
    simp only [qrun]
    refine h.trans ?_
    cases o with
    | new t p d =>
      simp only [qstep, created, pushMsg, List.cons_append]
      exact List.perm_middle
    | pop =>
      simp only [qstep, created]
      cases hp : popMin q.pending with
      | none => exact List.Perm.refl _
      | some p =>
        obtain ⟨m, r⟩ := p
        simp only
        refine List.Perm.append_left _ ?_
        have h1 := (popMin_perm hp).append_right q.taken
        exact List.Perm.trans List.perm_middle (by simpa using h1.symm)
    | back =>
      simp only [qstep, created]
      cases ht : q.taken with
      | nil => simp [ht]
      | cons m ts =>
        simp only [pushMsg]
        refine List.Perm.append_left _ ?_
        simp only [List.cons_append]
        exact List.perm_middle.symm

/-- The pending messages together with those delivered (and not pushed back) are exactly the
messages created, each numbered by its creation. -/
theorem c01_no_loss_no_duplicate (os : List (QOp κ)) :
    ((hrun {} os).1.heap ++ (hrun {} os).1.taken).Perm (created 0 os) := by
  have hs := (sim_run (κ := κ) sim_init os).1
  have h := no_loss_aux ({} : QState κ) os
  simp only [List.append_nil] at h
  rw [hs.taken]
  exact (hs.perm.append_right _).trans h

/-- The creation numbers are distinct, so no two entries of the heap have equal keys (with equal
keys Python would compare `Message` objects and raise). -/
theorem c01_keys_distinct (os : List (QOp κ)) :
    ((hrun (κ := κ) {} os).1.heap.map (·.seq)).Nodup := by
  have hs := (sim_run (κ := κ) sim_init os).1
  exact (seqNodup_left hs.inv.1).perm hs.perm.symm

private theorem drain_aux (q : QState κ) (hq : QInv q) (n : Nat) :
    (delivered (qrun q (List.replicate n .pop)).2).Pairwise Before ∧
    ∀ m ∈ delivered (qrun q (List.replicate n .pop)).2, m ∈ q.pending := by
  induction n generalizing q with
  | zero => simp [qrun, delivered]
  | succ n ih =>
    rw [List.replicate_succ]
    simp only [qrun]
    have inv' := QInv_step hq .pop
    have ih := ih _ inv'
    simp only [qstep] at *
    cases hp : popMin q.pending with
    | none => rw [hp] at ih; simpa [delivered] using ih
    | some p =>
      obtain ⟨m, r⟩ := p
      rw [hp] at ih inv'
      simp only [delivered, List.pairwise_cons, List.mem_cons] at *
      have hn : SeqNodup q.pending := seqNodup_left hq.1
      have hperm := popMin_perm hp
      refine ⟨⟨?_, ih.1⟩, ?_⟩
      · intro x hx
        have hxr := ih.2 x hx
        have hxq : x ∈ q.pending := hperm.mem_iff.2 (List.mem_cons_of_mem _ hxr)
        apply keyLt_before
        apply popMin_lt hn hp x hxq
        rintro rfl
        have := hn.perm hperm
        simp only [SeqNodup, List.map_cons, List.nodup_cons] at this
        exact this.1 (List.mem_map.2 ⟨x, hxr, rfl⟩)
      · rintro x (rfl | hx)
        · exact popMin_mem hp
        · exact hperm.mem_iff.2 (List.mem_cons_of_mem _ (ih.2 x hx))

/-- Popping repeatedly delivers the pending messages in order. -/
theorem c01_drain_in_order (os : List (QOp κ)) (n : Nat) :
    (delivered (hrun (hrun {} os).1 (List.replicate n .pop)).2).Pairwise (Before (κ := κ)) := by
  have hs := (sim_run (κ := κ) sim_init os).1
  rw [(sim_run hs _).2]
  exact (drain_aux _ hs.inv n).1

/-- A concrete history: three messages, two at the same time with different priorities. -/
private def demoOps : List (QOp Nat) := [.new 5 0 1, .new 3 0 2, .new 3 2 3, .pop, .back]

/-- The hypothesis of `c01_pop_delivers_least` is met: the pop after `demoOps` delivers the
message created third (time 3, priority 2). -/
example : ∃ s', hstep (hrun {} demoOps).1 .pop = (s', .popped ⟨3, 2, 3, 3⟩) := by
  refine ⟨_, Prod.ext rfl ?_⟩
  rw [(sim_step (sim_run sim_init demoOps).1 .pop).2]
  decide

example : created 0 demoOps = [⟨5, 0, 1, 1⟩, ⟨3, 0, 2, 2⟩, ⟨3, 2, 3, 3⟩] := rfl

/-- Draining after `demoOps` gives times 3, 3, 5 with priorities 2, 0, 0. -/
example : delivered (hrun (hrun {} demoOps).1 (List.replicate 4 .pop)).2 =
    [⟨3, 2, 3, 3⟩, ⟨3, 0, 2, 2⟩, ⟨5, 0, 1, 1⟩] := by
  rw [(sim_run (sim_run sim_init demoOps).1 _).2]
  decide

/-- After `demoOps` the message created third is on top. -/
example : (hrun {} demoOps).1.top = some ⟨3, 2, 3, 3⟩ ∧ (hrun {} demoOps).1.isEmpty = false := by
  decide +kernel

end Jq
