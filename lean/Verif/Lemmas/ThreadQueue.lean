import Verif.Spec.Atomic
import Verif.Lemmas.Heapq

namespace Jq

section generic
variable {S L Op R : Type}

/-- Big-step execution of a body. -/
inductive Runs (B : Body S L Op R) : L → S → S → R → Prop
  | done {l s s' r} : B.step l s = (s', .inr r) → Runs B l s s' r
  | next {l s s1 l1 s' r} : B.step l s = (s1, .inl l1) → Runs B l1 s1 s' r → Runs B l s s' r

theorem Runs.inv_next {B : Body S L Op R} {l s s' r s1 l1} (h : Runs B l s s' r)
    (e : B.step l s = (s1, .inl l1)) : Runs B l1 s1 s' r := by
  cases h with
  | done h => rw [h] at e; cases e
  | next h h' => rw [h] at e; cases e; exact h'

theorem Runs.inv_done {B : Body S L Op R} {l s s' r s1 r1} (h : Runs B l s s' r)
    (e : B.step l s = (s1, .inr r1)) : s' = s1 ∧ r = r1 := by
  cases h with
  | done h => rw [h] at e; cases e; exact ⟨rfl, rfl⟩
  | next h h' => rw [h] at e; cases e

theorem seqRun_append (f : Op → S → S × R) (s : S) (a b : List Op) :
    seqRun f s (a ++ b) = ((seqRun f (seqRun f s a).1 b).1,
      (seqRun f s a).2 ++ (seqRun f (seqRun f s a).1 b).2) := by
  induction a generalizing s with
  | nil => simp [seqRun]
  | cons o os ih => simp [seqRun, ih]

/-- The linearization invariant. -/
structure Lin (B : Body S L Op R) (f : Op → S → S × R) (s0 : S) (p0 : Nat → List Op)
    (c : Conf S L Op R) : Prop where
  results : (seqRun f s0 (c.log.map (·.2.1))).2 = c.log.map (·.2.2)
  progs : ∀ t, (c.log.filter (·.1 = t)).map (·.2.1) ++ c.prog t = p0 t
  free : c.lock = none → c.shared = (seqRun f s0 (c.log.map (·.2.1))).1 ∧ ∀ t, c.pc t = .out
  held : ∀ t, c.lock = some t → (∀ u, u ≠ t → c.pc u = .out) ∧
    ∃ op ops, c.prog t = op :: ops ∧
      ((∃ l, c.pc t = .inside l ∧
          Runs B l c.shared (f op (seqRun f s0 (c.log.map (·.2.1))).1).1
            (f op (seqRun f s0 (c.log.map (·.2.1))).1).2) ∨
       (∃ r, c.pc t = .finished r ∧
          f op (seqRun f s0 (c.log.map (·.2.1))).1 = (c.shared, r)))

theorem Lin.init (B : Body S L Op R) (f : Op → S → S × R) (s0 : S) (p0 : Nat → List Op) :
    Lin B f s0 p0 { shared := s0, prog := p0 } := by
  constructor <;> simp [seqRun]

theorem Lin.step {B : Body S L Op R} {f : Op → S → S × R} {s0 p0}
    (hB : ∀ op s, Runs B (B.start op) s (f op s).1 (f op s).2)
    {c c' : Conf S L Op R} {t} (i : Lin B f s0 p0 c) (h : c.step B t = some c') :
    Lin B f s0 p0 c' := by
  unfold Conf.step at h
  split at h
  · rename_i hpc
    split at h
    · rename_i op ops hprog hlock
      simp at h; subst h
      obtain ⟨hs, hout⟩ := i.free hlock
      refine ⟨i.results, i.progs, by simp, ?_⟩
      intro t' ht'
      simp at ht'; subst ht'
      refine ⟨fun u hu => by simp [upd, hu, hout], op, ops, hprog, .inl ⟨B.start op, by simp [upd], ?_⟩⟩
      simp only
      rw [hs]; exact hB _ _
    · simp at h
  · rename_i l hpc
    have hl : c.lock = some t := by
      cases hl : c.lock with
      | none => have := (i.free hl).2 t; rw [this] at hpc; cases hpc
      | some u =>
        by_cases e : t = u
        · rw [e]
        · have := (i.held u hl).1 t e; rw [this] at hpc; cases hpc
    obtain ⟨hout, op, ops, hprog, hcase⟩ := i.held t hl
    have hruns : Runs B l c.shared (f op (seqRun f s0 (c.log.map (·.2.1))).1).1
            (f op (seqRun f s0 (c.log.map (·.2.1))).1).2 := by
      rcases hcase with ⟨l', hl', hr⟩ | ⟨r, hr, -⟩
      · rw [hpc] at hl'; cases hl'; exact hr
      · rw [hpc] at hr; cases hr
    split at h
    · rename_i s' l' hst
      simp at h; subst h
      refine ⟨i.results, i.progs, by simp [hl], ?_⟩
      intro t' ht'
      simp [hl] at ht'; subst ht'
      refine ⟨fun u hu => by simp [upd, hu, hout], op, ops, hprog, .inl ⟨l', by simp [upd], ?_⟩⟩
      exact hruns.inv_next hst
    · rename_i s' r hst
      simp at h; subst h
      refine ⟨i.results, i.progs, by simp [hl], ?_⟩
      intro t' ht'
      simp [hl] at ht'; subst ht'
      refine ⟨fun u hu => by simp [upd, hu, hout], op, ops, hprog, .inr ⟨r, by simp [upd], ?_⟩⟩
      obtain ⟨h1, h2⟩ := hruns.inv_done hst
      simp only
      rw [← h1, ← h2]
  · rename_i r hpc
    have hl : c.lock = some t := by
      cases hl : c.lock with
      | none => have := (i.free hl).2 t; rw [this] at hpc; cases hpc
      | some u =>
        by_cases e : t = u
        · rw [e]
        · have := (i.held u hl).1 t e; rw [this] at hpc; cases hpc
    obtain ⟨hout, op, ops, hprog, hcase⟩ := i.held t hl
    have hfin : f op (seqRun f s0 (c.log.map (·.2.1))).1 = (c.shared, r) := by
      rcases hcase with ⟨l', hl', hr⟩ | ⟨r', hr', hr⟩
      · rw [hpc] at hl'; cases hl'
      · rw [hpc] at hr'; cases hr'; exact hr
    rw [hprog] at h
    simp at h; subst h
    have hseq : seqRun f s0 ((c.log ++ [(t, op, r)]).map (·.2.1)) =
        (c.shared, c.log.map (·.2.2) ++ [r]) := by
      rw [List.map_append, seqRun_append, i.results]
      simp [seqRun, hfin]
    refine ⟨?_, ?_, ?_, by simp⟩
    · simp only [hseq]; simp
    · intro u
      rw [← i.progs u]
      simp only [List.filter_append, List.map_append]
      by_cases e : u = t
      · subst e; simp [upd, hprog]
      · have e' : ¬ t = u := fun x => e x.symm
        simp [upd, e, e']
    · intro _
      simp only [hseq, true_and]
      intro u
      by_cases e : u = t
      · simp [upd, e]
      · simp [upd, e, hout u e]

theorem Lin.run {B : Body S L Op R} {f : Op → S → S × R} {s0 p0}
    (hB : ∀ op s, Runs B (B.start op) s (f op s).1 (f op s).2)
    {c c' : Conf S L Op R} {ts} (i : Lin B f s0 p0 c) (h : c.run B ts = some c') :
    Lin B f s0 p0 c' := by
  induction ts generalizing c with
  | nil => simp [Conf.run] at h; exact h ▸ i
  | cons t ts ih =>
    simp only [Conf.run, Option.bind_eq_some_iff] at h
    obtain ⟨b, hb, hr⟩ := h
    exact ih (i.step hB hb) hr

end generic

section heap
variable {α : Type} {lt : α → α → Bool}

theorem runs_down (h : List α) (item : α) (pos : Nat) (hp : pos < h.length) (ret : Option α) :
    Runs (queueBody lt) (.down item pos ret) h (siftdown lt h item pos hp) (downRes ret) := by
  induction pos using Nat.strongRecOn generalizing h with
  | _ pos ih =>
    unfold siftdown
    split
    · rename_i h0
      have hg : h[(pos-1)/2]? = some (h[(pos-1)/2]'(by omega)) := List.getElem?_eq_getElem _
      simp only
      split
      · rename_i hlt
        refine .next (s1 := h.set pos (h[(pos-1)/2]'(by omega)))
          (l1 := .down item ((pos-1)/2) ret) ?_ (ih _ (by omega) _ _)
        simp only [queueBody, heapStep, h0, if_true, hg, hlt]
      · rename_i hlt
        refine .done ?_
        simp only [queueBody, heapStep, h0, if_true, hg, hlt]
        simp
    · rename_i h0
      refine .done ?_
      simp only [queueBody, heapStep, h0, if_false]

theorem runs_up (h : List α) (item : α) (pos : Nat) (hp : pos < h.length) (ret : α) :
    Runs (queueBody lt) (.up item pos ret) h (siftup lt h item pos hp) (.popped (some ret)) := by
  generalize hn : h.length - pos = n
  induction n using Nat.strongRecOn generalizing h pos with
  | _ n ih =>
    unfold siftup
    split
    · rename_i hc
      have h1 := minChild_lt lt h (2*pos+1) hc
      have h2 := minChild_ge lt h (2*pos+1) hc
      refine .next ?_ (ih _ ?_ _ _ (by simpa using h1) rfl)
      · simp only [queueBody, heapStep, hc, dite_true]
      · simp only [List.length_set]; omega
    · rename_i hc
      refine .next (s1 := h.set pos item) (l1 := .down item pos (some ret)) ?_ (runs_down _ _ _ _ _)
      simp only [queueBody, heapStep, hc, dite_false]

theorem runs_queue (op : TOp α) (h : List α) :
    Runs (queueBody lt) ((queueBody lt).start op) h (atomicOp lt op h).1 (atomicOp lt op h).2 := by
  cases op with
  | push x =>
    exact .next rfl (runs_down _ _ _ _ _)
  | pop =>
    simp only [atomicOp, heappop]
    cases hl : h.getLast? with
    | none => exact .done (by simp only [queueBody, heapStep, hl])
    | some last =>
      refine .next (s1 := h.dropLast) (l1 := .popRoot last)
        (by simp only [queueBody, heapStep, hl]) ?_
      simp only
      split
      · rename_i heq
        split at heq <;> cases heq
      · rename_i x h' heq
        split at heq
        · rename_i hd
          cases heq
          rw [hd]
          exact .done rfl
        · rename_i root rest hd
          cases heq
          rw [hd]
          exact .next rfl (runs_up _ _ _ _ _)
  | top => exact .done rfl
  | empty => exact .done rfl

end heap
end Jq
