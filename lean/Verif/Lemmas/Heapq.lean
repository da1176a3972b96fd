import Verif.Model.Heapq
import Verif.Lemmas.Queue

namespace Jq
variable {α : Type}

theorem set_perm_cons_erase (l : List α) (i : Nat) (x : α) (h : i < l.length) :
    (l.set i x).Perm (x :: l.eraseIdx i) := by
  induction l generalizing i with
  | nil => simp at h
  | cons a l ih =>
    cases i with
    | zero => exact List.Perm.refl _
    | succ i =>
      simp only [List.set_cons_succ, List.eraseIdx_cons_succ]
      exact ((ih i (by simpa using h)).cons a).trans (List.Perm.swap _ _ _)

theorem set_swap_perm (l : List α) (i j : Nat) (x : α) (hi : i < l.length) (hj : j < l.length) : ((l.set i l[j]).set j x).Perm (l.set i x) := by
  have h1 := set_perm_cons_erase (l.set i l[j]) j x (by simpa using hj)
  have h2 := set_perm_cons_erase l i x hi
  have h3 := set_perm_cons_erase l i l[j] hi
  have h4 := set_perm_cons_erase (l.set i l[j]) j l[j] (by simpa using hj)
  have h5 : (l.set i l[j]).set j l[j] = l.set i l[j] := by
    apply List.ext_getElem
    · simp
    · intro k hk hk'
      simp only [List.getElem_set]
      split
      · split
        · rfl
        · rename_i e1 e2; subst e1; rfl
      · rfl
  rw [h5] at h4
  have h6 := (h4.symm.trans h3).cons_inv
  exact (h1.trans (h6.cons x)).trans h2.symm

theorem siftdown_perm (lt : α → α → Bool) (heap : List α) (item : α) (pos : Nat) (h) :
    (siftdown lt heap item pos h).Perm (heap.set pos item) := by
  induction pos using Nat.strongRecOn generalizing heap with
  | _ pos ih =>
    unfold siftdown
    split
    · rename_i hp
      simp only
      split
      · refine (ih _ (by omega) _ _).trans ?_
        exact set_swap_perm heap pos ((pos-1)/2) item h (by omega)
      · exact List.Perm.refl _
    · exact List.Perm.refl _

theorem siftup_perm (lt : α → α → Bool) (heap : List α) (item : α) (pos : Nat) (h) :
    (siftup lt heap item pos h).Perm (heap.set pos item) := by
  generalize hn : heap.length - pos = n
  induction n using Nat.strongRecOn generalizing heap pos with
  | _ n ih =>
    unfold siftup
    split
    · rename_i hc
      simp only
      have h1 := minChild_lt lt heap (2*pos+1) hc
      have h2 := minChild_ge lt heap (2*pos+1) hc
      refine (ih _ (by simp only [List.length_set]; omega) _ _ (by simpa using h1) rfl).trans ?_
      exact set_swap_perm heap pos _ item h h1
    · refine (siftdown_perm ..).trans ?_
      rw [List.set_set]

theorem siftdown_length (lt : α → α → Bool) (heap : List α) (item : α) (pos : Nat) (h) :
    (siftdown lt heap item pos h).length = heap.length := by
  simpa using (siftdown_perm lt heap item pos h).length_eq

/-- Strict weak order, as needed by `heapq`. -/
structure StrictWeak (lt : α → α → Bool) : Prop where
  asymm : ∀ a b, lt a b = true → lt b a = false
  negtrans : ∀ a b c, lt b a = false → lt c b = false → lt c a = false

/-- The heap invariant: no entry is smaller than its parent. -/
def IsHeap (lt : α → α → Bool) (l : List α) : Prop :=
  ∀ i (h : i < l.length), 0 < i → lt l[i] (l[(i-1)/2]'(by omega)) = false

variable {lt : α → α → Bool} (sw : StrictWeak lt)

theorem StrictWeak.irrefl (sw : StrictWeak lt) (a : α) : lt a a = false := by
  cases h : lt a a with
  | false => rfl
  | true => exact (sw.asymm a a h).symm.trans h |>.symm ▸ rfl

/-- Precondition of `_siftdown`: `V = heap.set pos item` is a heap except perhaps at `pos`, and the
children of `pos` are not smaller than the parent of `pos`. -/
structure DownPre (lt : α → α → Bool) (heap : List α) (item : α) (pos : Nat)
    (h : pos < heap.length) : Prop where
  other : ∀ i (hi : i < heap.length), 0 < i → i ≠ pos → (i-1)/2 ≠ pos →
    lt heap[i] (heap[(i-1)/2]'(by omega)) = false
  child : ∀ i (hi : i < heap.length), 0 < i → (i-1)/2 = pos → lt heap[i] item = false
  grand : 0 < pos → ∀ i (hi : i < heap.length), 0 < i → (i-1)/2 = pos →
    lt heap[i] (heap[(pos-1)/2]'(by omega)) = false

include sw in
theorem siftdown_heap (heap : List α) (item : α) (pos : Nat) (h)
    (pre : DownPre lt heap item pos h) : IsHeap lt (siftdown lt heap item pos h) := by
  induction pos using Nat.strongRecOn generalizing heap with
  | _ pos ih =>
    unfold siftdown
    split
    · rename_i hp
      simp only
      split
      · rename_i hlt
        apply ih _ (by omega)
        constructor
        · intro i hi h0 hne hpne
          simp only [List.length_set] at hi
          simp only [List.getElem_set]
          by_cases h1 : pos = i
          · subst h1; exact absurd rfl hpne
          · by_cases h2 : pos = (i-1)/2
            · rw [if_neg h1, if_pos h2]
              exact pre.grand hp i hi h0 h2.symm
            · rw [if_neg h1, if_neg h2]
              exact pre.other i hi h0 (Ne.symm h1) (Ne.symm h2)
        · intro i hi h0 hpar
          simp only [List.length_set] at hi
          simp only [List.getElem_set]
          split
          · exact sw.asymm _ _ hlt
          · rename_i hne
            have h3 : lt heap[i] (heap[(i-1)/2]'(by omega)) = false :=
              pre.other i hi h0 (Ne.symm hne) (by omega)
            have h4 : lt (heap[(i-1)/2]'(by omega)) item = false := by
              have : (heap[(i-1)/2]'(by omega)) = heap[(pos-1)/2]'(by omega) := by
                congr 1
              rw [this]; exact sw.asymm _ _ hlt
            exact sw.negtrans _ _ _ h4 h3
        · intro hpp i hi h0 hpar
          simp only [List.length_set] at hi
          simp only [List.getElem_set]
          have hpb : ¬ pos = ((pos-1)/2 - 1)/2 := by omega
          rw [if_neg hpb]
          have key : lt (heap[(pos-1)/2]'(by omega)) (heap[((pos-1)/2-1)/2]'(by omega)) = false :=
            pre.other _ (by omega) hpp (by omega) (by omega)
          split
          · exact key
          · rename_i hne
            have h3 : lt heap[i] (heap[(i-1)/2]'(by omega)) = false :=
              pre.other i hi h0 (Ne.symm hne) (by omega)
            have h5 : (heap[(i-1)/2]'(by omega)) = heap[(pos-1)/2]'(by omega) := by
              congr 1
            rw [h5] at h3
            exact sw.negtrans _ _ _ key h3
      · rename_i hlt
        intro i hi h0
        simp only [List.length_set] at hi
        simp only [List.getElem_set]
        by_cases h1 : pos = i
        · subst h1
          rw [if_pos rfl, if_neg (by omega)]
          simpa using hlt
        · rw [if_neg h1]
          by_cases h2 : pos = (i-1)/2
          · rw [if_pos h2]; exact pre.child i hi h0 h2.symm
          · rw [if_neg h2]; exact pre.other i hi h0 (Ne.symm h1) (Ne.symm h2)
    · rename_i hp
      intro i hi h0
      simp only [List.length_set] at hi
      simp only [List.getElem_set]
      by_cases h1 : pos = i
      · omega
      · rw [if_neg h1]
        by_cases h2 : pos = (i-1)/2
        · rw [if_pos h2]; exact pre.child i hi h0 h2.symm
        · rw [if_neg h2]; exact pre.other i hi h0 (Ne.symm h1) (Ne.symm h2)

/-- Precondition of `_siftup` (hole at `pos`, its content irrelevant). -/
structure UpPre (lt : α → α → Bool) (heap : List α) (pos : Nat)
    (h : pos < heap.length) : Prop where
  other : ∀ i (hi : i < heap.length), 0 < i → i ≠ pos → (i-1)/2 ≠ pos →
    lt heap[i] (heap[(i-1)/2]'(by omega)) = false
  grand : 0 < pos → ∀ i (hi : i < heap.length), 0 < i → (i-1)/2 = pos →
    lt heap[i] (heap[(pos-1)/2]'(by omega)) = false

theorem getElem_congr_idx' {l : List α} {i j : Nat} (h : i < l.length) (e : i = j) :
    l[i] = l[j]'(e ▸ h) := by subst e; rfl

include sw in
theorem minChild_min (heap : List α) (c : Nat) (hc : c < heap.length) (i : Nat)
    (hi : i < heap.length) (h : i = c ∨ i = c + 1) :
    lt heap[i] (heap[minChild lt heap c hc]'(minChild_lt ..)) = false := by
  have key : ∀ m (hm : m < heap.length), m = minChild lt heap c hc → lt heap[i] heap[m] = false := by
    intro m hm e
    unfold minChild at e
    split at e
    · split at e
      · rename_i hlt
        subst e
        rcases h with rfl | rfl
        · exact sw.irrefl _
        · exact sw.asymm _ _ hlt
      · rename_i hlt
        subst e
        rcases h with rfl | rfl
        · simpa using hlt
        · exact sw.irrefl _
    · subst e
      rcases h with rfl | rfl
      · exact sw.irrefl _
      · omega
  exact key _ _ rfl

theorem upPre_step (heap : List α) (pos m : Nat) (h) (pre : UpPre lt heap pos h)
    (h1 : m < heap.length) (h2 : 2*pos+1 ≤ m ∧ m ≤ 2*pos+1+1)
    (h3 : ∀ i (hi : i < heap.length), i = 2*pos+1 ∨ i = 2*pos+1+1 → lt heap[i] heap[m] = false)
    (h4 : m < (heap.set pos heap[m]).length) : UpPre lt (heap.set pos heap[m]) m h4 := by
  constructor
  · intro i hi h0 hne hpne
    simp only [List.length_set] at hi
    simp only [List.getElem_set]
    by_cases e1 : pos = i
    · subst e1
      rw [if_pos rfl, if_neg (by omega)]
      exact pre.grand h0 m h1 (by omega) (by omega)
    · rw [if_neg e1]
      by_cases e2 : pos = (i-1)/2
      · rw [if_pos e2]
        exact h3 i hi (by omega)
      · rw [if_neg e2]
        exact pre.other i hi h0 (Ne.symm e1) (Ne.symm e2)
  · intro hm i hi h0 hpar
    simp only [List.length_set] at hi
    simp only [List.getElem_set]
    rw [if_neg (by omega), if_pos (by omega)]
    have := pre.other i hi h0 (by omega) (by omega)
    rwa [getElem_congr_idx' (l := heap) (i := (i-1)/2) (j := m) (by omega) hpar] at this

include sw in
theorem siftup_heap (heap : List α) (item : α) (pos : Nat) (h)
    (pre : UpPre lt heap pos h) : IsHeap lt (siftup lt heap item pos h) := by
  generalize hn : heap.length - pos = n
  induction n using Nat.strongRecOn generalizing heap pos with
  | _ n ih =>
    unfold siftup
    split
    · rename_i hc
      simp only
      have h1 := minChild_lt lt heap (2*pos+1) hc
      have h2 := minChild_ge lt heap (2*pos+1) hc
      exact ih _ (by simp only [List.length_set]; omega) _ _ (by simpa using h1)
        (upPre_step heap pos _ h pre h1 h2
          (fun i hi hh => minChild_min sw heap (2*pos+1) hc i hi hh) _) rfl
    · rename_i hc
      apply siftdown_heap sw
      constructor
      · intro i hi h0 hne hpne
        simp only [List.length_set] at hi
        simp only [List.getElem_set]
        rw [if_neg (Ne.symm hne), if_neg (Ne.symm hpne)]
        exact pre.other i hi h0 hne hpne
      · intro i hi h0 hpar
        simp only [List.length_set] at hi
        omega
      · intro _ i hi h0 hpar
        simp only [List.length_set] at hi
        omega

include sw in
theorem heappush_heap (heap : List α) (x : α) (h : IsHeap lt heap) :
    IsHeap lt (heappush lt heap x) := by
  unfold heappush
  apply siftdown_heap sw
  constructor
  · intro i hi h0 hne hpne
    simp only [List.length_append, List.length_cons, List.length_nil] at hi
    rw [List.getElem_append_left (by omega), List.getElem_append_left (by omega)]
    exact h i (by omega) h0
  · intro i hi h0 hpar
    simp only [List.length_append, List.length_cons, List.length_nil] at hi
    omega
  · intro _ i hi h0 hpar
    simp only [List.length_append, List.length_cons, List.length_nil] at hi
    omega

theorem heappush_perm (heap : List α) (x : α) : (heappush lt heap x).Perm (x :: heap) := by
  unfold heappush
  refine (siftdown_perm ..).trans ?_
  refine (set_perm_cons_erase _ _ _ (by simp)).trans ?_
  rw [List.eraseIdx_append_of_length_le (by simp)]
  simp

theorem heappop_none {heap : List α} : heappop lt heap = none ↔ heap = [] := by
  unfold heappop
  cases h : heap.getLast? with
  | none => simpa using h
  | some a =>
    simp only
    split
    · simp; intro e; simp [e] at h
    · simp; intro e; simp [e] at h

include sw in
theorem isHeap_root {l : List α} (h : IsHeap lt l) (i : Nat) (hi : i < l.length) :
    lt l[i] (l[0]'(by omega)) = false := by
  induction i using Nat.strongRecOn with
  | _ i ih =>
    by_cases h0 : i = 0
    · subst h0; exact sw.irrefl _
    · exact sw.negtrans _ _ _ (ih ((i-1)/2) (by omega) (by omega)) (h i hi (by omega))

include sw in
theorem heappop_some {heap : List α} (hh : IsHeap lt heap) {x r}
    (h : heappop lt heap = some (x, r)) :
    heap.Perm (x :: r) ∧ IsHeap lt r ∧ ∀ y ∈ heap, lt y x = false := by
  unfold heappop at h
  cases hl : heap.getLast? with
  | none => rw [hl] at h; simp at h
  | some last =>
    rw [hl] at h
    simp only at h
    have hcat : heap = heap.dropLast ++ [last] := by
      obtain ⟨ys, rfl⟩ := List.getLast?_eq_some_iff.1 hl
      simp
    split at h
    · rename_i hr
      simp at h
      obtain ⟨rfl, rfl⟩ := h
      rw [hr] at hcat
      subst hcat
      refine ⟨List.Perm.refl _, ?_, ?_⟩
      · intro i hi; simp at hi
      · intro y hy; simp at hy; subst hy; exact sw.irrefl _
    · rename_i root rest hr
      simp at h
      obtain ⟨rfl, rfl⟩ := h
      rw [hr] at hcat
      refine ⟨?_, ?_, ?_⟩
      · rw [hcat]
        have := siftup_perm lt (last :: rest) last 0 (by simp)
        simp only [List.set_cons_zero] at this
        refine List.Perm.trans ?_ (this.symm.cons root)
        simp only [List.cons_append]
        exact List.Perm.cons _ (List.perm_append_singleton ..)
      · apply siftup_heap sw
        have hget : ∀ i (hi : i < (last :: rest).length) (h0 : 0 < i),
            (last :: rest)[i] = heap[i]'(by rw [hcat]; simp at *; omega) := by
          intro i hi h0
          simp only [hcat]
          have : (root :: rest ++ [last])[i]'(by simp at *; omega) = (root :: rest)[i]'(by simpa using hi) :=
            List.getElem_append_left (by simpa using hi)
          rw [this]
          cases i with
          | zero => omega
          | succ i => simp
        constructor
        · intro i hi h0 hne hpne
          rw [hget i hi h0, hget ((i-1)/2) (by omega) (by omega)]
          exact hh i _ h0
        · intro h0; omega
      · intro y hy
        obtain ⟨i, hi, rfl⟩ := List.getElem_of_mem hy
        have := isHeap_root sw hh i hi
        have e : heap[0]'(by omega) = root := by
          simp only [hcat]; simp
        rwa [e] at this

theorem msgLt_sw {κ : Type} : StrictWeak (msgLt (κ := κ)) where
  asymm := by intro a b h; simp only [msgLt, decide_eq_true_eq, decide_eq_false_iff_not] at *; exact keyLt_asymm h
  negtrans := by
    intro a b c h h'
    simp only [msgLt, decide_eq_false_iff_not] at *
    exact not_keyLt_trans h h'

end Jq
