import Verif.Py.Sort
namespace Jq
variable {α : Type} (key : α → Int)

theorem insertBy_perm (x : α) (l : List α) : (insertBy key x l).Perm (x :: l) := by
  induction l with
  | nil => exact .refl _
  | cons y ys ih =>
    simp only [insertBy]
    split
    · exact .refl _
    · exact (List.Perm.cons y ih).trans (List.Perm.swap x y ys)

theorem sortBy_perm (l : List α) : (sortBy key l).Perm l := by
  induction l with
  | nil => exact .refl _
  | cons x xs ih => exact (insertBy_perm key x _).trans (ih.cons x)

theorem mem_insertBy {x y : α} {l : List α} : y ∈ insertBy key x l ↔ y = x ∨ y ∈ l := by
  rw [(insertBy_perm key x l).mem_iff, List.mem_cons]

theorem mem_sortBy {y : α} {l : List α} : y ∈ sortBy key l ↔ y ∈ l := (sortBy_perm key l).mem_iff

theorem insertBy_sorted {x : α} {l : List α} (h : l.Pairwise (fun a b => key a ≤ key b)) :
    (insertBy key x l).Pairwise (fun a b => key a ≤ key b) := by
  induction l with
  | nil => simp [insertBy]
  | cons y ys ih =>
    rw [List.pairwise_cons] at h
    simp only [insertBy]
    split
    · rename_i hxy
      rw [List.pairwise_cons, List.pairwise_cons]
      refine ⟨?_, h⟩
      intro b hb
      rcases List.mem_cons.1 hb with rfl | hb
      · exact hxy
      · exact Int.le_trans hxy (h.1 b hb)
    · rename_i hxy
      rw [List.pairwise_cons]
      refine ⟨?_, ih h.2⟩
      intro b hb
      rcases (mem_insertBy key).1 hb with rfl | hb
      · omega
      · exact h.1 b hb

theorem sortBy_sorted (l : List α) : (sortBy key l).Pairwise (fun a b => key a ≤ key b) := by
  induction l with
  | nil => exact .nil
  | cons x xs ih => exact insertBy_sorted key ih

theorem insertBy_filter (k : Int) (x : α) {l : List α} (h : l.Pairwise (fun a b => key a ≤ key b)) :
    (insertBy key x l).filter (fun a => decide (key a = k)) = (x :: l).filter (fun a => decide (key a = k)) := by
  induction l with
  | nil => rfl
  | cons y ys ih =>
    rw [List.pairwise_cons] at h
    simp only [insertBy]
    split
    · rfl
    · rename_i hxy
      rw [List.filter_cons, ih h.2]
      by_cases hy : key y = k
      · have hx : ¬ key x = k := by omega
        simp [hy, hx]
      · simp [List.filter_cons, hy]

/-- Stability: the elements with one key keep their order. -/
theorem sortBy_stable (k : Int) (l : List α) :
    (sortBy key l).filter (fun a => decide (key a = k)) = l.filter (fun a => decide (key a = k)) := by
  induction l with
  | nil => rfl
  | cons x xs ih =>
    simp only [sortBy]
    rw [insertBy_filter key k x (sortBy_sorted key xs), List.filter_cons, List.filter_cons, ih]

theorem sortBy_nil_iff {l : List α} : sortBy key l = [] ↔ l = [] := by
  constructor
  · intro h
    have := sortBy_perm key l
    rw [h] at this
    exact List.nil_perm.1 this
  · rintro rfl; rfl

theorem insertBy_of_le {x : α} {l : List α} (h : ∀ y ∈ l, key x ≤ key y) : insertBy key x l = x :: l := by
  cases l with
  | nil => rfl
  | cons y ys => simp [insertBy, h y (by simp)]

theorem sortBy_of_sorted {l : List α} (h : l.Pairwise (fun a b => key a ≤ key b)) : sortBy key l = l := by
  induction l with
  | nil => rfl
  | cons x xs ih =>
    rw [List.pairwise_cons] at h
    simp only [sortBy]
    rw [ih h.2, insertBy_of_le key h.1]

end Jq
