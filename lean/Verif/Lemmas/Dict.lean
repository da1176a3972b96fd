import Verif.Py.Dict
set_option linter.unusedSectionVars false
namespace Jq
variable {κ β : Type} [DecidableEq κ]

@[simp] theorem dget_nil (k : κ) : dget ([] : Dict κ β) k = none := rfl

theorem dget_dset (d : Dict κ β) (k k' : κ) (v : β) : dget (dset d k v) k' = if k = k' then some v else dget d k' := by
  induction d with
  | nil => simp [dset, dget]
  | cons e d ih =>
    obtain ⟨a, b⟩ := e
    simp only [dset]
    by_cases h : a = k
    · subst h
      by_cases h2 : a = k' <;> simp [dget, h2]
    · simp only [if_neg h, dget, ih]
      by_cases h2 : a = k'
      · have : ¬ k = k' := fun e => h (h2.trans e.symm)
        simp [h2, this]
      · simp [h2]

theorem dget_dset_self (d : Dict κ β) (k : κ) (v : β) : dget (dset d k v) k = some v := by simp [dget_dset]

theorem dget_dset_ne (d : Dict κ β) {k k' : κ} (h : k ≠ k') (v : β) : dget (dset d k v) k' = dget d k' := by
  simp [dget_dset, h]

theorem mem_dkeys_iff (d : Dict κ β) (k : κ) : k ∈ dkeys d ↔ (dget d k).isSome := by
  induction d with
  | nil => simp [dkeys]
  | cons e d ih =>
    obtain ⟨a, b⟩ := e
    simp only [dkeys, List.map_cons, List.mem_cons, dget] at *
    by_cases h : a = k
    · simp [h]
    · rw [ih]
      have : ¬ k = a := fun e => h e.symm
      simp [h, this]

theorem dget_eq_none (d : Dict κ β) (k : κ) : dget d k = none ↔ k ∉ dkeys d := by
  rw [mem_dkeys_iff]; cases dget d k <;> simp

theorem dkeys_dset (d : Dict κ β) (k : κ) (v : β) :
    dkeys (dset d k v) = if k ∈ dkeys d then dkeys d else dkeys d ++ [k] := by
  induction d with
  | nil => simp [dset, dkeys]
  | cons e d ih =>
    obtain ⟨a, b⟩ := e
    simp only [dset]
    by_cases h : a = k
    · simp [h, dkeys]
    · have h' : ¬ k = a := fun e => h e.symm
      simp only [if_neg h]
      simp only [dkeys, List.map_cons, List.mem_cons, h', false_or] at *
      rw [ih]
      split <;> simp_all

theorem DictOk.dset {d : Dict κ β} (h : DictOk d) (k : κ) (v : β) : DictOk (dset d k v) := by
  simp only [DictOk, dkeys_dset]
  split
  · exact h
  · rename_i hk
    rw [List.nodup_append]
    refine ⟨h, by simp, ?_⟩
    intro a ha b hb hab
    simp at hb
    subst hb hab
    exact hk ha

theorem DictOk.nil : DictOk ([] : Dict κ β) := by simp [DictOk, dkeys]

theorem dget_of_mem {d : Dict κ β} (h : DictOk d) {k : κ} {v : β} (hm : (k, v) ∈ d) : dget d k = some v := by
  induction d with
  | nil => simp at hm
  | cons e d ih =>
    obtain ⟨a, b⟩ := e
    simp only [DictOk, dkeys, List.map_cons, List.nodup_cons] at h
    rcases List.mem_cons.1 hm with heq | hm
    · injection heq with h1 h2; subst h1 h2; simp [dget]
    · have : a ≠ k := by
        rintro rfl
        exact h.1 (List.mem_map.2 ⟨_, hm, rfl⟩)
      simp only [dget, if_neg this]
      exact ih h.2 hm

theorem mem_of_dget {d : Dict κ β} {k : κ} {v : β} (h : dget d k = some v) : (k, v) ∈ d := by
  induction d with
  | nil => simp at h
  | cons e d ih =>
    obtain ⟨a, b⟩ := e
    simp only [dget] at h
    split at h
    · rename_i hk; injection h with h; subst hk h; simp
    · exact List.mem_cons_of_mem _ (ih h)

theorem mem_iff_dget {d : Dict κ β} (h : DictOk d) {k : κ} {v : β} : (k, v) ∈ d ↔ dget d k = some v :=
  ⟨dget_of_mem h, mem_of_dget⟩

end Jq
