import Verif.Py.Str

namespace Jq

theorem splitOn_ne_nil (sep : Char) (s : Str) : splitOn sep s ≠ [] := by
  cases s with
  | nil => simp [splitOn]
  | cons c cs =>
    simp only [splitOn]
    split
    · simp
    · split <;> simp

theorem splitOn_not_mem {sep : Char} {s : Str} (h : sep ∉ s) : splitOn sep s = [s] := by
  induction s with
  | nil => rfl
  | cons c cs ih =>
    simp only [List.mem_cons, not_or] at h
    simp only [splitOn]
    rw [if_neg (fun e => h.1 e.symm), ih h.2]

theorem splitOn_append {sep : Char} {a : Str} (h : sep ∉ a) (b : Str) :
    splitOn sep (a ++ sep :: b) = a :: splitOn sep b := by
  induction a with
  | nil => simp [splitOn]
  | cons c cs ih =>
    simp only [List.mem_cons, not_or] at h
    simp only [List.cons_append, splitOn]
    rw [if_neg (fun e => h.1 e.symm), ih h.2]

theorem splitOn_part_not_mem {sep : Char} {s p : Str} (h : p ∈ splitOn sep s) : sep ∉ p := by
  induction s generalizing p with
  | nil => simp [splitOn] at h; simp [h]
  | cons c cs ih =>
    simp only [splitOn] at h
    split at h
    · rcases List.mem_cons.1 h with rfl | h
      · simp
      · exact ih h
    · rename_i hc
      cases hs : splitOn sep cs with
      | nil => exact absurd hs (splitOn_ne_nil _ _)
      | cons q qs =>
        rw [hs] at h ih
        simp only at h
        rcases List.mem_cons.1 h with rfl | h
        · simp only [List.mem_cons, not_or]
          exact ⟨fun e => hc e.symm, ih (List.mem_cons_self ..)⟩
        · exact ih (List.mem_cons_of_mem _ h)

theorem joinWith_cons (sep p : Str) (q : Str) (qs : List Str) :
    joinWith sep (p :: q :: qs) = p ++ sep ++ joinWith sep (q :: qs) := rfl

/-- `sep.join(s.split(sep)) == s`. -/
theorem joinWith_splitOn (sep : Char) (s : Str) : joinWith [sep] (splitOn sep s) = s := by
  induction s with
  | nil => rfl
  | cons c cs ih =>
    simp only [splitOn]
    split
    · rename_i h; subst h
      cases hs : splitOn c cs with
      | nil => exact absurd hs (splitOn_ne_nil _ _)
      | cons q qs => rw [joinWith_cons, ← hs, ih]; rfl
    · cases hs : splitOn sep cs with
      | nil => exact absurd hs (splitOn_ne_nil _ _)
      | cons q qs =>
        rw [hs] at ih
        cases qs with
        | nil => simpa [joinWith] using ih
        | cons q' qs' => simpa [joinWith] using ih

/-- `sep.join(parts).split(sep) == parts` when no part contains the separator. -/
theorem splitOn_joinWith {sep : Char} {ps : List Str} (hne : ps ≠ []) (h : ∀ p ∈ ps, sep ∉ p) :
    splitOn sep (joinWith [sep] ps) = ps := by
  induction ps with
  | nil => exact absurd rfl hne
  | cons p ps ih =>
    cases ps with
    | nil => exact splitOn_not_mem (h p (List.mem_cons_self ..))
    | cons q qs =>
      rw [joinWith_cons, List.append_assoc]
      simp only [List.singleton_append]
      rw [splitOn_append (h p (List.mem_cons_self ..)), ih (by simp)
        (fun x hx => h x (List.mem_cons_of_mem _ hx))]

theorem digitsUnderscore_digits {ds : Str} (h : ∀ c ∈ ds, isDig c = true) (hne : ds ≠ []) (b : Bool) :
    digitsUnderscore b ds = some ds := by
  induction ds generalizing b with
  | nil => exact absurd rfl hne
  | cons c cs ih =>
    simp only [digitsUnderscore, h c (List.mem_cons_self ..), if_true]
    cases cs with
    | nil => simp [digitsUnderscore]
    | cons c' cs' =>
      rw [ih (fun x hx => h x (List.mem_cons_of_mem _ hx)) (by simp)]
      rfl

theorem isDig_iff {c : Char} : isDig c = true ↔ '0' ≤ c ∧ c ≤ '9' := by
  simp [isDig]

theorem isDig_toNat {c : Char} : isDig c = true ↔ 48 ≤ c.toNat ∧ c.toNat ≤ 57 := by
  simp only [isDig, Bool.and_eq_true, decide_eq_true_eq, Char.le_def, UInt32.le_iff_toNat_le]
  exact Iff.rfl

theorem isDig_ne {c d : Char} (h : isDig c = true) (hd : isDig d = false) : c ≠ d := by
  rintro rfl; rw [h] at hd; cases hd

theorem isSpace_of_isDig {c : Char} (h : isDig c = true) : isSpace c = false := by
  have h := isDig_toNat.1 h
  simp only [isSpace, Bool.or_eq_false_iff, Bool.and_eq_false_iff, decide_eq_false_iff_not]
  omega

theorem isIntSpace_of_isSpace {c : Char} (h : isSpace c = false) : isIntSpace c = false := by simp [isIntSpace, h]

theorem isIntSpace_of_isDig {c : Char} (h : isDig c = true) : isIntSpace c = false :=
  isIntSpace_of_isSpace (isSpace_of_isDig h)

theorem lstripBy_self {p : Char → Bool} {s : Str} (h : ∀ c ∈ s.head?, p c = false) :
    lstripBy p s = s := by
  cases s with
  | nil => rfl
  | cons c cs => simp [lstripBy, h c (by simp)]

theorem pyStrip_self {s : Str} (h : ∀ c ∈ s, isSpace c = false) : pyStrip s = s := by
  unfold pyStrip rstripBy
  rw [lstripBy_self (s := s), lstripBy_self]
  · simp
  · intro c hc
    have := List.mem_of_head? hc
    exact h c (by simpa using this)
  · intro c hc
    exact h c (List.mem_of_head? hc)

theorem stripBy_self {p : Char → Bool} {s : Str} (h : ∀ c ∈ s, p c = false) : stripBy p s = s := by
  unfold stripBy rstripBy
  rw [lstripBy_self (s := s), lstripBy_self]
  · simp
  · intro c hc
    have := List.mem_of_head? hc
    exact h c (by simpa using this)
  · intro c hc
    exact h c (List.mem_of_head? hc)

theorem pyInt_digits {ds : Str} (h : ∀ c ∈ ds, isDig c = true) (hne : ds ≠ []) :
    pyInt ds = some (natOfDigits ds : Int) := by
  unfold pyInt
  rw [stripBy_self (fun c hc => isIntSpace_of_isSpace (isSpace_of_isDig (h c hc)))]
  cases ds with
  | nil => exact absurd rfl hne
  | cons c cs =>
    have hc := h c (List.mem_cons_self ..)
    have h1 : c ≠ '-' := isDig_ne hc (by decide)
    have h2 : c ≠ '+' := isDig_ne hc (by decide)
    split
    · rename_i e; simp at e; exact absurd e.1 h1
    · rename_i e; simp at e; exact absurd e.1 h2
    · rw [digitsUnderscore_digits h hne]; rfl

end Jq
