import Verif.Spec.OrderSync
import Verif.Lemmas.OrderSync
import Verif.Lemmas.Str
set_option linter.unusedSectionVars false
/-! # Records as lines -/
namespace Jq

theorem dropWhile_head {α : Type} (p : α → Bool) (l : List α) : ∀ x ∈ (l.dropWhile p).head?, p x = false := by
  intro x hx
  induction l with
  | nil => simp at hx
  | cons a l ih =>
    simp only [List.dropWhile_cons] at hx
    split at hx
    · exact ih hx
    · rename_i h; simp at hx; subst hx; simpa using h

theorem pyStrip_head {s : Str} (h : pyStrip s = s) : ∀ c ∈ s.head?, isSpace c = false := by
  intro c hc
  have h1 := dropWhile_head isSpace s
  by_cases hs : lstripBy isSpace s = s
  · rw [lstripBy] at hs; rw [hs] at h1; exact h1 c hc
  · exfalso
    have hl : (lstripBy isSpace s).length < s.length := by
      have hsuf : lstripBy isSpace s <:+ s := List.dropWhile_suffix _
      rcases Nat.lt_or_ge (lstripBy isSpace s).length s.length with h | h
      · exact h
      · exact absurd (hsuf.eq_of_length_le h) hs
    have h2 : (pyStrip s).length ≤ (lstripBy isSpace s).length := by
      simp only [pyStrip, rstripBy, List.length_reverse]
      have : lstripBy isSpace (lstripBy isSpace s).reverse <:+ (lstripBy isSpace s).reverse := List.dropWhile_suffix _
      have := this.length_le
      simpa using this
    rw [h] at h2
    omega

theorem pyStrip_last {s : Str} (h : pyStrip s = s) : ∀ c ∈ s.getLast?, isSpace c = false := by
  intro c hc
  have h1 := dropWhile_head isSpace (lstripBy isSpace s).reverse
  have : (lstripBy isSpace (lstripBy isSpace s).reverse).head? = s.getLast? := by
    have := congrArg List.getLast? h
    simpa [pyStrip, rstripBy, List.getLast?_reverse] using this
  refine h1 c ?_
  rw [← this] at hc
  exact hc

theorem pyStrip_of {s : Str} (h1 : ∀ c ∈ s.head?, isSpace c = false) (h2 : ∀ c ∈ s.getLast?, isSpace c = false) : pyStrip s = s := by
  rw [pyStrip, lstripBy_self h1, rstripBy, lstripBy_self (by simpa [List.head?_reverse] using h2), List.reverse_reverse]

theorem joinWith_head {p : Str} {ps : List Str} {c : Char} (h : c ∈ (joinWith [','] (p :: ps)).head?) : c = ',' ∨ c ∈ p.head? := by
  cases ps with
  | nil => exact .inr h
  | cons q qs =>
    rw [joinWith_cons] at h
    cases p with
    | nil => simp at h; exact .inl h.symm
    | cons d p => simp at h; simp [h]

theorem joinWith_last {ps : List Str} {c : Char} (h : c ∈ (joinWith [','] ps).getLast?) : c = ',' ∨ ∃ p ∈ ps, c ∈ p.getLast? := by
  induction ps with
  | nil => simp [joinWith] at h
  | cons p ps ih =>
    cases ps with
    | nil => exact .inr ⟨p, by simp, h⟩
    | cons q qs =>
      rw [joinWith_cons, List.append_assoc, List.getLast?_append] at h
      cases hj : (joinWith [','] (q :: qs)).getLast? with
      | none =>
        have : joinWith [','] (q :: qs) = [] := by simpa using hj
        rw [this] at h
        simp at h
        exact .inl h.symm
      | some d =>
        have hne : joinWith [','] (q :: qs) ≠ [] := by intro e; rw [e] at hj; simp at hj
        rw [List.getLast?_append, hj] at h
        simp at h
        subst h
        rcases ih (by rw [hj]; rfl) with h | ⟨p', h1, h2⟩
        · exact .inl h
        · exact .inr ⟨p', by simp [List.mem_cons.1 h1], h2⟩

theorem joinWith_mem {ps : List Str} {c : Char} (h : c ∈ joinWith [','] ps) : c = ',' ∨ ∃ p ∈ ps, c ∈ p := by
  induction ps with
  | nil => simp [joinWith] at h
  | cons p ps ih =>
    cases ps with
    | nil => exact .inr ⟨p, by simp, h⟩
    | cons q qs =>
      rw [joinWith_cons, List.append_assoc] at h
      simp only [List.mem_append, List.mem_singleton] at h
      rcases h with h | h | h
      · exact .inr ⟨p, by simp, h⟩
      · exact .inl h
      · rcases ih h with h | ⟨p', h1, h2⟩
        · exact .inl h
        · exact .inr ⟨p', by simp [List.mem_cons.1 h1], h2⟩

theorem isPrefixOf_head {pre p rest : Str} (hc : ',' ∉ pre) (h : pre.isPrefixOf (p ++ ',' :: rest) = true) : pre.isPrefixOf p = true := by
  induction pre generalizing p with
  | nil => simp
  | cons a pre ih =>
    simp only [List.mem_cons, not_or] at hc
    cases p with
    | nil => simp [List.isPrefixOf] at h; exact absurd h.1.symm hc.1
    | cons b p =>
      simp only [List.cons_append, List.isPrefixOf, Bool.and_eq_true] at h ⊢
      exact ⟨h.1, ih hc.2 h.2⟩

theorem recordText_facts {cols : Nat} (hcols : 2 ≤ cols) {items : List Str} (h : CleanRecord cols items) :
    recordText items ≠ [] ∧ '\n' ∉ recordText items ∧ '\r' ∉ recordText items ∧ lineKind cols (recordText items) = .fields items := by
  obtain ⟨hlen, hcl, hhd⟩ := h
  match items, hlen with
  | [], h => simp at h; omega
  | [_], h => simp at h; omega
  | p :: q :: qs, hlen =>
    have hne : recordText (p :: q :: qs) ≠ [] := by simp [recordText, joinWith_cons]
    have hmem : ∀ c : Char, c ≠ ',' → (∀ s ∈ p :: q :: qs, c ∉ s) → c ∉ recordText (p :: q :: qs) := by
      intro c hc h hm
      rcases joinWith_mem hm with e | ⟨s, h1, h2⟩
      · exact hc e
      · exact h s h1 h2
    refine ⟨hne, hmem _ (by decide) (fun s hs => (hcl s hs).2.1), hmem _ (by decide) (fun s hs => (hcl s hs).2.2.1), ?_⟩
    have hstrip : pyStrip (recordText (p :: q :: qs)) = recordText (p :: q :: qs) := by
      apply pyStrip_of
      · intro c hc
        rcases joinWith_head hc with rfl | hc
        · decide
        · exact pyStrip_head (hcl p (by simp)).2.2.2 c hc
      · intro c hc
        rcases joinWith_last hc with rfl | ⟨s, h1, h2⟩
        · decide
        · exact pyStrip_last (hcl s h1).2.2.2 c h2
    have hpre : c!"updTime".isPrefixOf (recordText (p :: q :: qs)) = false := by
      rw [Bool.eq_false_iff]
      intro hp
      rw [recordText, joinWith_cons, List.append_assoc] at hp
      have := isPrefixOf_head (pre := c!"updTime") (by decide) (by simpa using hp)
      rw [hhd p (by simp)] at this
      cases this
    have hsplit : splitOn ',' (recordText (p :: q :: qs)) = p :: q :: qs :=
      splitOn_joinWith (by simp) (fun s hs => (hcl s hs).1)
    have hmap : ∀ l : List Str, (∀ s ∈ l, pyStrip s = s) → l.map pyStrip = l := by
      intro l hl
      induction l with
      | nil => rfl
      | cons a l ih => rw [List.map_cons, hl a (by simp), ih (fun s hs => hl s (by simp [hs]))]
    simp only [lineKind, hstrip, if_neg hne, hpre, Bool.false_eq_true, if_false, hsplit]
    rw [hmap _ (fun s hs => (hcl s hs).2.2.2), if_neg (by omega)]

theorem rawLines_record {s : Str} (hne : s ≠ []) (h1 : '\n' ∉ s) (h2 : '\r' ∉ s) (t : Str) :
    rawLines (s ++ '\n' :: t) = (s, s.length + 1) :: rawLines t := by
  induction s with
  | nil => exact absurd rfl hne
  | cons c s ih =>
    simp only [List.mem_cons, not_or] at h1 h2
    rw [List.cons_append, rawLines_char (fun e => h1.1 e.symm) (fun e => h2.1 e.symm)]
    cases s with
    | nil => rw [List.nil_append, rawLines_lf]; rfl
    | cons d s => rw [ih (by simp) h1.2 h2.2]; rfl

theorem rawLines_fileText {cols : Nat} (hcols : 2 ≤ cols) {records : List (List Str)} (h : ∀ r ∈ records, CleanRecord cols r) (t : Str) :
    rawLines (fileText records ++ t) = (records.map fun r => (recordText r, (recordText r).length + 1)) ++ rawLines t := by
  induction records with
  | nil => rfl
  | cons r rs ih =>
    obtain ⟨h1, h2, h3, _⟩ := recordText_facts hcols (h r (by simp))
    have : fileText (r :: rs) ++ t = recordText r ++ '\n' :: (fileText rs ++ t) := by simp [fileText]
    rw [this, rawLines_record h1 h2 h3, ih (fun r hr => h r (by simp [hr]))]
    rfl

theorem wholeLines_fileText (records : List (List Str)) : WholeLines (fileText records) := by
  induction records with
  | nil => exact .inl rfl
  | cons r rs ih =>
    right
    have : fileText (r :: rs) = (recordText r ++ ['\n']) ++ fileText rs := by simp [fileText]
    rw [this, List.getLast?_append]
    rcases ih with h | h
    · rw [h]; simp
    · rw [h]; rfl

end Jq
