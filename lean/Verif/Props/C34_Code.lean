import Verif.Model.Code
import Verif.Spec.Account
import Verif.Lemmas.Str
/-! # C34: security codes in the broker's notation -/
namespace Jq

/-- The broker's notation of a code: digits, separator, `SZ` or `SH`. -/
def BrokerCode (udig : Char → Bool) (code enc : Str) : Prop :=
  ∃ stem sep, stem ≠ [] ∧ (∀ c ∈ stem, isDigitU udig c = true) ∧
    ((code = stem ++ sep :: c!"XSHE" ∧ enc = stem ++ sep :: c!"SZ") ∨
     (code = stem ++ sep :: c!"XSHG" ∧ enc = stem ++ sep :: c!"SH"))

private theorem replaceGo_skip (old new : Str) (p : Str) (h : ∀ q r, p = q ++ r → r ≠ [] → ∀ s, old.isPrefixOf (r ++ s) = false) (s : Str) :
    replaceGo old new 0 (p ++ s) = p ++ replaceGo old new 0 s := by
  induction p with
  | nil => rfl
  | cons c p ih =>
    simp only [List.cons_append, replaceGo]
    have := h [] (c :: p) rfl (by simp) s
    simp only [List.cons_append] at this
    rw [this]
    simp only [Bool.false_eq_true, if_false]
    rw [ih (fun q r e hr s => h (c :: q) r (by rw [e]; rfl) hr s)]

private theorem digit_ne {udig : Char → Bool} {c d : Char} (h : isDigitU udig c = true) (hd : d.toNat < 128 ∧ isDig d = false) : d ≠ c := by
  rintro rfl
  simp only [isDigitU, hd.2, Bool.false_or, Bool.and_eq_true, decide_eq_true_eq] at h
  omega

/-- The stem is copied: the text to be replaced begins with a letter. -/
private theorem replace_stem {udig : Char → Bool} {stem : Str} (h : ∀ c ∈ stem, isDigitU udig c = true) (x : Char) (old new s : Str)
    (hx : x.toNat < 128 ∧ isDig x = false) : pyReplace (x :: old) new (stem ++ s) = stem ++ pyReplace (x :: old) new s := by
  refine replaceGo_skip _ _ _ ?_ _
  intro q r e hr t
  cases r with
  | nil => exact absurd rfl hr
  | cons c r =>
    have : isDigitU udig c = true := h c (by rw [e]; simp)
    simp [List.isPrefixOf, digit_ne this hx]

private theorem rep_xs (sep b : Char) (new : Str) (hb : b = 'E' ∨ b = 'G') :
    pyReplace ['X', 'S', 'H', b] new (sep :: ['X', 'S', 'H', b]) = sep :: new := by
  simp only [pyReplace, replaceGo, List.isPrefixOf]
  rcases hb with rfl | rfl <;> simp [replaceGo]

private theorem rep_s (sep b : Char) (new : Str) (hb : b = 'Z' ∨ b = 'H') :
    pyReplace ['S', b] new (sep :: ['S', b]) = sep :: new := by
  simp only [pyReplace, replaceGo, List.isPrefixOf]
  rcases hb with rfl | rfl <;> simp [replaceGo]

private theorem ends (p t : Str) : endsWith (p ++ t) t = true := by simp [endsWith]

private theorem ends_cons (p : Str) (c : Char) (t : Str) : endsWith (p ++ c :: t) t = true := by
  have := ends (p ++ [c]) t
  simpa using this

private theorem ends_ne (p : Str) (sep : Char) (t u : Str) (hl : t.length = u.length) (hne : t ≠ u) : endsWith (p ++ sep :: t) u = false := by
  rw [Bool.eq_false_iff]
  intro h
  rw [endsWith, List.isSuffixOf_iff_suffix] at h
  have h2 : t <:+ p ++ sep :: t := ⟨p ++ [sep], by simp⟩
  have := List.suffix_of_suffix_length_le h2 h (by omega)
  exact hne (this.eq_of_length hl)

/-- Every accepted code is translated to digits, separator and `SZ`/`SH`. -/
theorem c34_encoded (udig : Char → Bool) (code : Str) (h : ValidCode udig code) :
    ∃ enc, encodeSecurity code = .ok enc ∧ BrokerCode udig code enc := by
  obtain ⟨stem, sep, suffix, rfl, hne, hd, hs⟩ := h
  rcases hs with rfl | rfl
  · refine ⟨stem ++ sep :: c!"SZ", ?_, stem, sep, hne, hd, .inl ⟨rfl, rfl⟩⟩
    rw [encodeSecurity, ends_cons, if_pos rfl, replace_stem hd 'X' _ _ _ (by decide), rep_xs _ _ _ (.inl rfl)]
  · refine ⟨stem ++ sep :: c!"SH", ?_, stem, sep, hne, hd, .inr ⟨rfl, rfl⟩⟩
    rw [encodeSecurity, ends_ne _ _ c!"XSHG" c!"XSHE" rfl (by decide), ends_cons, if_neg (by decide), if_pos rfl,
      replace_stem hd 'X' _ _ _ (by decide), rep_xs _ _ _ (.inr rfl)]

/-- The broker's notation is translated back. -/
theorem c34_decoded (udig : Char → Bool) (code enc : Str) (h : BrokerCode udig code enc) : decodeSecurity enc = .ok code := by
  obtain ⟨stem, sep, hne, hd, ⟨rfl, rfl⟩ | ⟨rfl, rfl⟩⟩ := h
  · rw [decodeSecurity, ends_cons, if_pos rfl, replace_stem hd 'S' _ _ _ (by decide), rep_s _ _ _ (.inl rfl)]
  · rw [decodeSecurity, ends_ne _ _ c!"SH" c!"SZ" rfl (by decide), ends_cons, if_neg (by decide), if_pos rfl,
      replace_stem hd 'S' _ _ _ (by decide), rep_s _ _ _ (.inr rfl)]

/-- For every accepted code, decoding the encoded code gives the code back. -/
theorem c34_round_trip (udig : Char → Bool) (code : Str) (h : ValidCode udig code) :
    ∃ enc, encodeSecurity code = .ok enc ∧ decodeSecurity enc = .ok code := by
  obtain ⟨enc, h1, h2⟩ := c34_encoded udig code h
  exact ⟨enc, h1, c34_decoded udig code enc h2⟩

/-- Different accepted codes are encoded differently. -/
theorem c34_injective (udig : Char → Bool) (a b : Str) (ha : ValidCode udig a) (hb : ValidCode udig b)
    (h : encodeSecurity a = encodeSecurity b) : a = b := by
  obtain ⟨ea, h1, h2⟩ := c34_round_trip udig a ha
  obtain ⟨eb, h3, h4⟩ := c34_round_trip udig b hb
  rw [h1, h3, Except.ok.injEq] at h
  subst h
  rw [h2, Except.ok.injEq] at h4
  exact h4

/-- Outside the accepted codes it fails: all occurrences are replaced. -/
theorem c34_other_codes_witness : ∃ enc, encodeSecurity c!"XSHE1.XSHE" = .ok enc ∧ enc = c!"SZ1.SZ" ∧
    encodeSecurity c!"SZ1.XSHE" = .ok enc := ⟨_, rfl, rfl, rfl⟩

/-- Non-vacuity. -/
example : ValidCode (fun _ => false) c!"600000.XSHG" ∧ encodeSecurity c!"600000.XSHG" = .ok c!"600000.SH" ∧
    decodeSecurity c!"600000.SH" = .ok c!"600000.XSHG" ∧ encodeSecurity c!"000001.XSHE" = .ok c!"000001.SZ" :=
  ⟨⟨c!"600000", '.', c!"XSHG", rfl, by decide, by decide, .inr rfl⟩, by decide, by decide, by decide⟩

end Jq
