import Verif.Spec.JsonText
/-! Strings in JSON texts. -/
namespace Jq

theorem char_range (c : Char) : c.toNat < 55296 ∨ (57343 < c.toNat ∧ c.toNat < 1114112) := c.valid

theorem char_ofNat_small {n : Nat} (h : n < 55296) : (Char.ofNat n).toNat = n := by
  rw [Char.ofNat, dif_pos (.inl h)]
  rfl

theorem char_eq_of_toNat {c d : Char} (h : c.toNat = d.toNat) : c = d := by
  rw [← Char.ofNat_toNat c, h, Char.ofNat_toNat]

theorem hexVal_iff (c : Char) (n : Nat) : hexVal c = some n ↔ HexText c n := by
  have key : ∀ k, k < 128 → (∀ n, n < 16 → (hexVal (Char.ofNat k) = some n ↔
      (c!"0123456789abcdef"[n]? = some (Char.ofNat k) ∨ c!"0123456789ABCDEF"[n]? = some (Char.ofNat k)))) ∧
      (hexVal (Char.ofNat k)).all (· < 16) = true := by decide +kernel
  by_cases h : c.toNat < 128
  · have := key c.toNat h
    rw [Char.ofNat_toNat] at this
    obtain ⟨h1, h2⟩ := this
    constructor
    · intro hc
      rw [hc] at h2
      have hn : n < 16 := by simpa using h2
      exact ⟨hn, (h1 n hn).1 hc⟩
    · rintro ⟨hn, hc⟩
      exact (h1 n hn).2 hc
  · have big : ∀ d : Char, d.toNat < 128 → c ≤ d → False := by
      intro d hd hle
      have : c.toNat ≤ d.toNat := hle
      omega
    constructor
    · intro hc
      simp only [hexVal] at hc
      split at hc
      · rename_i h'; exact (big '9' (by decide) h'.2).elim
      split at hc
      · rename_i h'; exact (big 'f' (by decide) h'.2).elim
      split at hc
      · rename_i h'; exact (big 'F' (by decide) h'.2).elim
      · cases hc
    · rintro ⟨hn, hc⟩
      exfalso
      have hall : ∀ d ∈ c!"0123456789abcdef" ++ c!"0123456789ABCDEF", d.toNat < 128 := by decide
      apply h
      rcases hc with hc | hc
      · exact hall c (List.mem_append_left _ (List.mem_of_getElem? hc))
      · exact hall c (List.mem_append_right _ (List.mem_of_getElem? hc))

theorem hex4_iff (a b c d : Char) (n : Nat) : hex4 a b c d = some n ↔ UnitText ['\\', 'u', a, b, c, d] n := by
  constructor
  · intro h
    simp only [hex4] at h
    split at h
    · rename_i x y z w h1 h2 h3 h4
      injection h with h
      exact ⟨a, b, c, d, x, y, z, w, rfl, (hexVal_iff _ _).1 h1, (hexVal_iff _ _).1 h2, (hexVal_iff _ _).1 h3, (hexVal_iff _ _).1 h4, by omega⟩
    · cases h
  · rintro ⟨a', b', c', d', x, y, z, w, he, h1, h2, h3, h4, hn⟩
    simp only [List.cons.injEq, and_true, true_and] at he
    obtain ⟨rfl, rfl, rfl, rfl⟩ := he
    simp only [hex4, (hexVal_iff _ _).2 h1, (hexVal_iff _ _).2 h2, (hexVal_iff _ _).2 h3, (hexVal_iff _ _).2 h4, Option.some.injEq]
    omega

/-- The code units of the inside of a string. -/
inductive UnitsText : List Nat → Str → Prop
  | nil : UnitsText [] []
  | plain (c : Char) (us : List Nat) (s : Str) : c ≠ '"' → c ≠ '\\' → 32 ≤ c.toNat → UnitsText us s → UnitsText (c.toNat :: us) (c :: s)
  | short (e c : Char) (us : List Nat) (s : Str) : (e, c) ∈ shortEscapes → UnitsText us s → UnitsText (c.toNat :: us) ('\\' :: e :: s)
  | unit (x : Str) (n : Nat) (us : List Nat) (s : Str) : UnitText x n → UnitsText us s → UnitsText (n :: us) (x ++ s)

theorem escapeOf_iff (e : Char) (n : Nat) : escapeOf e = some n ↔ ∃ c, (e, c) ∈ shortEscapes ∧ c.toNat = n := by
  constructor
  · intro h
    simp only [escapeOf] at h
    repeat' split at h
    all_goals first | cases h; done | skip
    all_goals
      subst_vars
      injection h with h
      subst h
    · exact ⟨'"', by decide, rfl⟩
    · exact ⟨'\\', by decide, rfl⟩
    · exact ⟨'/', by decide, rfl⟩
    · exact ⟨'\x08', by decide, rfl⟩
    · exact ⟨'\x0c', by decide, rfl⟩
    · exact ⟨'\n', by decide, rfl⟩
    · exact ⟨'\r', by decide, rfl⟩
    · exact ⟨'\t', by decide, rfl⟩
  · rintro ⟨c, hm, rfl⟩
    have : ∀ x ∈ shortEscapes, escapeOf x.1 = some x.2.toNat := by decide
    exact this _ hm

theorem short_not_u {e c : Char} (h : (e, c) ∈ shortEscapes) : e ≠ 'u' := by
  have : ∀ x ∈ shortEscapes, x.1 ≠ 'u' := by decide
  exact this _ h

theorem scanUnits_sound : ∀ (k : Nat) (p : Str), p.length ≤ k → ∀ us r, scanUnits p = some (us, r) → ∃ b, p = b ++ '"' :: r ∧ UnitsText us b
  | 0, p, hk, us, r, h => by
    have : p = [] := List.length_eq_zero_iff.1 (by omega)
    subst this
    rw [scanUnits.eq_def] at h; cases h
  | k + 1, [], _, us, r, h => by rw [scanUnits.eq_def] at h; cases h
  | k + 1, c :: s, hk, us, r, h => by
    simp only [List.length_cons] at hk
    rw [scanUnits.eq_def] at h
    simp only at h
    split at h
    · rename_i hc
      subst hc
      simp only [Option.some.injEq, Prod.mk.injEq] at h
      obtain ⟨rfl, rfl⟩ := h
      exact ⟨[], rfl, .nil⟩
    rename_i hc
    split at h
    · rename_i hb
      subst hb
      cases s with
      | nil => cases h
      | cons e s1 =>
        simp only [List.length_cons] at hk
        simp only at h
        split at h
        · rename_i he
          subst he
          match s1, hk, h with
          | [], _, h => cases h
          | [_], _, h => cases h
          | [_, _], _, h => cases h
          | [_, _, _], _, h => cases h
          | a :: b :: c :: d :: s2, hk, h =>
            simp only [List.length_cons] at hk
            simp only at h
            cases hx : hex4 a b c d with
            | none => rw [hx] at h; cases h
            | some n =>
              rw [hx] at h
              simp only at h
              cases hs : scanUnits s2 with
              | none => rw [hs] at h; cases h
              | some x =>
                rw [hs] at h
                simp only [Option.map_some, Option.some.injEq, Prod.mk.injEq] at h
                obtain ⟨rfl, rfl⟩ := h
                obtain ⟨b', rfl, hb'⟩ := scanUnits_sound k s2 (by omega) x.1 x.2 hs
                exact ⟨['\\', 'u', a, b, c, d] ++ b', rfl, .unit _ _ _ _ ((hex4_iff _ _ _ _ _).1 hx) hb'⟩
        · cases hx : escapeOf e with
          | none => rw [hx] at h; cases h
          | some n =>
            rw [hx] at h
            simp only at h
            cases hs : scanUnits s1 with
            | none => rw [hs] at h; cases h
            | some x =>
              rw [hs] at h
              simp only [Option.map_some, Option.some.injEq, Prod.mk.injEq] at h
              obtain ⟨rfl, rfl⟩ := h
              obtain ⟨b', rfl, hb'⟩ := scanUnits_sound k s1 (by omega) x.1 x.2 hs
              obtain ⟨c, hm, rfl⟩ := (escapeOf_iff _ _).1 hx
              exact ⟨'\\' :: e :: b', rfl, .short _ _ _ _ hm hb'⟩
    · rename_i hb
      split at h
      · cases h
      · rename_i h32
        cases hs : scanUnits s with
        | none => rw [hs] at h; cases h
        | some x =>
          rw [hs] at h
          simp only [Option.map_some, Option.some.injEq, Prod.mk.injEq] at h
          obtain ⟨rfl, rfl⟩ := h
          obtain ⟨b', rfl, hb'⟩ := scanUnits_sound k s (by omega) x.1 x.2 hs
          exact ⟨c :: b', rfl, .plain _ _ _ hc hb (by omega) hb'⟩

theorem scanUnits_complete {us : List Nat} {b : Str} (h : UnitsText us b) (r : Str) : scanUnits (b ++ '"' :: r) = some (us, r) := by
  induction h with
  | nil => rw [List.nil_append, scanUnits.eq_def]; rfl
  | plain c us s h1 h2 h3 _ ih =>
    rw [List.cons_append, scanUnits.eq_def]
    simp only
    rw [if_neg h1, if_neg h2, if_neg (by omega), ih]
    rfl
  | short e c us s hm _ ih =>
    rw [List.cons_append, List.cons_append, scanUnits.eq_def]
    simp only [if_neg (show ¬ ('\\' = '"') by decide), if_true, if_neg (short_not_u hm), (escapeOf_iff _ _).2 ⟨c, hm, rfl⟩, ih]
    rfl
  | unit x n us s hx _ ih =>
    obtain ⟨a, b, c, d, _, _, _, _, rfl, _⟩ := id hx
    rw [List.append_assoc, List.cons_append, List.cons_append, List.cons_append, List.cons_append, List.cons_append, List.cons_append,
      List.nil_append, scanUnits.eq_def]
    simp only [if_neg (show ¬ ('\\' = '"') by decide), if_true, (hex4_iff _ _ _ _ _).2 hx, ih]
    rfl

theorem scalar_iff (n : Nat) (c : Char) : scalar n = some c ↔ c.toNat = n := by
  constructor
  · intro h
    simp only [scalar] at h
    split at h
    · rename_i hn
      injection h with h
      subst h
      rw [Char.ofNat, dif_pos (show n.isValidChar by rcases hn with hn | hn; exact .inl hn; exact .inr ⟨by omega, hn.2⟩)]
      rfl
    · cases h
  · rintro rfl
    have := char_range c
    rw [scalar, if_pos (by omega), Char.ofNat_toNat]

theorem joinUnits_one (n : Nat) (us : List Nat) (t : Str) (c : Char) (h : c.toNat = n) (ht : joinUnits us = some t) :
    joinUnits (n :: us) = some (c :: t) := by
  have hr := char_range c
  have hs := (scalar_iff n c).2 h
  cases us with
  | nil => simp only [joinUnits, Option.some.injEq] at ht; subst ht; simp [joinUnits, hs]
  | cons m us => rw [joinUnits, if_neg (by omega), ht]; simp [hs]

theorem joinUnits_two (hi lo : Nat) (us : List Nat) (t : Str) (c : Char) (h1 : 55296 ≤ hi) (h2 : hi < 56320) (h3 : 56320 ≤ lo) (h4 : lo < 57344)
    (h : c.toNat = 65536 + (hi - 55296) * 1024 + (lo - 56320)) (ht : joinUnits us = some t) : joinUnits (hi :: lo :: us) = some (c :: t) := by
  rw [joinUnits, if_pos ⟨h1, h2, h3, h4⟩, ht]
  simp [(scalar_iff _ c).2 h]

theorem joinUnits_cases {n : Nat} {us : List Nat} {t : Str} (h : joinUnits (n :: us) = some t) :
    (∃ c t', t = c :: t' ∧ c.toNat = n ∧ joinUnits us = some t') ∨
      ∃ m us' c t', us = m :: us' ∧ t = c :: t' ∧ 55296 ≤ n ∧ n < 56320 ∧ 56320 ≤ m ∧ m < 57344 ∧
        c.toNat = 65536 + (n - 55296) * 1024 + (m - 56320) ∧ joinUnits us' = some t' := by
  cases us with
  | nil =>
    simp only [joinUnits, Option.map_eq_some_iff] at h
    obtain ⟨c, h1, rfl⟩ := h
    exact .inl ⟨c, [], rfl, (scalar_iff _ _).1 h1, rfl⟩
  | cons m us =>
    rw [joinUnits] at h
    split at h
    · rename_i hn
      split at h
      · rename_i s hs
        simp only [Option.map_eq_some_iff] at h
        obtain ⟨c, h1, rfl⟩ := h
        exact .inr ⟨m, us, c, s, rfl, rfl, hn.1, hn.2.1, hn.2.2.1, hn.2.2.2, (scalar_iff _ _).1 h1, hs⟩
      · cases h
    · split at h
      · rename_i s hs
        simp only [Option.map_eq_some_iff] at h
        obtain ⟨c, h1, rfl⟩ := h
        exact .inl ⟨c, s, rfl, (scalar_iff _ _).1 h1, hs⟩
      · cases h

theorem units_of_chars {t b : Str} (h : CharsText t b) : ∃ us, UnitsText us b ∧ joinUnits us = some t := by
  induction h with
  | nil => exact ⟨[], .nil, rfl⟩
  | cons c x cs s hx _ ih =>
    obtain ⟨us, h1, h2⟩ := ih
    cases hx with
    | plain _ a1 a2 a3 => exact ⟨_, .plain c us s a1 a2 a3 h1, joinUnits_one _ _ _ _ rfl h2⟩
    | short e _ hm => exact ⟨_, .short e c us s hm h1, joinUnits_one _ _ _ _ rfl h2⟩
    | unit _ _ hu => exact ⟨_, .unit x _ us s hu h1, joinUnits_one _ _ _ _ rfl h2⟩
    | pair _ x y hi lo u1 u2 a1 a2 a3 a4 a5 =>
      refine ⟨hi :: lo :: us, ?_, joinUnits_two hi lo us cs c a1 a2 a3 a4 a5 h2⟩
      rw [List.append_assoc]
      exact .unit _ _ _ _ u1 (.unit _ _ _ _ u2 h1)

theorem chars_of_units : ∀ (k : Nat) (us : List Nat), us.length ≤ k → ∀ t b, UnitsText us b → joinUnits us = some t → CharsText t b
  | _, [], _, t, b, h, ht => by
    simp only [joinUnits, Option.some.injEq] at ht
    subst ht
    cases h
    exact .nil
  | 0, n :: us, hk, _, _, _, _ => by simp at hk
  | k + 1, n :: us, hk, t, b, h, ht => by
    simp only [List.length_cons] at hk
    have hj := joinUnits_cases ht
    have notPair : ∀ c : Char, c.toNat = n → ∃ t', t = c :: t' ∧ joinUnits us = some t' := by
      intro c hc
      have := char_range c
      rcases hj with ⟨c', t', rfl, h1, h2⟩ | ⟨m, us', c', t', _, _, h3, h4, _⟩
      · exact ⟨t', by rw [char_eq_of_toNat (h1.trans hc.symm)], h2⟩
      · omega
    cases h with
    | plain c _ s a1 a2 a3 h1 =>
      obtain ⟨t', rfl, h2⟩ := notPair c rfl
      exact .cons c [c] t' s (.plain c a1 a2 a3) (chars_of_units k us (by omega) t' s h1 h2)
    | short e c _ s hm h1 =>
      obtain ⟨t', rfl, h2⟩ := notPair c rfl
      exact .cons c ['\\', e] t' s (.short e c hm) (chars_of_units k us (by omega) t' s h1 h2)
    | unit x _ _ s hx h1 =>
      rcases hj with ⟨c, t', rfl, hc, h2⟩ | ⟨m, us', c, t', rfl, rfl, b1, b2, b3, b4, b5, h2⟩
      · exact .cons c x t' s (.unit c x (by rw [hc]; exact hx)) (chars_of_units k us (by omega) t' s h1 h2)
      · simp only [List.length_cons] at hk
        cases h1 with
        | plain d _ s' _ _ _ _ => have := char_range d; omega
        | short e d _ s' hm _ => have := char_range d; omega
        | unit y _ _ s' hy h1 =>
          rw [← List.append_assoc]
          exact .cons c (x ++ y) t' s' (.pair c x y n m hx hy b1 b2 b3 b4 b5) (chars_of_units k us' (by omega) t' s' h1 h2)

/-- The string scanner reads exactly the insides of strings up to the closing quote. -/
theorem scanStr_iff (p t r : Str) : scanStr p = some (t, r) ↔ ∃ b, p = b ++ '"' :: r ∧ CharsText t b := by
  constructor
  · intro h
    simp only [scanStr] at h
    cases hu : scanUnits p with
    | none => rw [hu] at h; cases h
    | some x =>
      rw [hu] at h
      simp only [Option.map_eq_some_iff, Prod.mk.injEq] at h
      obtain ⟨t', h1, rfl, rfl⟩ := h
      obtain ⟨b, rfl, hb⟩ := scanUnits_sound _ p (Nat.le_refl _) x.1 x.2 hu
      exact ⟨b, rfl, chars_of_units _ _ (Nat.le_refl _) t' b hb h1⟩
  · rintro ⟨b, rfl, hb⟩
    obtain ⟨us, h1, h2⟩ := units_of_chars hb
    rw [scanStr, scanUnits_complete h1]
    simp [h2]

theorem hexChar_text {n : Nat} (h : n < 16) : HexText (hexChar n) n := by
  have : ∀ n, n < 16 → c!"0123456789abcdef"[n]? = some (hexChar n) := by decide
  exact ⟨h, .inl (this n h)⟩

theorem uEscape_text {n : Nat} (hn : n < 65536) : UnitText (uEscape n) n :=
  ⟨_, _, _, _, _, _, _, _, rfl, hexChar_text (Nat.mod_lt _ (by decide)), hexChar_text (Nat.mod_lt _ (by decide)),
    hexChar_text (Nat.mod_lt _ (by decide)), hexChar_text (Nat.mod_lt _ (by decide)), by omega⟩

/-- What the encoder writes for a character stands for it. -/
theorem escapeChar_text (c : Char) : CharText c (escapeChar c) := by
  have hv := char_range c
  unfold escapeChar
  split
  · subst_vars; exact .short _ _ (by decide)
  split
  · subst_vars; exact .short _ _ (by decide)
  split
  · subst_vars; exact .short _ _ (by decide)
  split
  · subst_vars; exact .short _ _ (by decide)
  split
  · subst_vars; exact .short _ _ (by decide)
  split
  · subst_vars; exact .short _ _ (by decide)
  split
  · subst_vars; exact .short _ _ (by decide)
  split
  · rename_i h1 h2 _ _ _ _ _ h; exact .plain c h1 h2 h.1
  split
  · rename_i h; exact .unit _ _ (uEscape_text h)
  · exact .pair c _ _ _ _ (uEscape_text (by omega)) (uEscape_text (by omega)) (by omega) (by omega) (by omega) (by omega) (by omega)

theorem escaped_text (s : Str) : CharsText s (s.flatMap escapeChar) := by
  induction s with
  | nil => exact .nil
  | cons c s ih => exact .cons c _ s _ (escapeChar_text c) ih

end Jq
