import Verif.Lemmas.Numbers
import Verif.Props.C97_Money
/-! # C97: exactly which texts are floats, and the results of `round`, `-`, `==` and `bool` -/
namespace Jq

set_option exponentiation.threshold 2100

/-! ### `float(text)` -/

/-- The double with that sign nearest to `p / q` (in units), or infinite if that is too large. -/
def DoubleOf (neg : Bool) (p q : Nat) (x : Dbl) : Prop :=
  ∃ n, IsNearest p q n ∧ ((n < tooLarge ∧ ∃ ok, x = .fin neg n ok) ∨ (tooLarge ≤ n ∧ x = .inf neg))

/-- What a text without blanks and underscores is read as: the names, in any case, and decimal numbers; a sign may be before them. -/
def FloatOf (b : Str) (x : Dbl) : Prop :=
  ∃ neg c, SignOf b neg c ∧
    ((c.map Char.toLower = c!"inf" ∧ x = .inf neg) ∨ (c.map Char.toLower = c!"infinity" ∧ x = .inf neg) ∨
     (c.map Char.toLower = c!"nan" ∧ x = .nan) ∨
     ∃ d e, DecText c d e ∧ DoubleOf neg (d * 10 ^ e.toNat * unit1) (10 ^ (-e).toNat) x)

private theorem doubleOf_mk (neg : Bool) (p q : Nat) (hq : 0 < q) (x : Dbl) : DoubleOf neg p q x ↔ x = .mk neg (nearest p q) := by
  constructor
  · rintro ⟨n, hn, h⟩
    have := hn.unique (nearest_best p q hq)
    subst this
    rcases h with ⟨_, ok, rfl⟩ | ⟨h, rfl⟩
    · rw [Dbl.mk_of]
    · rw [Dbl.mk, dif_neg]
      intro h1
      have := ((isDouble_iff _).1 h1).2
      omega
  · rintro rfl
    refine ⟨_, nearest_best p q hq, ?_⟩
    rcases Nat.lt_or_ge (nearest p q) tooLarge with h | h
    · exact .inl ⟨h, isDouble_nearest hq h, Dbl.mk_of _⟩
    · refine .inr ⟨h, ?_⟩
      rw [Dbl.mk, dif_neg]
      intro h1
      have := ((isDouble_iff _).1 h1).2
      omega

private theorem doubleOf_dec (neg : Bool) (d : Nat) (e : Int) (x : Dbl) :
    DoubleOf neg (d * 10 ^ e.toNat * unit1) (10 ^ (-e).toNat) x ↔ x = .ofDec neg d e := by
  rw [doubleOf_mk _ _ _ (pow_pos10 _), ofDec_eq neg d e e.toNat (-e).toNat (by omega), Dbl.ofRatio]

private theorem dig_low {c : Char} (hc : isDig c = true ∨ c = '.') : c.toLower ≠ 'i' ∧ c.toLower ≠ 'n' := by
  rcases hc with hc | rfl
  · have h1 : ∀ n, 48 ≤ n → n ≤ 57 → (Char.ofNat n).toLower ≠ 'i' ∧ (Char.ofNat n).toLower ≠ 'n' := by
      intro n h1 h2
      have : ∀ k, k < 10 → (Char.ofNat (48 + k)).toLower ≠ 'i' ∧ (Char.ofNat (48 + k)).toLower ≠ 'n' := by decide
      have := this (n - 48) (by omega)
      rwa [show 48 + (n - 48) = n by omega] at this
    have h2 := isDig_toNat.1 hc
    have := h1 c.toNat h2.1 h2.2
    rwa [Char.ofNat_toNat] at this
  · decide

private theorem low_head {c : Str} {a : Char} {w : Str} (h : c.map Char.toLower = a :: w) : ∃ x r, c = x :: r ∧ x.toLower = a := by
  cases c with
  | nil => cases h
  | cons x r => simp only [List.map_cons, List.cons.injEq] at h; exact ⟨x, r, rfl, h.1⟩

private theorem floatBody_iff (b : Str) (x : Dbl) : floatBody b = some x ↔ FloatOf b x := by
  unfold floatBody
  simp only []
  constructor
  · intro h
    refine ⟨(cutSign b).1, (cutSign b).2, cutSign_sound b, ?_⟩
    split at h
    · rename_i hl
      cases h
      rcases hl with hl | hl
      · exact .inl ⟨hl, rfl⟩
      · exact .inr (.inl ⟨hl, rfl⟩)
    · split at h
      · rename_i hl; cases h; exact .inr (.inr (.inl ⟨hl, rfl⟩))
      · obtain ⟨⟨d, e⟩, hd, rfl⟩ := Option.map_eq_some_iff.1 h
        exact .inr (.inr (.inr ⟨d, e, (decParts_iff _ _ _).1 hd, (doubleOf_dec _ _ _ _).2 rfl⟩))
  · rintro ⟨neg, c, hs, h⟩
    have hcut : (∀ y ∈ c.head?, y ≠ '-' ∧ y ≠ '+') → cutSign b = (neg, c) := cutSign_complete hs
    have name : ∀ a w, c.map Char.toLower = a :: w → a ≠ '-' → a ≠ '+' → cutSign b = (neg, c) := by
      intro a w hw h1 h2
      apply hcut
      obtain ⟨y, r, rfl, hy⟩ := low_head hw
      intro z hz
      simp only [List.head?_cons, Option.mem_def, Option.some.injEq] at hz
      subst hz
      constructor
      · rintro rfl; exact h1 (by rw [← hy]; decide)
      · rintro rfl; exact h2 (by rw [← hy]; decide)
    rcases h with ⟨hl, rfl⟩ | ⟨hl, rfl⟩ | ⟨hl, rfl⟩ | ⟨d, e, hd, hx⟩
    · rw [name _ _ hl (by decide) (by decide)]; rw [if_pos (.inl hl)]
    · rw [name _ _ hl (by decide) (by decide)]; rw [if_pos (.inr hl)]
    · rw [name _ _ hl (by decide) (by decide)]
      show (if _ ∨ _ then _ else _) = _
      rw [hl, if_neg (by decide), if_pos rfl]
    · obtain ⟨y, r, hyr, hy⟩ := dec_head hd
      have hc : cutSign b = (neg, c) := by
        apply hcut
        rw [hyr]
        intro z hz
        simp only [List.head?_cons, Option.mem_def, Option.some.injEq] at hz
        subst hz
        rcases hy with hy | rfl
        · exact dig_not_sign hy
        · decide
      have hne := dig_low hy
      rw [hc]
      simp only []
      rw [if_neg, if_neg, (decParts_iff _ _ _).2 hd, (doubleOf_dec _ _ _ _).1 hx]
      · rfl
      · rw [hyr]; intro h; exact hne.2 (List.cons.inj h).1
      · rw [hyr]
        rintro (h | h)
        · exact hne.1 (List.cons.inj h).1
        · exact hne.1 (List.cons.inj h).1

private theorem under_iff (prev : Option Char) (t b : Str) : dropUnderscores prev t = some b ↔
    b = t.filter (· ≠ '_') ∧
    (∀ x y, t = x ++ '_' :: y → (∃ c ∈ x.getLast?.or prev, isDig c = true) ∧ (∃ c ∈ y.head?, isDig c = true)) ∧
    (prev = some '_' → ∃ c ∈ t.head?, isDig c = true) := by
  induction t generalizing prev b with
  | nil =>
    simp only [dropUnderscores]
    by_cases hp : prev = some '_'
    · simp [hp]
    · rw [if_neg hp]
      simp only [Option.some.injEq, List.filter_nil, hp, false_imp_iff, and_true]
      constructor
      · rintro rfl
        refine ⟨rfl, fun x y h => ?_⟩
        cases x <;> cases h
      · rintro ⟨rfl, _⟩; rfl
  | cons c t ih =>
    have hu : isDig '_' = false := by decide
    rw [dropUnderscores]
    by_cases hc : c = '_'
    · subst hc
      rw [if_pos rfl]
      by_cases hp : prev.any isDig = true
      · rw [if_pos hp, ih]
        obtain ⟨p, hpp, hpd⟩ : ∃ p, prev = some p ∧ isDig p = true := by
          cases prev with
          | none => cases hp
          | some p => exact ⟨p, rfl, by simpa using hp⟩
        have hpn : prev ≠ some '_' := by rw [hpp]; rintro ⟨⟩; exact absurd hpd (by decide)
        constructor
        · rintro ⟨h1, h2, h3⟩
          refine ⟨by simpa using h1, ?_, fun e => absurd e hpn⟩
          intro x y hxy
          cases x with
          | nil =>
            injection hxy with _ hxy
            subst hxy
            exact ⟨⟨p, by simp [hpp], hpd⟩, h3 rfl⟩
          | cons z x =>
            injection hxy with hz hxy
            obtain ⟨⟨q, hq, hqd⟩, h5⟩ := h2 x y hxy
            refine ⟨⟨q, ?_, hqd⟩, h5⟩
            cases hx : x.getLast? with
            | none => rw [hx] at hq; simp at hq; subst hq; exact absurd hqd (by decide)
            | some w =>
              rw [hx] at hq
              have hne : x ≠ [] := by rintro rfl; cases hx
              rw [List.getLast?_cons, hx]
              simpa using hq
        · rintro ⟨h1, h2, h3⟩
          refine ⟨by simpa using h1, ?_, fun _ => (h2 [] t rfl).2⟩
          intro x y hxy
          obtain ⟨⟨q, hq, hqd⟩, h5⟩ := h2 ('_' :: x) y (by rw [hxy]; rfl)
          refine ⟨⟨q, ?_, hqd⟩, h5⟩
          rw [List.getLast?_cons] at hq
          cases hx : x.getLast? with
          | none => rw [hx] at hq; simpa using hq
          | some w => rw [hx] at hq; simpa using hq
      · rw [if_neg hp]
        constructor
        · intro h; cases h
        · rintro ⟨_, h2, _⟩
          obtain ⟨⟨q, hq, hqd⟩, _⟩ := h2 [] t rfl
          exfalso
          apply hp
          simp only [List.getLast?_nil, Option.none_or] at hq
          rw [hq]
          simpa using hqd
    · rw [if_neg hc]
      by_cases hp : prev = some '_' ∧ !isDig c
      · rw [if_pos hp]
        constructor
        · intro h; cases h
        · rintro ⟨_, _, h3⟩
          obtain ⟨q, hq, hqd⟩ := h3 hp.1
          simp only [List.head?_cons, Option.mem_def, Option.some.injEq] at hq
          subst hq
          rw [hqd] at hp
          simp at hp
      · rw [if_neg hp, Option.map_eq_some_iff]
        constructor
        · rintro ⟨b', hb, rfl⟩
          obtain ⟨h1, h2, h3⟩ := (ih _ _).1 hb
          refine ⟨by rw [h1]; simp [hc], ?_, ?_⟩
          · intro x y hxy
            cases x with
            | nil => injection hxy with h _; exact absurd h hc
            | cons z x =>
              injection hxy with hz hxy
              subst hz
              obtain ⟨⟨q, hq, hqd⟩, h5⟩ := h2 x y hxy
              refine ⟨⟨q, ?_, hqd⟩, h5⟩
              rw [List.getLast?_cons]
              cases hx : x.getLast? with
              | none => rw [hx] at hq; simpa using hq
              | some w => rw [hx] at hq; simpa using hq
          · intro e
            refine ⟨c, rfl, ?_⟩
            cases hd : isDig c with
            | true => rfl
            | false => exact absurd ⟨e, by rw [hd]; rfl⟩ hp
        · rintro ⟨h1, h2, h3⟩
          refine ⟨t.filter (· ≠ '_'), (ih _ _).2 ⟨rfl, ?_, fun e => absurd (Option.some.inj e) hc⟩, by rw [h1]; simp [hc]⟩
          intro x y hxy
          obtain ⟨⟨q, hq, hqd⟩, h5⟩ := h2 (c :: x) y (by rw [hxy]; rfl)
          refine ⟨⟨q, ?_, hqd⟩, h5⟩
          rw [List.getLast?_cons] at hq
          cases hx : x.getLast? with
          | none => rw [hx] at hq; simpa using hq
          | some w => rw [hx] at hq; simpa using hq

private theorem ungrouped_iff (t b : Str) : dropUnderscores none t = some b ↔ Ungrouped t b := by
  rw [under_iff]
  unfold Ungrouped
  simp only [Option.or_none, isDig_iff, reduceCtorEq, false_imp_iff, and_true]

private theorem low_space {c : Char} (h : isIntSpace c = true) : c.toLower = c := by
  have h : isSpace c = true := by
    unfold isIntSpace at h; rw [Bool.and_eq_true] at h; exact h.1
  have hn : ¬ (65 ≤ c.toNat ∧ c.toNat ≤ 90) := by
    intro hh
    have : ∀ k, k < 26 → isSpace (Char.ofNat (65 + k)) = false := by decide
    have := this (c.toNat - 65) (by omega)
    rw [show 65 + (c.toNat - 65) = c.toNat by omega, Char.ofNat_toNat, h] at this
    cases this
  unfold Char.toLower
  rw [dif_neg]
  intro hh
  apply hn
  exact ⟨hh.1, hh.2⟩

private theorem float_chars {b : Str} {x : Dbl} (h : FloatOf b x) : b ≠ [] ∧ ∀ c ∈ b, isIntSpace c = false := by
  obtain ⟨neg, c, hs, h⟩ := h
  have hc : c ≠ [] ∧ ∀ y ∈ c, isIntSpace y = false := by
    have name : ∀ w : Str, w ≠ [] → (∀ y ∈ w, isIntSpace y = false) → c.map Char.toLower = w → c ≠ [] ∧ ∀ y ∈ c, isIntSpace y = false := by
      intro w h0 hw e
      refine ⟨by rintro rfl; exact h0 e.symm, ?_⟩
      intro y hy
      cases hsp : isIntSpace y with
      | false => rfl
      | true =>
        have : y ∈ w := by rw [← e]; exact List.mem_map.2 ⟨y, hy, low_space hsp⟩
        rw [hw y this] at hsp; cases hsp
    rcases h with ⟨hl, _⟩ | ⟨hl, _⟩ | ⟨hl, _⟩ | ⟨d, e, hd, _⟩
    · exact name _ (by decide) (by decide) hl
    · exact name _ (by decide) (by decide) hl
    · exact name _ (by decide) (by decide) hl
    · obtain ⟨y, r, rfl, _⟩ := dec_head hd
      refine ⟨by simp, ?_⟩
      intro z hz
      rcases dec_chars hd z hz with h | h
      · exact isIntSpace_of_isDig h
      · have : ∀ c ∈ c!".eE+-", isIntSpace c = false := by decide
        exact this z h
  rcases hs with ⟨rfl, _⟩ | ⟨rfl | rfl, _⟩
  · refine ⟨by simp, fun y hy => ?_⟩
    rcases List.mem_cons.1 hy with rfl | hy
    · decide
    · exact hc.2 y hy
  · exact hc
  · refine ⟨by simp, fun y hy => ?_⟩
    rcases List.mem_cons.1 hy with rfl | hy
    · decide
    · exact hc.2 y hy

/-- `float(s)` is `x` exactly if `s` is, between blanks and without underscores between digits, the name of an infinity or of `nan`, or a decimal
number whose double is `x`.  On every other text `float` raises. -/
theorem c97_float_iff (s : Str) (x : Dbl) : pyFloat s = some x ↔
    ∃ l t r b, s = l ++ t ++ r ∧ (∀ c ∈ l, isIntSpace c = true) ∧ (∀ c ∈ r, isIntSpace c = true) ∧ Ungrouped t b ∧ FloatOf b x := by
  unfold pyFloat
  rw [Option.bind_eq_some_iff]
  constructor
  · rintro ⟨b, h1, h2⟩
    obtain ⟨l, r, hs, hl, hr⟩ := stripBy_split isIntSpace s
    exact ⟨l, _, r, b, hs, hl, hr, (ungrouped_iff _ _).1 h1, (floatBody_iff _ _).1 h2⟩
  · rintro ⟨l, t, r, b, rfl, hl, hr, hu, hf⟩
    refine ⟨b, ?_, (floatBody_iff _ _).2 hf⟩
    obtain ⟨h0, hch⟩ := float_chars hf
    have hus : isIntSpace '_' = false := by decide
    have hnosp : ∀ c ∈ t, isIntSpace c = false := by
      intro c hc
      by_cases e : c = '_'
      · rw [e]; exact hus
      · exact hch c (by rw [hu.1]; simp [hc, e])
    have hne : t ≠ [] := by rintro rfl; exact h0 (by rw [hu.1]; rfl)
    rw [stripBy_pad hl hr hne (fun c hc => hnosp c (List.mem_of_head? hc)) (fun c hc => hnosp c (List.mem_of_getLast? hc))]
    exact (ungrouped_iff _ _).2 hu

/-- Accepted and refused texts. -/
example : pyFloat c!" 1_0.5\n" = pyFloat c!"10.5" ∧ pyFloat c!"10.5" ≠ none ∧ pyFloat c!"-Inf" = some (.inf true) ∧ pyFloat c!"NaN" = some .nan ∧
    pyFloat c!"1_.5" = none ∧ pyFloat c!"_1" = none ∧ pyFloat c!"1__0" = none ∧ pyFloat c!"--1" = none ∧ pyFloat c!"." = none ∧ pyFloat c!"1e" = none ∧
    pyFloat c!"1 0" = none ∧ pyFloat [] = none := by decide +kernel

/-! ### `round` -/

/-- `round(x, n)` is the double nearest to the decimal number of `n` places that is nearest to `x` (of two the one with an even last digit), with the
sign of `x`; it is always finite. -/
theorem c97_round (neg : Bool) (u : Nat) (ok : isDouble u = true) (n : Nat) :
    ∃ h m ok', IsRounded (u * 10 ^ n) unit1 h ∧ IsNearest (h * unit1) (10 ^ n) m ∧ Dbl.round n (.fin neg u ok) = .fin neg m ok' := by
  have hu := unit1_pos
  have hq := pow_pos10 n
  have hr : IsRounded (u * 10 ^ n) unit1 (halfEven (u * 10 ^ n) unit1) := by
    intro m hm
    rcases halfEven_best (u * 10 ^ n) unit1 m hu hm with h | ⟨h1, h2, _⟩
    · exact .inl h
    · exact .inr ⟨h1, h2⟩
  have hlt : nearest (halfEven (u * 10 ^ n) unit1 * unit1) (10 ^ n) < tooLarge := by
    obtain ⟨a, k, ha, hk⟩ := isDouble_bits ok
    rcases Nat.lt_or_ge k 1074 with hk' | hk'
    · -- below 2^53
      have hsmall : u ≤ 2 ^ 53 * unit1 := by
        rw [hk]
        exact Nat.mul_le_mul (by omega) (by unfold unit1; exact Nat.pow_le_pow_right (by decide) (by omega))
      have hh := (halfEven_near (u * 10 ^ n) unit1 hu).2
      generalize halfEven (u * 10 ^ n) unit1 * unit1 = p at hh ⊢
      have hp : p ≤ 2 ^ 54 * unit1 * 10 ^ n := by
        have h1 : u * 10 ^ n ≤ 2 ^ 53 * unit1 * 10 ^ n := Nat.mul_le_mul_right _ hsmall
        have h2 : unit1 ≤ unit1 * 10 ^ n := Nat.le_mul_of_pos_right _ hq
        have h3 : 2 ^ 53 * unit1 * 10 ^ n = 2 ^ 53 * (unit1 * 10 ^ n) := Nat.mul_assoc _ _ _
        have h4 : 2 ^ 54 * unit1 * 10 ^ n = 2 ^ 54 * (unit1 * 10 ^ n) := Nat.mul_assoc _ _ _
        rw [h4]
        rw [h3] at h1
        generalize unit1 * 10 ^ n = w at *
        omega
      have hm := nearest_mono hq hp
      have hb : Bits53 (2 ^ 54 * unit1) := ⟨1, 54 + 1074, by decide, by unfold unit1; rw [Nat.one_mul, ← Nat.pow_add]⟩
      rw [nearest_self hq hb] at hm
      refine Nat.lt_of_le_of_lt hm (unit_large ?_)
      exact Nat.mul_le_mul_right _ (by decide)
    · -- a whole number
      have hd : u = a * 2 ^ (k - 1074) * unit1 := by
        rw [hk]; unfold unit1; rw [Nat.mul_assoc, ← Nat.pow_add]; congr 2; omega
      have e : halfEven (u * 10 ^ n) unit1 * unit1 = u * 10 ^ n := by
        have : u * 10 ^ n = a * 2 ^ (k - 1074) * 10 ^ n * unit1 := by
          conv => lhs; rw [hd]
          rw [Nat.mul_right_comm]
        rw [this, halfEven_exact _ hu]
      rw [e, nearest_exact ok hq]
      exact ((isDouble_iff _).1 ok).2
  refine ⟨_, _, isDouble_nearest hq hlt, hr, nearest_best _ _ hq, ?_⟩
  rw [Dbl.round, Dbl.ofRatio, Dbl.mk_of]

/-- `round` leaves the other doubles and integers alone. -/
theorem c97_round_other (n : Nat) (k : Int) (neg : Bool) : (GateNum.round n (.int k) : PNum) = .int k ∧
    Dbl.round n .nan = .nan ∧ Dbl.round n (.inf neg) = .inf neg := ⟨rfl, rfl, rfl⟩

/-- Ties: `round(2.5, 0)` is 2, `round(0.125, 2)` is 0.12; `2.675` is less than its text, `round(2.675, 2)` is 2.67. -/
example : let r := fun (s : Str) (n : Nat) => (pyFloat s).map (Dbl.round n)
    r c!"2.5" 0 = pyFloat c!"2" ∧ r c!"3.5" 0 = pyFloat c!"4" ∧ r c!"0.125" 2 = pyFloat c!"0.12" ∧ r c!"2.675" 2 = pyFloat c!"2.67" ∧
    r c!"-0.5" 0 = pyFloat c!"-0.0" ∧ r c!"1e300" 4 = pyFloat c!"1e300" := by decide +kernel

/-! ### Subtraction, equality, truth -/

/-- The value of a number, in units. -/
inductive ValueOf : PNum → Int → Prop
  | int (k : Int) : ValueOf (.int k) (k * unit1)
  | plus (n : Nat) (ok : isDouble n = true) : ValueOf (.flt (.fin false n ok)) n
  | minus (n : Nat) (ok : isDouble n = true) : ValueOf (.flt (.fin true n ok)) (-n)

private theorem sub_fin (s s' : Bool) (m n : Nat) (om : isDouble m = true) (on : isDouble n = true) (a b : Int) (ha : a = signedUnits s m)
    (hb : b = signedUnits s' n) :
    (a ≠ b → DoubleOf (decide (a < b)) (a - b).natAbs 1 (Dbl.sub (.fin s m om) (.fin s' n on))) ∧
    (a = b → ∃ neg ok, Dbl.sub (.fin s m om) (.fin s' n on) = .fin neg 0 ok ∧
      (neg = true ↔ (∃ ok, Dbl.fin s m om = .fin true 0 ok) ∧ ∃ ok, Dbl.fin s' n on = .fin false 0 ok)) := by
  constructor
  · intro hne
    rw [doubleOf_mk _ _ _ (by decide)]
    simp only [Dbl.sub]
    rw [← ha, ← hb, if_neg (by omega)]
    congr 1
    simp only [decide_eq_decide]
    omega
  · intro he
    have h0 : isDouble 0 = true := (isDouble_iff 0).2 ⟨by decide, by unfold tooLarge; exact pow_pos2 _⟩
    refine ⟨s && !s', h0, ?_, ?_⟩
    · simp only [Dbl.sub]
      rw [← ha, ← hb, if_pos (by omega), Dbl.mk_of]
    · have e : signedUnits s m = signedUnits s' n := by rw [← ha, ← hb, he]
      have e1 : s = true → s' = false → m = 0 ∧ n = 0 := by
        rintro rfl rfl
        simp only [signedUnits, if_true, Bool.false_eq_true, if_false] at e
        omega
      cases s <;> cases s' <;> simp
      exact ⟨⟨h0, (e1 rfl rfl).1⟩, h0, (e1 rfl rfl).2⟩

/-- `a - b` of two finite doubles is the double nearest to the difference; a difference of 0 is `-0.0` for `-0.0 - 0.0` only. -/
theorem c97_sub (x y : Dbl) (a b : Int) (hx : ValueOf (.flt x) a) (hy : ValueOf (.flt y) b) :
    (a ≠ b → DoubleOf (decide (a < b)) (a - b).natAbs 1 (x.sub y)) ∧
    (a = b → ∃ neg ok, x.sub y = .fin neg 0 ok ∧ (neg = true ↔ (∃ ok, x = .fin true 0 ok) ∧ ∃ ok, y = .fin false 0 ok)) := by
  cases hx with
  | plus m om =>
    cases hy with
    | plus n on => exact sub_fin false false m n om on _ _ rfl rfl
    | minus n on => exact sub_fin false true m n om on _ _ rfl rfl
  | minus m om =>
    cases hy with
    | plus n on => exact sub_fin true false m n om on _ _ rfl rfl
    | minus n on => exact sub_fin true true m n om on _ _ rfl rfl

/-- Subtraction with what is not finite, and of integers. -/
theorem c97_sub_other (x : Dbl) (s : Bool) (m n : Int) :
    Dbl.sub .nan x = .nan ∧ Dbl.sub x .nan = .nan ∧ Dbl.sub (.inf s) (.inf s) = .nan ∧ Dbl.sub (.inf s) (.inf !s) = .inf s ∧
    (∀ v, ValueOf (.flt x) v → Dbl.sub (.inf s) x = .inf s ∧ Dbl.sub x (.inf s) = .inf !s) ∧
    (GateNum.sub (.int m) (.int n) : PNum) = .int (m - n) := by
  refine ⟨by cases x <;> rfl, by cases x <;> rfl, by simp [Dbl.sub], by cases s <;> rfl, ?_, rfl⟩
  intro v h
  cases h <;> exact ⟨rfl, rfl⟩

/-- An `int` and a `float`: the `int` is made the nearest double first; 0 becomes `0.0`, not `-0.0`. -/
theorem c97_sub_mixed (n : Int) (x : Dbl) : ∃ y, DoubleOf (decide (n < 0)) (n.natAbs * unit1) 1 y ∧
    (GateNum.sub (.int n) (.flt x) : PNum) = .flt (y.sub x) ∧ (GateNum.sub (.flt x) (.int n) : PNum) = .flt (x.sub y) :=
  ⟨.ofInt n, (doubleOf_mk _ _ _ (by decide) _).2 rfl, rfl, rfl⟩

/-- `0.3 - 0.1` is not the double of 0.2; opposite signs; a difference that is too large. -/
example : let f := fun s => (pyFloat s).getD .nan
    (f c!"0.3").sub (f c!"0.1") ≠ f c!"0.2" ∧ (f c!"0.5").sub (f c!"-0.25") = f c!"0.75" ∧ (f c!"-0.0").sub (f c!"0.0") = f c!"-0.0" ∧
    (f c!"-0.0").sub (f c!"-0.0") = f c!"0.0" ∧
    (f c!"1e308").sub (f c!"-1e308") = .inf false := by decide +kernel

/-- Two numbers are equal exactly if both have a value and it is the same, or both are the same infinity: `0 == 0.0 == -0.0`, and `nan` is equal to
nothing. -/
theorem c97_equal (x y : PNum) : PyNum.eqv x y = true ↔
    (∃ v, ValueOf x v ∧ ValueOf y v) ∨ ∃ neg, x = .flt (.inf neg) ∧ y = .flt (.inf neg) := by
  have hu := unit1_pos
  have val : ∀ s n ok, ValueOf (.flt (.fin s n ok)) (signedUnits s n) := by
    intro s n ok; cases s
    · exact .plus n ok
    · exact .minus n ok
  have uniq : ∀ {x : PNum} {v w : Int}, ValueOf x v → ValueOf x w → v = w := by
    intro x v w h1 h2; cases h1 <;> cases h2 <;> rfl
  have none1 : ∀ v, ¬ ValueOf (.flt .nan) v := by intro v h; cases h
  have none2 : ∀ s v, ¬ ValueOf (.flt (.inf s)) v := by intro s v h; cases h
  have fromVals : ∀ (v w : Int), ValueOf x v → ValueOf y w → ((∃ v, ValueOf x v ∧ ValueOf y v) ↔ v = w) := by
    intro v w hv hw
    constructor
    · rintro ⟨z, h1, h2⟩; rw [uniq hv h1, uniq hw h2]
    · rintro rfl; exact ⟨v, hv, hw⟩
  show PNum.eqv x y = true ↔ _
  cases x with
  | int m =>
    cases y with
    | int n =>
      rw [fromVals _ _ (.int m) (.int n)]
      simp only [PNum.eqv, decide_eq_true_eq, reduceCtorEq, false_and, exists_false, or_false]
      exact ⟨fun h => by rw [h], fun h => Int.eq_of_mul_eq_mul_right (by omega) h⟩
    | flt y =>
      cases y with
      | nan => simp [PNum.eqv, none1]
      | inf s => simp [PNum.eqv, none2]
      | fin s n ok => rw [fromVals _ _ (.int m) (val s n ok)]; simp [PNum.eqv]
  | flt x =>
    cases x with
    | nan => cases y <;> simp [PNum.eqv, Dbl.eqv, none1]
    | inf s =>
      cases y with
      | int n => simp [PNum.eqv, none2]
      | flt y =>
        cases y with
        | nan => simp [PNum.eqv, Dbl.eqv, none2]
        | inf s' => simp [PNum.eqv, Dbl.eqv, none2, eq_comm]
        | fin s' n ok => simp [PNum.eqv, Dbl.eqv, none2]
    | fin s m ok =>
      cases y with
      | int n => rw [fromVals _ _ (val s m ok) (.int n)]; simp [PNum.eqv, eq_comm]
      | flt y =>
        cases y with
        | nan => simp [PNum.eqv, Dbl.eqv, none1]
        | inf s' => simp [PNum.eqv, Dbl.eqv, none2]
        | fin s' n ok' => rw [fromVals _ _ (val s m ok) (val s' n ok')]; simp [PNum.eqv, Dbl.eqv]

/-- A number counts as false exactly if its value is 0. -/
theorem c97_truth (x : PNum) : PyNum.truthy x = false ↔ ValueOf x 0 := by
  have hu := unit1_pos
  show PNum.truthy x = false ↔ _
  constructor
  · intro h
    cases x with
    | int n =>
      have : n = 0 := by simpa [PNum.truthy] using h
      subst this
      have := ValueOf.int 0
      rwa [Int.zero_mul] at this
    | flt x =>
      cases x with
      | nan => cases h
      | inf s => cases h
      | fin s n ok =>
        have : n = 0 := by simpa [PNum.truthy, Dbl.truthy] using h
        subst this
        cases s
        · exact .plus 0 ok
        · exact .minus 0 ok
  · intro h
    generalize hv : (0 : Int) = v at h
    cases h with
    | int k =>
      have : k = 0 := by
        rcases Int.mul_eq_zero.1 hv.symm with h | h
        · exact h
        · omega
      subst this; rfl
    | plus n ok =>
      have : n = 0 := by omega
      subst this; rfl
    | minus n ok =>
      have : n = 0 := by omega
      subst this; rfl

example : PNum.eqv (.int 0) (.flt (.fin true 0 (by decide +kernel))) = true ∧ PNum.eqv (.flt .nan) (.flt .nan) = false ∧
    PNum.truthy (.flt .nan) = true := by decide +kernel

/-- A new account has no money at all, in both readings of `0`: as a value and as it is written. -/
theorem c97_new_account {γ : Type} (g : γ) (x : PNum) (h : x = (Acct.init g).total ∨ x = (Acct.init g).avail ∨ x = (Acct.init g).locked) :
    ValueOf x 0 ∧ GateNum.str x = c!"0" := by
  have h0 : x = .int 0 := by rcases h with h | h | h <;> exact h
  subst h0
  have hv := ValueOf.int 0
  rw [Int.zero_mul] at hv
  exact ⟨hv, by decide +kernel⟩

example : (Acct.init () : Acct Unit PNum).total = .int 0 ∧ PyNum.truthy (Acct.init () : Acct Unit PNum).avail = false := by decide +kernel

end Jq
