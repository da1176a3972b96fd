import Verif.Lemmas.FloatText
/-! Decimal numbers of few digits in doubles. -/
set_option exponentiation.threshold 2100
namespace Jq

/-- Above the least binade a double is within 2^-53 of the number, relatively. -/
theorem near_normal {p q : Nat} (hq : 0 < q) (h : q * 2 ^ 52 ≤ p) :
    2 ^ 53 * p ≤ 2 ^ 53 * (nearest p q * q) + p ∧ 2 ^ 53 * (nearest p q * q) ≤ 2 ^ 53 * p + p := by
  have h1 := nearest_near p q hq
  have h2 := binade_le hq h
  generalize nearest p q * q = a at *
  generalize q * 2 ^ binade p q = b at *
  omega

theorem gap_nat (p q n : Nat) : gap p q n = ((p : Int) - ((n * q : Nat) : Int)).natAbs := by rw [gap, Int.natCast_mul]

/-- The nearest whole number is nearer than every other; of two the even one. -/
theorem halfEven_best (p d m : Nat) (hd : 0 < d) (hm : m ≠ halfEven p d) :
    gap p d (halfEven p d) < gap p d m ∨ (gap p d (halfEven p d) = gap p d m ∧ halfEven p d % 2 = 0 ∧ m % 2 = 1) := by
  have h := halfEven_near p d hd
  have heven : 2 * (halfEven p d * d) = 2 * p + d ∨ 2 * (halfEven p d * d) + d = 2 * p → halfEven p d % 2 = 0 := by
    have e := Nat.div_add_mod p d
    have hr := Nat.mod_lt p hd
    rw [Nat.mul_comm] at e
    simp only [halfEven]
    generalize p / d = x at *
    generalize p % d = r at *
    split
    · omega
    · split
      · have : (x + 1) * d = x * d + d := by rw [Nat.add_mul, Nat.one_mul]
        omega
      · intro _
        omega
  rw [gap_nat, gap_nat]
  generalize halfEven p d = k at *
  rcases Nat.lt_trichotomy m k with hlt | rfl | hlt
  · obtain ⟨j, rfl⟩ := Nat.exists_eq_add_of_lt hlt
    have h1 : (m + j + 1) * d = m * d + (j * d + d) := by rw [Nat.add_mul, Nat.add_mul, Nat.one_mul, Nat.add_assoc]
    rw [h1] at h heven ⊢
    by_cases hj : j = 0
    · subst hj
      omega
    · have : d ≤ j * d := Nat.le_mul_of_pos_left _ (by omega)
      omega
  · exact absurd rfl hm
  · obtain ⟨j, rfl⟩ := Nat.exists_eq_add_of_lt hlt
    have h1 : (k + j + 1) * d = k * d + (j * d + d) := by rw [Nat.add_mul, Nat.add_mul, Nat.one_mul, Nat.add_assoc]
    rw [h1]
    by_cases hj : j = 0
    · subst hj
      omega
    · have : d ≤ j * d := Nat.le_mul_of_pos_left _ (by omega)
      omega

theorem nearest_bits53 (p q : Nat) (hq : 0 < q) : Bits53 (nearest p q) := by
  have h := nearest_bits p q hq
  generalize nearest p q = n at *
  obtain ⟨a, ha⟩ := Nat.dvd_of_mod_eq_zero h
  refine ⟨a, n.log2 - 52, ?_, by rw [Nat.mul_comm]; exact ha⟩
  by_cases h0 : n = 0
  · subst h0
    simp at ha
    omega
  · have h1 : n < 2 ^ (n.log2 + 1) := Nat.lt_log2_self
    have h2 : 2 ^ (n.log2 + 1) ≤ 2 ^ (n.log2 - 52) * 2 ^ 53 := by
      rw [← Nat.pow_add]
      exact Nat.pow_le_pow_right (by decide) (by omega)
    apply Nat.lt_of_mul_lt_mul_left (a := 2 ^ (n.log2 - 52))
    omega

/-- The double is the nearest one, of two the even one. -/
theorem nearest_best (p q : Nat) (hq : 0 < q) : IsNearest p q (nearest p q) := by
  refine ⟨nearest_bits53 p q hq, ?_⟩
  rintro m ⟨a, l, ha, rfl⟩ hne
  have hg : ∀ x, gap p q (x * 2 ^ binade p q) = gap p (q * 2 ^ binade p q) x := by
    intro x
    rw [gap_nat, gap_nat, Nat.mul_assoc, Nat.mul_comm (2 ^ _) q]
  have key : ∀ c, c * 2 ^ binade p q ≠ nearest p q → gap p q (nearest p q) < gap p q (c * 2 ^ binade p q) ∨
      (gap p q (nearest p q) = gap p q (c * 2 ^ binade p q) ∧ ∃ k, 2 ^ k ∣ nearest p q ∧ ¬ 2 ^ k ∣ c * 2 ^ binade p q) := by
    intro c hc
    rw [nearest_halfEven] at hc ⊢
    rw [hg, hg]
    rcases halfEven_best p (q * 2 ^ binade p q) c (Nat.mul_pos hq (pow_pos2 _)) (fun e => hc (by rw [e])) with h | ⟨h1, h2, h3⟩
    · exact .inl h
    · refine .inr ⟨h1, binade p q + 1, ?_, ?_⟩
      · rw [Nat.pow_succ, Nat.mul_comm]
        exact Nat.mul_dvd_mul (Nat.dvd_of_mod_eq_zero h2) (Nat.dvd_refl _)
      · rw [Nat.pow_succ, Nat.mul_comm, Nat.mul_dvd_mul_iff_right (pow_pos2 _)]
        intro h4
        have := Nat.mod_eq_zero_of_dvd h4
        omega
  rcases Nat.lt_or_ge l (binade p q) with hl | hl
  · have hk : (p / q).log2 = binade p q + 52 := by
      have : binade p q = (p / q).log2 - 52 := rfl
      omega
    have h0 : p / q ≠ 0 := by
      intro h
      rw [h] at hk
      simp at hk
    have hlow : 2 ^ 52 * 2 ^ binade p q ≤ p / q := by
      rw [← Nat.pow_add, Nat.add_comm, ← hk]
      exact Nat.log2_self_le h0
    have hup : a * 2 ^ l < 2 ^ 52 * 2 ^ binade p q := by
      have h1 : 2 ^ l * 2 ≤ 2 ^ binade p q := by
        rw [← Nat.pow_succ]
        exact Nat.pow_le_pow_right (by decide) hl
      calc a * 2 ^ l < 2 ^ 53 * 2 ^ l := Nat.mul_lt_mul_of_pos_right ha (pow_pos2 _)
        _ = 2 ^ 52 * (2 ^ l * 2) := by rw [show (2 : Nat) ^ 53 = 2 ^ 52 * 2 from rfl]; ac_rfl
        _ ≤ _ := Nat.mul_le_mul_left _ h1
    have h1 : gap p q (nearest p q) ≤ gap p q (2 ^ 52 * 2 ^ binade p q) := by
      by_cases e : 2 ^ 52 * 2 ^ binade p q = nearest p q
      · rw [e]; exact Nat.le_refl _
      · rcases key (2 ^ 52) e with h | ⟨h, _⟩ <;> omega
    have h2 : 2 ^ 52 * 2 ^ binade p q * q ≤ p := (Nat.le_div_iff_mul_le hq).1 hlow
    have h3 : a * 2 ^ l * q < 2 ^ 52 * 2 ^ binade p q * q := Nat.mul_lt_mul_of_pos_right hup hq
    rw [gap_nat p q (2 ^ 52 * 2 ^ binade p q)] at h1
    rw [gap_nat p q (a * 2 ^ l)]
    generalize a * 2 ^ l * q = y at *
    generalize 2 ^ 52 * 2 ^ binade p q * q = z at *
    left
    omega
  · have : a * 2 ^ l = a * 2 ^ (l - binade p q) * 2 ^ binade p q := by
      rw [Nat.mul_assoc, ← Nat.pow_add, Nat.sub_add_cancel hl]
    rw [this] at hne ⊢
    exact key _ hne

/-- There is only one such number. -/
theorem IsNearest.unique {p q n n' : Nat} (h : IsNearest p q n) (h' : IsNearest p q n') : n = n' := by
  by_cases e : n = n'
  · exact e
  · rcases h.2 n' h'.1 (Ne.symm e) with h1 | ⟨h1, k, h2, h3⟩
    · rcases h'.2 n h.1 e with h4 | ⟨h4, _⟩ <;> omega
    · rcases h'.2 n h.1 e with h4 | ⟨h4, k', h5, h6⟩
      · omega
      · rcases Nat.le_total k k' with hk | hk
        · exact absurd (Nat.dvd_trans (Nat.pow_dvd_pow 2 hk) h5) h3
        · exact absurd (Nat.dvd_trans (Nat.pow_dvd_pow 2 hk) h2) h6

theorem ten_small {m : Nat} (h : m ≤ 290) : 10 ^ m * 2 ^ 52 ≤ unit1 := by
  have h1 : 10 ^ m ≤ 10 ^ 290 := Nat.pow_le_pow_right (by decide) h
  have h2 : 10 ^ 290 * 2 ^ 52 ≤ unit1 := by unfold unit1; decide +kernel
  exact Nat.le_trans (Nat.mul_le_mul_right _ h1) h2

theorem unit_large {n : Nat} (h : n ≤ 2 ^ 60 * unit1) : n < tooLarge := by
  have : 2 ^ 60 * unit1 < tooLarge := by unfold unit1 tooLarge; decide +kernel
  omega

/-- `k / 10 ^ m` as a double is near to it. -/
theorem place_near {k m : Nat} (hk : k < 2 ^ 52) (hm : m ≤ 290) :
    2 ^ 53 * (k * unit1) ≤ 2 ^ 53 * (nearest (k * unit1) (10 ^ m) * 10 ^ m) + k * unit1 ∧
    2 ^ 53 * (nearest (k * unit1) (10 ^ m) * 10 ^ m) ≤ 2 ^ 53 * (k * unit1) + k * unit1 ∧
    isDouble (nearest (k * unit1) (10 ^ m)) = true := by
  by_cases h0 : k = 0
  · subst h0
    simp only [Nat.zero_mul, nearest_zero]
    exact ⟨Nat.le_refl _, Nat.le_refl _, (isDouble_iff 0).2 ⟨by decide, by unfold tooLarge; exact pow_pos2 _⟩⟩
  · have hq := pow_pos10 m
    have h1 : 10 ^ m * 2 ^ 52 ≤ k * unit1 :=
      Nat.le_trans (ten_small hm) (by rw [← Nat.one_mul unit1]; exact Nat.mul_le_mul (by omega) (by simp))
    have h2 := near_normal hq h1
    refine ⟨h2.1, h2.2, isDouble_nearest hq (unit_large ?_)⟩
    have h3 : nearest (k * unit1) (10 ^ m) * 1 ≤ nearest (k * unit1) (10 ^ m) * 10 ^ m := Nat.mul_le_mul_left _ hq
    have h4 : k * unit1 ≤ 2 ^ 52 * unit1 := Nat.mul_le_mul_right _ (by omega)
    generalize nearest (k * unit1) (10 ^ m) * 10 ^ m = a at *
    generalize nearest (k * unit1) (10 ^ m) = b at *
    generalize k * unit1 = c at *
    generalize unit1 = u at *
    omega

/-- A double nearer than half of the last place is rounded to the decimal. -/
theorem round_place (neg : Bool) {n k m : Nat} (ok : isDouble n = true) (h1 : 2 * (n * 10 ^ m) < 2 * (k * unit1) + unit1)
    (h2 : 2 * (k * unit1) < 2 * (n * 10 ^ m) + unit1) : Dbl.round m (.fin neg n ok) = Dbl.ofDec neg k (-m) := by
  rw [Dbl.round, halfEven_unique h1 h2, ofDec_eq neg k (-m) 0 m (by omega), Nat.pow_zero, Nat.mul_one]

theorem ofDec_place (neg : Bool) {k m : Nat} (hk : k < 2 ^ 52) (hm : m ≤ 290) :
    Dbl.ofDec neg k (-m) = .fin neg (nearest (k * unit1) (10 ^ m)) (place_near hk hm).2.2 := by
  rw [ofDec_eq neg k (-m) 0 m (by omega), Nat.pow_zero, Nat.mul_one, Dbl.ofRatio, Dbl.mk_of]

/-- Rounding to the places that a number has keeps it. -/
theorem round_keeps (neg : Bool) {k m : Nat} (hk : k < 2 ^ 52) (hm : m ≤ 290) : Dbl.round m (.ofDec neg k (-m)) = .ofDec neg k (-m) := by
  conv => lhs; rw [ofDec_place neg hk hm]
  have h := place_near hk hm
  have h4 : k * unit1 < 2 ^ 52 * unit1 := Nat.mul_lt_mul_of_pos_right hk unit1_pos
  have hu := unit1_pos
  refine round_place neg _ ?_ ?_
  all_goals
    generalize nearest (k * unit1) (10 ^ m) * 10 ^ m = a at *
    generalize k * unit1 = c at *
    generalize unit1 = u at *
    omega

theorem pick_some {low up : Bool} {f r d : Nat} (h : low = true ∨ up = true) : ∃ c, pick low up f r d = some c := by
  unfold pick
  cases low <;> cases up <;> simp at h ⊢

/-- A multiple next to `n` units that is read as these is found. -/
theorem candidate_some {u t n j c : Nat} (hd : 0 < 10 ^ j * u) (hr : readTen u t c j = n) (h1 : c * (10 ^ j * u) < n * t + 10 ^ j * u)
    (h2 : n * t < c * (10 ^ j * u) + 10 ^ j * u) : ∃ c', candidate u t n j = some c' := by
  unfold candidate
  apply pick_some
  have h3 : c = n * t / (10 ^ j * u) ∨ c = n * t / (10 ^ j * u) + 1 := by
    generalize 10 ^ j * u = d at *
    have h4 : n * t / d < c + 1 := (Nat.div_lt_iff_lt_mul hd).2 (by rw [Nat.add_mul, Nat.one_mul]; exact h2)
    have h5 : c < n * t / d + 2 := by
      have : n * t < (n * t / d + 1) * d := by
        have := Nat.div_add_mod (n * t) d
        have := Nat.mod_lt (n * t) hd
        rw [Nat.add_mul, Nat.one_mul, Nat.mul_comm _ d]
        omega
      rw [Nat.add_mul, Nat.one_mul] at this
      apply Nat.lt_of_mul_lt_mul_right (a := d)
      rw [Nat.add_mul]
      omega
    omega
  rcases h3 with h3 | h3
  · exact .inl (by rw [← h3, hr]; exact beq_self_eq_true n)
  · exact .inr (by rw [← h3, hr]; exact beq_self_eq_true n)

theorem shortest_ge {u t n j0 : Nat} (h : ∃ c, candidate u t n j0 = some c) : ∀ j, j0 ≤ j → j0 ≤ (shortest u t n j).2
  | 0, hj => by rw [shortest]; exact hj
  | j + 1, hj => by
    rw [shortest]
    split
    · exact hj
    · rename_i hn
      rcases Nat.lt_or_ge j j0 with hl | hl
      · obtain ⟨c, hc⟩ := h
        rw [show j0 = j + 1 by omega, hn] at hc
        cases hc
      · exact shortest_ge h j hl

/-- `10 ^ j` units of `tens`, with `j` around `tens`: normal doubles. -/
theorem tens_normal {j c : Nat} (hj : 784 ≤ j) (hc : c ≠ 0) : tens * 2 ^ 52 ≤ c * 10 ^ j * unit1 := by
  have h1 : (10 : Nat) ^ 784 ≤ 10 ^ j := Nat.pow_le_pow_right (by decide) hj
  have h2 : tens * 2 ^ 52 ≤ 10 ^ 784 * unit1 := by unfold tens unit1; decide +kernel
  refine Nat.le_trans h2 (Nat.mul_le_mul_right _ (Nat.le_trans h1 ?_))
  exact Nat.le_mul_of_pos_left _ (by omega)

theorem tens_large {j c n : Nat} (hj : j ≤ 1364) (hc : c < 2 ^ 52) (hn : n * tens ≤ 2 * (c * 10 ^ j * unit1)) : n < tooLarge := by
  have h1 : (10 : Nat) ^ j ≤ 10 ^ 1364 := Nat.pow_le_pow_right (by decide) hj
  have h2 : 2 * (2 ^ 52 * 10 ^ 1364 * unit1) < tooLarge * tens := by unfold tens unit1 tooLarge; decide +kernel
  have h3 : c * 10 ^ j * unit1 ≤ 2 ^ 52 * 10 ^ 1364 * unit1 := Nat.mul_le_mul_right _ (Nat.mul_le_mul (by omega) h1)
  apply Nat.lt_of_mul_lt_mul_right (a := tens)
  generalize 2 ^ 52 * 10 ^ 1364 * unit1 = x at *
  omega

/-- A decimal of at most fifteen digits is within 2^-53 of its double. -/
theorem readTen_near {j c : Nat} (hj : 784 ≤ j) (hc : c ≠ 0) :
    2 ^ 53 * (c * (10 ^ j * unit1)) ≤ 2 ^ 53 * (readTen unit1 tens c j * tens) + c * (10 ^ j * unit1) ∧
    2 ^ 53 * (readTen unit1 tens c j * tens) ≤ 2 ^ 53 * (c * (10 ^ j * unit1)) + c * (10 ^ j * unit1) := by
  have h := near_normal tens_pos (tens_normal hj hc)
  rw [readTen, ← Nat.mul_assoc c]
  exact h

theorem readTen_double {j c : Nat} (hj : j ≤ 1364) (hj' : 784 ≤ j) (hc : c < 2 ^ 52) : isDouble (readTen unit1 tens c j) = true := by
  by_cases h0 : c = 0
  · rw [h0, readTen_zero]
    exact (isDouble_iff 0).2 ⟨by decide, by unfold tooLarge; exact pow_pos2 _⟩
  · rw [readTen]
    refine isDouble_nearest tens_pos (tens_large hj hc ?_)
    have := (readTen_near hj' h0).2
    rw [← Nat.mul_assoc c, readTen] at this
    generalize nearest (c * 10 ^ j * unit1) tens * tens = a at *
    generalize c * 10 ^ j * unit1 = b at *
    omega

/-- The shortest decimal of the double of a decimal with few digits is this decimal. -/
theorem shortest_same {d j : Nat} (h0 : d ≠ 0) (hd : d < 2 ^ 52) (h1 : 784 ≤ j) (h2 : j ≤ 1364) :
    j ≤ (shortest unit1 tens (readTen unit1 tens d j) topTen).2 ∧
    (shortest unit1 tens (readTen unit1 tens d j) topTen).1 * 10 ^ ((shortest unit1 tens (readTen unit1 tens d j) topTen).2 - j) = d := by
  have hD : 0 < 10 ^ j * unit1 := Nat.mul_pos (pow_pos10 _) unit1_pos
  have hn := readTen_near h1 h0
  have hlt : d * (10 ^ j * unit1) < 2 ^ 52 * (10 ^ j * unit1) := Nat.mul_lt_mul_of_pos_right hd hD
  have hread : readTen unit1 tens d j = readTen unit1 tens d j := rfl
  generalize hN : readTen unit1 tens d j = n at hread hn ⊢
  have hdbl : isDouble n = true := hN ▸ readTen_double h2 h1 hd
  have hcand : ∃ c, candidate unit1 tens n j = some c := by
    refine candidate_some hD hN ?_ ?_
    all_goals
      generalize d * (10 ^ j * unit1) = x at *
      generalize n * tens = y at *
      generalize 10 ^ j * unit1 = z at *
      omega
  have hge := shortest_ge hcand topTen (by unfold topTen; omega)
  refine ⟨hge, ?_⟩
  have hr := shortest_read hdbl tens_pos unit1_dvd_tens topTen
  generalize shortest unit1 tens n topTen = x at *
  obtain ⟨c, i⟩ := x
  simp only at *
  have hsame : readTen unit1 tens (c * 10 ^ (i - j)) j = n := by
    rw [← hr, readTen, readTen, Nat.mul_assoc c, ← Nat.pow_add, Nat.sub_add_cancel hge]
  generalize c * 10 ^ (i - j) = a at *
  have ha : a ≠ 0 := by
    rintro rfl
    rw [readTen_zero] at hsame
    rw [← hsame, Nat.zero_mul] at hn
    have : 0 < d * (10 ^ j * unit1) := Nat.mul_pos (by omega) hD
    generalize d * (10 ^ j * unit1) = x at *
    omega
  have hm := readTen_near h1 ha
  rw [hsame] at hm
  have e1 : 2 ^ 53 * d ≤ 2 ^ 53 * a + (a + d) := by
    apply Nat.le_of_mul_le_mul_right (c := 10 ^ j * unit1) _ hD
    rw [Nat.add_mul, Nat.add_mul, Nat.mul_assoc, Nat.mul_assoc]
    generalize d * (10 ^ j * unit1) = x at *
    generalize a * (10 ^ j * unit1) = z at *
    generalize n * tens = y at *
    omega
  have e2 : 2 ^ 53 * a ≤ 2 ^ 53 * d + (a + d) := by
    apply Nat.le_of_mul_le_mul_right (c := 10 ^ j * unit1) _ hD
    rw [Nat.add_mul, Nat.add_mul, Nat.mul_assoc, Nat.mul_assoc]
    generalize d * (10 ^ j * unit1) = x at *
    generalize a * (10 ^ j * unit1) = z at *
    generalize n * tens = y at *
    omega
  omega

/-- `repr` of the double of a decimal with few digits is a text of this decimal. -/
theorem repr_same (neg : Bool) {d : Nat} {e : Int} (hd : d < 2 ^ 52) (h1 : -290 ≤ e) (h2 : e ≤ 290) :
    ∃ t d' e', (Dbl.ofDec neg d e).repr = (if neg then c!"-" else []) ++ t ∧ DecText t d' e' ∧ SameNumber d' e' d e := by
  obtain ⟨j, hj⟩ : ∃ j : Nat, (j : Int) = e + 1074 := ⟨(e + 1074).toNat, by omega⟩
  have hdbl := readTen_double (j := j) (by omega) (by omega) hd
  rw [ofDec_readTen neg d j e (by omega), Dbl.mk_of hdbl, Dbl.repr]
  by_cases h0 : d = 0
  · subst h0
    refine ⟨c!"0.0", 0, -1, ?_, (decParts_iff _ _ _).1 (by decide), by simp [SameNumber]⟩
    rw [readTen_zero, reprUnits, if_pos rfl]
  · have hs := shortest_same h0 hd (j := j) (by omega) (by omega)
    have hn : readTen unit1 tens d j ≠ 0 := by
      intro hz
      have hn := (readTen_near (j := j) (by omega) h0).1
      rw [hz, Nat.zero_mul] at hn
      have : 0 < d * (10 ^ j * unit1) := Nat.mul_pos (by omega) (Nat.mul_pos (pow_pos10 _) unit1_pos)
      generalize d * (10 ^ j * unit1) = x at *
      omega
    obtain ⟨d', e', hdec, hsame⟩ := reprUnits_text hdbl hn
    refine ⟨_, d', e', rfl, hdec, hsame.trans ?_⟩
    generalize shortest unit1 tens (readTen unit1 tens d j) topTen = x at *
    obtain ⟨c, i⟩ := x
    simp only at *
    rw [SameNumber, show ((i : Int) - 1074 - e).toNat = i - j by omega, hs.2, show (e - ((i : Int) - 1074)).toNat = 0 by omega, Nat.pow_zero, Nat.mul_one]

/-- The difference of two whole numbers of units as a double. -/
theorem nearest_whole (d : Nat) : 2 ^ 53 * d ≤ 2 ^ 53 * nearest d 1 + d ∧ 2 ^ 53 * nearest d 1 ≤ 2 ^ 53 * d + d := by
  rcases Nat.lt_or_ge d (2 ^ 52) with h | h
  · have hb : binade d 1 = 0 := by
      rw [binade, Nat.div_one]
      by_cases h0 : d = 0
      · subst h0; rfl
      · have := (Nat.log2_lt h0).2 h
        omega
    have := nearest_near d 1 (by decide)
    rw [hb] at this
    omega
  · have := near_normal (p := d) (q := 1) (by decide) (by omega)
    rwa [Nat.mul_one] at this

/-- The difference of two doubles near to decimals, rounded to their places. -/
theorem round_sub {m n n' k k' : Nat} (ok : isDouble n = true) (ok' : isDouble n' = true) (hk : k < 2 ^ 50) (hk' : k' < 2 ^ 50)
    (h1 : 8 * (n * 10 ^ m) ≤ 8 * (k * unit1) + unit1) (h2 : 8 * (k * unit1) ≤ 8 * (n * 10 ^ m) + unit1)
    (h3 : 8 * (n' * 10 ^ m) ≤ 8 * (k' * unit1) + unit1) (h4 : 8 * (k' * unit1) ≤ 8 * (n' * 10 ^ m) + unit1) :
    ∃ neg, Dbl.round m ((Dbl.fin false n ok).sub (.fin false n' ok')) = Dbl.ofDec neg ((k : Int) - k').natAbs (-m) ∧ DiffSign k k' neg ∧
      (n = n' → neg = false) := by
  have hu := unit1_pos
  have hq := pow_pos10 m
  have hz : isDouble 0 = true := (isDouble_iff 0).2 ⟨by decide, by unfold tooLarge; exact pow_pos2 _⟩
  have hlt : ∀ a b : Nat, a < b → a * unit1 + unit1 ≤ b * unit1 := by
    intro a b hab
    have := Nat.mul_le_mul_right unit1 (Nat.succ_le_of_lt hab)
    rwa [Nat.succ_mul] at this
  have hmul : ∀ a b : Nat, a ≤ b → ∀ c, (b - a) * c = b * c - a * c := fun a b _ c => Nat.sub_mul b a c
  simp only [Dbl.sub, signedUnits, Bool.false_eq_true, if_false, Bool.false_and]
  -- the case of a smaller and a greater number
  have main : ∀ {a b i j : Nat}, i < 2 ^ 50 → 8 * (a * 10 ^ m) ≤ 8 * (i * unit1) + unit1 → 8 * (i * unit1) ≤ 8 * (a * 10 ^ m) + unit1 →
      8 * (b * 10 ^ m) ≤ 8 * (j * unit1) + unit1 → 8 * (j * unit1) ≤ 8 * (b * 10 ^ m) + unit1 → b < a → ∀ neg,
      Dbl.round m (.mk neg (nearest (a - b) 1)) = Dbl.ofDec neg (i - j) (-m) ∧ j ≤ i := by
    intro a b i j hi g1 g2 g3 g4 hab neg
    have hji : j ≤ i := by
      rcases Nat.lt_or_ge i j with h | h
      · have e1 := hlt i j h
        have e2 := Nat.mul_le_mul_right (10 ^ m) (Nat.le_of_lt hab)
        generalize a * 10 ^ m = x1 at *
        generalize b * 10 ^ m = x2 at *
        generalize i * unit1 = y1 at *
        generalize j * unit1 = y2 at *
        omega
      · exact h
    refine ⟨?_, hji⟩
    have hw := nearest_whole (a - b)
    have e1 : (a - b) * 10 ^ m = a * 10 ^ m - b * 10 ^ m := Nat.sub_mul ..
    have e2 : (i - j) * unit1 = i * unit1 - j * unit1 := Nat.sub_mul ..
    have e3 := Nat.mul_le_mul_right (10 ^ m) (Nat.le_of_lt hab)
    have e4 := Nat.mul_le_mul_right unit1 hji
    have e5 : i * unit1 < 2 ^ 50 * unit1 := Nat.mul_lt_mul_of_pos_right hi hu
    have w1 : 2 ^ 53 * ((a - b) * 10 ^ m) ≤ 2 ^ 53 * (nearest (a - b) 1 * 10 ^ m) + (a - b) * 10 ^ m := by
      have := Nat.mul_le_mul_right (10 ^ m) hw.1
      rwa [Nat.add_mul, Nat.mul_assoc, Nat.mul_assoc] at this
    have w2 : 2 ^ 53 * (nearest (a - b) 1 * 10 ^ m) ≤ 2 ^ 53 * ((a - b) * 10 ^ m) + (a - b) * 10 ^ m := by
      have := Nat.mul_le_mul_right (10 ^ m) hw.2
      rwa [Nat.add_mul, Nat.mul_assoc, Nat.mul_assoc] at this
    have w3 : nearest (a - b) 1 * 1 ≤ nearest (a - b) 1 * 10 ^ m := Nat.mul_le_mul_left _ hq
    have hd : isDouble (nearest (a - b) 1) = true := by
      refine isDouble_nearest (by decide) (unit_large ?_)
      generalize nearest (a - b) 1 * 10 ^ m = r at *
      generalize (a - b) * 10 ^ m = d at *
      generalize (i - j) * unit1 = k at *
      generalize nearest (a - b) 1 = z at *
      generalize a * 10 ^ m = x1 at *
      generalize b * 10 ^ m = x2 at *
      generalize i * unit1 = y1 at *
      generalize j * unit1 = y2 at *
      generalize unit1 = u at *
      omega
    rw [Dbl.mk_of hd]
    refine round_place neg hd ?_ ?_
    all_goals
      generalize nearest (a - b) 1 * 10 ^ m = r at *
      generalize (a - b) * 10 ^ m = d at *
      generalize (i - j) * unit1 = k at *
      generalize a * 10 ^ m = x1 at *
      generalize b * 10 ^ m = x2 at *
      generalize i * unit1 = y1 at *
      generalize j * unit1 = y2 at *
      generalize unit1 = u at *
      omega
  rcases Nat.lt_trichotomy n n' with h | h | h
  · have hm := main (i := k') (j := k) hk' h3 h4 h1 h2 h true
    refine ⟨true, ?_, ⟨fun _ => rfl, fun hlt => by omega⟩, by omega⟩
    rw [if_neg (by omega), show decide ((n : Int) - n' < 0) = true by simp; omega, show ((n : Int) - n').natAbs = n' - n by omega,
      show ((k : Int) - k').natAbs = k' - k by omega]
    exact hm.1
  · subst h
    have hkk : k = k' := by
      rcases Nat.lt_trichotomy k k' with g | g | g
      · have := hlt _ _ g
        generalize k * unit1 = y1 at *
        generalize k' * unit1 = y2 at *
        omega
      · exact g
      · have := hlt _ _ g
        generalize k * unit1 = y1 at *
        generalize k' * unit1 = y2 at *
        omega
    subst hkk
    refine ⟨false, ?_, ⟨fun h => by omega, fun h => by omega⟩, fun _ => rfl⟩
    rw [if_pos (by omega), Dbl.mk_of hz, show ((k : Int) - k).natAbs = 0 by omega]
    exact round_place false hz (by omega) (by omega)
  · have hm := main (i := k) (j := k') hk h1 h2 h3 h4 h false
    refine ⟨false, ?_, ⟨fun hlt => by omega, fun _ => rfl⟩, by omega⟩
    rw [if_neg (by omega), show decide ((n : Int) - n' < 0) = false by simp; omega, show ((n : Int) - n').natAbs = n - n' by omega,
      show ((k : Int) - k').natAbs = k - k' by omega]
    exact hm.1

end Jq
