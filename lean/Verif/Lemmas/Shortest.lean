import Verif.Lemmas.Decimal
import Verif.Lemmas.PyNumber
/-! `repr` of a double: as few digits as possible, and of these the nearest. -/
set_option exponentiation.threshold 2100
namespace Jq

theorem gap_self (n q : Nat) : gap (n * q) q n = 0 := by rw [gap_nat]; omega

theorem gap_pos {n m q : Nat} (hq : 0 < q) (h : m ≠ n) : 0 < gap (n * q) q m := by
  rw [gap_nat]
  have : m * q ≠ n * q := fun e => h (Nat.eq_of_mul_eq_mul_right hq e)
  omega

/-- A number of 53 bits is its own double. -/
theorem nearest_self {n q : Nat} (hq : 0 < q) (h : Bits53 n) : nearest (n * q) q = n := by
  refine (nearest_best _ q hq).unique ⟨h, fun m _ hne => .inl ?_⟩
  rw [gap_self]
  exact gap_pos hq hne

/-- A greater number has no smaller double. -/
theorem nearest_mono {p p' q : Nat} (hq : 0 < q) (h : p ≤ p') : nearest p q ≤ nearest p' q := by
  rcases Nat.lt_or_ge (nearest p' q) (nearest p q) with hlt | hge
  · exfalso
    have h1 := nearest_best p q hq
    have h2 := nearest_best p' q hq
    have g1 : gap p q (nearest p q) ≤ gap p q (nearest p' q) := by
      rcases h1.2 _ h2.1 (by omega) with g | ⟨g, _⟩ <;> omega
    have g2 : gap p' q (nearest p' q) ≤ gap p' q (nearest p q) := by
      rcases h2.2 _ h1.1 (by omega) with g | ⟨g, _⟩ <;> omega
    have hm : nearest p' q * q < nearest p q * q := Nat.mul_lt_mul_of_pos_right hlt hq
    have he : p = p' := by
      rw [gap_nat, gap_nat] at g1 g2
      generalize nearest p q * q = a at *
      generalize nearest p' q * q = b at *
      omega
    rw [he] at hlt
    omega
  · exact hge

theorem isDouble_bits {n : Nat} (h : isDouble n = true) : Bits53 n := by
  have := nearest_bits53 (n * 1) 1 (by decide)
  rwa [nearest_exact h (by decide)] at this

/-- Between two numbers that are read as `n` lie only such. -/
theorem read_between {p p' r q n : Nat} (hq : 0 < q) (h1 : p ≤ r) (h2 : r ≤ p') (hp : nearest p q = n) (hp' : nearest p' q = n) : nearest r q = n := by
  have := nearest_mono hq h1
  have := nearest_mono hq h2
  omega

/-- If any multiple of `10 ^ j` is read as `n`, one next to it is. -/
theorem candidate_complete {u t n j c : Nat} (hu : 0 < u) (ht : 0 < t) (hn : Bits53 n) (hr : readTen u t c j = n) :
    ∃ c', candidate u t n j = some c' := by
  have hD : 0 < 10 ^ j * u := Nat.mul_pos (pow_pos10 _) hu
  have hself := nearest_self ht hn
  unfold candidate
  apply pick_some
  have e := Nat.div_add_mod (n * t) (10 ^ j * u)
  have hmod := Nat.mod_lt (n * t) hD
  rw [Nat.mul_comm] at e
  rw [readTen, Nat.mul_assoc] at hr
  simp only [readTen, Nat.mul_assoc]
  generalize n * t / (10 ^ j * u) = f at *
  rcases Nat.lt_or_ge f c with hc | hc
  · right
    have h1 : (f + 1) * (10 ^ j * u) ≤ c * (10 ^ j * u) := Nat.mul_le_mul_right (10 ^ j * u) (Nat.succ_le_of_lt hc)
    have h2 : (f + 1) * (10 ^ j * u) = f * (10 ^ j * u) + 10 ^ j * u := by rw [Nat.add_mul, Nat.one_mul]
    rw [read_between ht (by omega) h1 hself hr]
    exact beq_self_eq_true n
  · left
    have h1 := Nat.mul_le_mul_right (10 ^ j * u) hc
    rw [read_between ht h1 (by omega) hr hself]
    exact beq_self_eq_true n

/-- What is found is next to `n`, and no other multiple is nearer. -/
theorem candidate_best {u t n j c m : Nat} (hu : 0 < u) (ht : 0 < t) (hn : Bits53 n) (h : candidate u t n j = some c) (hm : readTen u t m j = n) :
    gap (n * t) (10 ^ j * u) c ≤ gap (n * t) (10 ^ j * u) m := by
  have hD : 0 < 10 ^ j * u := Nat.mul_pos (pow_pos10 _) hu
  have hself := nearest_self ht hn
  unfold candidate at h
  have e := Nat.div_add_mod (n * t) (10 ^ j * u)
  have hmod := Nat.mod_lt (n * t) hD
  rw [Nat.mul_comm] at e
  rw [readTen, Nat.mul_assoc] at hm
  simp only [readTen, Nat.mul_assoc] at h
  rw [gap_nat, gap_nat]
  generalize n * t / (10 ^ j * u) = f at *
  generalize n * t % (10 ^ j * u) = r at *
  have h2 : (f + 1) * (10 ^ j * u) = f * (10 ^ j * u) + 10 ^ j * u := by rw [Nat.add_mul, Nat.one_mul]
  rcases Nat.lt_or_ge f m with hc | hc
  · have h1 : (f + 1) * (10 ^ j * u) ≤ m * (10 ^ j * u) := Nat.mul_le_mul_right (10 ^ j * u) (Nat.succ_le_of_lt hc)
    have hup : nearest ((f + 1) * (10 ^ j * u)) t = n := read_between ht (by omega) h1 hself hm
    rw [hup, beq_self_eq_true] at h
    rcases Bool.eq_false_or_eq_true (nearest (f * (10 ^ j * u)) t == n) with hl | hl
    all_goals
      rw [hl] at h
      simp [pick] at h
    · subst h
      split
      · omega
      · split
        · omega
        · rcases Nat.mod_two_eq_zero_or_one f with hf | hf <;> rw [hf] <;> (try rw [Nat.add_zero]) <;> omega
    · subst h
      omega
  · have h1 := Nat.mul_le_mul_right (10 ^ j * u) hc
    have hlow : nearest (f * (10 ^ j * u)) t = n := read_between ht h1 (by omega) hm hself
    rw [hlow, beq_self_eq_true] at h
    rcases Bool.eq_false_or_eq_true (nearest ((f + 1) * (10 ^ j * u)) t == n) with hl | hl
    all_goals
      rw [hl] at h
      simp [pick] at h
    · subst h
      split
      · omega
      · split
        · omega
        · rcases Nat.mod_two_eq_zero_or_one f with hf | hf <;> rw [hf] <;> (try rw [Nat.add_zero]) <;> omega
    · subst h
      omega

theorem shortest_best {u t n m : Nat} (hu : 0 < u) (ht : 0 < t) (hd : u ∣ t) (hn : Bits53 n) (j : Nat) (hm : readTen u t m (shortest u t n j).2 = n) :
    gap (n * t) (10 ^ (shortest u t n j).2 * u) (shortest u t n j).1 ≤ gap (n * t) (10 ^ (shortest u t n j).2 * u) m := by
  induction j with
  | zero =>
    rw [shortest]
    have : n * t / u * (10 ^ 0 * u) = n * t := by
      rw [Nat.pow_zero, Nat.one_mul, Nat.div_mul_cancel (Nat.dvd_trans hd (Nat.dvd_mul_left _ _))]
    rw [gap_nat, this]
    omega
  | succ j ih =>
    rw [shortest] at hm ⊢
    split
    · rename_i c h
      rw [h] at hm
      exact candidate_best hu ht hn h hm
    · rename_i h
      rw [h] at hm
      exact ih hm

/-- Of two that are equally near, the even one is found. -/
theorem candidate_even {u t n j c m : Nat} (hu : 0 < u) (ht : 0 < t) (hn : Bits53 n) (h : candidate u t n j = some c) (hm : readTen u t m j = n)
    (hne : m ≠ c) (hg : gap (n * t) (10 ^ j * u) c = gap (n * t) (10 ^ j * u) m) : c % 2 = 0 := by
  have hD : 0 < 10 ^ j * u := Nat.mul_pos (pow_pos10 _) hu
  have hself := nearest_self ht hn
  unfold candidate at h
  have e := Nat.div_add_mod (n * t) (10 ^ j * u)
  have hmod := Nat.mod_lt (n * t) hD
  rw [Nat.mul_comm] at e
  rw [readTen, Nat.mul_assoc] at hm
  simp only [readTen, Nat.mul_assoc] at h
  rw [gap_nat, gap_nat] at hg
  generalize n * t / (10 ^ j * u) = f at *
  generalize n * t % (10 ^ j * u) = r at *
  generalize 10 ^ j * u = D at *
  have h2 : (f + 1) * D = f * D + D := by rw [Nat.add_mul, Nat.one_mul]
  have h3 : (f + 1 + 1) * D = f * D + D + D := by rw [Nat.add_mul, Nat.one_mul, h2]
  rcases Nat.lt_or_ge f m with hc | hc
  · have h1 : (f + 1) * D ≤ m * D := Nat.mul_le_mul_right D (Nat.succ_le_of_lt hc)
    have hup : nearest ((f + 1) * D) t = n := read_between ht (by omega) h1 hself hm
    rw [hup, beq_self_eq_true] at h
    rcases Nat.eq_or_lt_of_le (Nat.succ_le_of_lt hc) with hx | hx
    · subst hx
      rcases Bool.eq_false_or_eq_true (nearest (f * D) t == n) with hl | hl
      all_goals
        rw [hl] at h
        simp [pick] at h
      · subst h
        split
        · rename_i hr; rw [if_pos hr] at hg; omega
        · split
          · rename_i hr hr'; rw [if_neg hr, if_pos hr'] at hne; exact absurd rfl hne
          · omega
      · exact absurd h hne
    · exfalso
      have h4 : (f + 1 + 1) * D ≤ m * D := Nat.mul_le_mul_right D hx
      have : c = f ∨ c = f + 1 := by
        rcases Bool.eq_false_or_eq_true (nearest (f * D) t == n) with hl | hl
        all_goals
          rw [hl] at h
          simp [pick] at h
        · rw [← h]
          split
          · exact .inl rfl
          · split
            · exact .inr rfl
            · omega
        · exact .inr h.symm
      rcases this with rfl | rfl <;> omega
  · have h1 := Nat.mul_le_mul_right D hc
    have hlow : nearest (f * D) t = n := read_between ht h1 (by omega) hm hself
    rw [hlow, beq_self_eq_true] at h
    rcases Nat.eq_or_lt_of_le hc with hx | hx
    · subst hx
      rcases Bool.eq_false_or_eq_true (nearest ((m + 1) * D) t == n) with hl | hl
      all_goals
        rw [hl] at h
        simp [pick] at h
      · subst h
        split
        · rename_i hr; rw [if_pos hr] at hne; exact absurd rfl hne
        · split
          · rename_i hr hr'; rw [if_neg hr, if_pos hr'] at hg; omega
          · omega
      · exact absurd h hne
    · exfalso
      have h4 : (m + 1) * D ≤ f * D := Nat.mul_le_mul_right D hx
      have h5 : (m + 1) * D = m * D + D := by rw [Nat.add_mul, Nat.one_mul]
      have : c = f ∨ (c = f + 1 ∧ D ≤ 2 * r) := by
        rcases Bool.eq_false_or_eq_true (nearest ((f + 1) * D) t == n) with hl | hl
        all_goals
          rw [hl] at h
          simp [pick] at h
        · rw [← h]
          split
          · exact .inl rfl
          · split
            · exact .inr ⟨rfl, by omega⟩
            · omega
        · exact .inl h.symm
      rcases this with rfl | ⟨rfl, _⟩ <;> omega

theorem shortest_even {u t n m : Nat} (hu : 0 < u) (ht : 0 < t) (hd : u ∣ t) (hn : Bits53 n) (j : Nat) (hm : readTen u t m (shortest u t n j).2 = n)
    (hne : m ≠ (shortest u t n j).1)
    (hg : gap (n * t) (10 ^ (shortest u t n j).2 * u) (shortest u t n j).1 = gap (n * t) (10 ^ (shortest u t n j).2 * u) m) :
    (shortest u t n j).1 % 2 = 0 := by
  induction j with
  | zero =>
    exfalso
    rw [shortest] at hne hg
    have e : n * t / u * (10 ^ 0 * u) = n * t := by
      rw [Nat.pow_zero, Nat.one_mul, Nat.div_mul_cancel (Nat.dvd_trans hd (Nat.dvd_mul_left _ _))]
    simp only at hne hg
    rw [gap_nat, gap_nat, e] at hg
    have e2 : m * (10 ^ 0 * u) = n * t / u * (10 ^ 0 * u) := by omega
    exact hne (Nat.eq_of_mul_eq_mul_right (by rw [Nat.pow_zero, Nat.one_mul]; exact hu) e2)
  | succ j ih =>
    rw [shortest] at hm hne hg ⊢
    split
    · rename_i c h
      rw [h] at hm hne hg
      exact candidate_even hu ht hn h hm hne hg
    · rename_i h
      rw [h] at hm hne hg
      exact ih hm hne hg

/-- Powers of ten beyond the greatest are not read as doubles. -/
theorem readTen_top {c j : Nat} (hc : c ≠ 0) (hj : topTen < j) : isDouble (readTen unit1 tens c j) = false := by
  have h1 : (10 : Nat) ^ 1383 ≤ 10 ^ j := Nat.pow_le_pow_right (by decide) (by unfold topTen at hj; omega)
  have h2 : tooLarge * tens ≤ 10 ^ 1383 * unit1 := by unfold tens unit1 tooLarge; decide +kernel
  have h3 : tooLarge * tens ≤ c * 10 ^ j * unit1 :=
    Nat.le_trans h2 (Nat.mul_le_mul_right _ (Nat.le_trans h1 (Nat.le_mul_of_pos_left _ (by omega))))
  have h4 := nearest_mono tens_pos h3
  rw [nearest_self tens_pos ⟨1, 2098, by decide, by unfold tooLarge; rw [Nat.one_mul]⟩] at h4
  rw [readTen]
  cases h : isDouble (nearest (c * 10 ^ j * unit1) tens) with
  | false => rfl
  | true => have := ((isDouble_iff _).1 h).2; omega

/-- The power of ten is the greatest possible. -/
theorem shortest_max {n c j : Nat} (hn : isDouble n = true) (h0 : n ≠ 0) (hr : readTen unit1 tens c j = n) : j ≤ (shortest unit1 tens n topTen).2 := by
  refine shortest_ge (candidate_complete unit1_pos tens_pos (isDouble_bits hn) hr) topTen ?_
  rcases Nat.lt_or_ge topTen j with h | h
  · exfalso
    have := readTen_top (c := c) (by rintro rfl; rw [readTen_zero] at hr; exact h0 hr.symm) h
    rw [hr, hn] at this
    cases this
  · exact h

theorem natStr_length (n k : Nat) (h : 10 ^ k ≤ n) : k < (natStr n).length := by
  rcases Nat.lt_or_ge k (natStr n).length with h1 | h1
  · exact h1
  · exfalso
    have hv : ∀ s : Str, (∀ c ∈ s, isDig c = true) → natOfDigits s < 10 ^ s.length := by
      intro s
      induction s with
      | nil => intro _; simp [natOfDigits]
      | cons c s ih =>
        intro hs
        have hd := hs c (by simp)
        have := ih fun c hc => hs c (List.mem_cons_of_mem _ hc)
        rw [show c :: s = [c] ++ s from rfl, natOfDigits_app]
        have hc9 : natOfDigits [c] ≤ 9 := by
          have := isDig_toNat.1 hd
          simp only [natOfDigits, digVal, List.foldl_cons, List.foldl_nil, show '0'.toNat = 48 from rfl]
          omega
        rw [List.length_append, List.length_singleton, Nat.add_comm 1, Nat.pow_succ]
        have := Nat.mul_le_mul_right (10 ^ s.length) hc9
        omega
    have := hv (natStr n) (natStr_digits n)
    rw [natOfDigits_natStr] at this
    have := Nat.pow_le_pow_right (n := 10) (by decide) h1
    omega

theorem natStr_ge (c : Nat) (h0 : c ≠ 0) : 10 ^ ((natStr c).length - 1) ≤ c := by
  have hv := natOfDigits_natStr c
  have hd := natStr_digits c
  have hz : (natStr c).head? ≠ some '0' := fun e => h0 (natStr_head_zero c e)
  generalize natStr c = s at *
  cases s with
  | nil => exact absurd hv (by simpa [natOfDigits] using h0.symm)
  | cons x l =>
    rw [show x :: l = [x] ++ l from rfl, natOfDigits_app] at hv
    have h1 : 1 ≤ natOfDigits [x] := by
      have hx := isDig_toNat.1 (hd x (by simp))
      simp only [natOfDigits, digVal, List.foldl_cons, List.foldl_nil, show '0'.toNat = 48 from rfl]
      rcases Nat.lt_or_ge 48 x.toNat with h | h
      · omega
      · exfalso
        apply hz
        have : x = '0' := Char.toNat_inj.1 (by rw [show '0'.toNat = 48 from rfl]; omega)
        rw [this]; rfl
    have := Nat.mul_le_mul_right (10 ^ l.length) h1
    rw [List.length_cons, Nat.add_sub_cancel]
    omega

/-- No decimal with fewer digits is read as the double. -/
theorem shortest_fewest {n d : Nat} {e : Int} (neg : Bool) (hn : isDouble n = true) (h0 : n ≠ 0) (h : Dbl.ofDec neg d e = Dbl.mk neg n) :
    (natStr (shortest unit1 tens n topTen).1).length ≤ (natStr d).length := by
  have hr := shortest_read hn tens_pos unit1_dvd_tens topTen
  have hmax := @shortest_max n 1 ((natStr (shortest unit1 tens n topTen).1).length - 1 + (shortest unit1 tens n topTen).2) hn h0
  have hmax' := @shortest_max n d
  generalize shortest unit1 tens n topTen = x at *
  obtain ⟨c, j⟩ := x
  simp only at *
  rcases Nat.lt_or_ge (natStr d).length (natStr c).length with hlt | hge
  · exfalso
    have hdn : d ≠ 0 := by
      rintro rfl
      rw [ofDec_eq neg 0 e e.toNat (-e).toNat (by omega), Nat.zero_mul, Dbl.ofRatio, Nat.zero_mul, nearest_zero, Dbl.mk_of hn,
        Dbl.mk_of ((isDouble_iff 0).2 ⟨by decide, by unfold tooLarge; exact pow_pos2 _⟩)] at h
      injection h with _ h
      exact h0 h.symm
    have hK : d < 10 ^ ((natStr c).length - 1) := by
      rcases Nat.lt_or_ge d (10 ^ ((natStr c).length - 1)) with g | g
      · exact g
      · have := natStr_length d _ g
        omega
    have hc : 10 ^ ((natStr c).length - 1) ≤ c := natStr_ge c (by
      rintro rfl
      rw [readTen_zero] at hr
      exact h0 hr.symm)
    generalize (natStr c).length - 1 = k at *
    obtain ⟨a, b, he, hb⟩ : ∃ a b : Nat, e + 1074 = (a : Int) - b ∧ (b = 0 ∨ a = 0) :=
      ⟨(e + 1074).toNat, (-(e + 1074)).toNat, by omega, by omega⟩
    have hread : nearest (d * 10 ^ a * unit1) (tens * 10 ^ b) = n := by
      rw [ofDec_eq neg d e a (b + 1074) (by omega), Dbl.ofRatio, show (10 : Nat) ^ (b + 1074) = tens * 10 ^ b by
        rw [Nat.pow_add, Nat.mul_comm]; unfold tens; rfl, Dbl.mk_of hn] at h
      unfold Dbl.mk at h
      split at h
      · injection h with _ h
      · cases h
    have hkj := hmax ?_
    · have : k = 0 := by omega
      subst this
      rw [Nat.pow_zero] at hK
      omega
    · rw [readTen, ← nearest_scale _ _ (pow_pos10 b)]
      rw [readTen, ← nearest_scale _ _ (pow_pos10 b)] at hr
      refine read_between (Nat.mul_pos tens_pos (pow_pos10 b)) ?_ ?_ hread hr
      · rw [Nat.one_mul, Nat.mul_right_comm (10 ^ (k + j))]
        refine Nat.mul_le_mul_right _ ?_
        rw [Nat.pow_add, Nat.mul_assoc]
        refine Nat.mul_le_mul (Nat.le_of_lt hK) ?_
        rw [← Nat.pow_add]
        refine Nat.pow_le_pow_right (by decide) ?_
        rcases hb with rfl | rfl
        · exact hmax' hn h0 (by rw [readTen]; rwa [Nat.pow_zero, Nat.mul_one] at hread)
        · omega
      · rw [Nat.one_mul, Nat.pow_add]
        exact Nat.mul_le_mul_right _ (Nat.mul_le_mul_right _ (Nat.mul_le_mul_right _ hc))
  · exact hge

end Jq
