import Verif.Py.Double
/-! # Rounding to a double -/
namespace Jq
set_option exponentiation.threshold 4000

theorem pow_pos2 (k : Nat) : 0 < 2 ^ k := Nat.pow_pos (by decide)
theorem pow_pos10 (k : Nat) : 0 < 10 ^ k := Nat.pow_pos (by decide)

theorem unit1_pos : 0 < unit1 := by unfold unit1; exact pow_pos2 _
theorem tens_pos : 0 < tens := by unfold tens; exact pow_pos10 _

/-- The exponent of the binade of `p / q`. -/
def binade (p q : Nat) : Nat := (p / q).log2 - 52

/-- The multiplier is the rounded quotient. -/
theorem halfEven_near (p d : Nat) (hd : 0 < d) : 2 * p ≤ 2 * (halfEven p d * d) + d ∧ 2 * (halfEven p d * d) ≤ 2 * p + d := by
  have h := Nat.div_add_mod p d
  have hr := Nat.mod_lt p hd
  rw [Nat.mul_comm] at h
  simp only [halfEven]
  generalize p / d = m at h ⊢
  generalize p % d = r at h hr ⊢
  split
  · omega
  · split
    · rw [Nat.add_mul]; omega
    · rcases Nat.mod_two_eq_zero_or_one m with h0 | h0 <;> rw [h0]
      · simp only [Nat.add_zero]; omega
      · rw [Nat.add_mul]; omega

theorem nearest_halfEven (p q : Nat) : nearest p q = halfEven p (q * 2 ^ binade p q) * 2 ^ binade p q := by
  unfold nearest; rfl

theorem halfEven_unique {p d m : Nat} (h1 : 2 * p < 2 * (m * d) + d) (h2 : 2 * (m * d) < 2 * p + d) : halfEven p d = m := by
  have hd : 0 < d := by omega
  obtain ⟨h3, h4⟩ := halfEven_near p d hd
  generalize halfEven p d = k at h3 h4
  apply Nat.le_antisymm
  · apply Nat.le_of_lt_succ
    apply Nat.lt_of_mul_lt_mul_right (a := d)
    rw [Nat.succ_mul]; omega
  · apply Nat.le_of_lt_succ
    apply Nat.lt_of_mul_lt_mul_right (a := d)
    rw [Nat.succ_mul]; omega

theorem halfEven_exact (m : Nat) {d : Nat} (hd : 0 < d) : halfEven (m * d) d = m := halfEven_unique (by omega) (by omega)

theorem halfEven_scale (p d : Nat) {c : Nat} (hc : 0 < c) : halfEven (p * c) (d * c) = halfEven p d := by
  simp only [halfEven, Nat.mul_div_mul_right _ _ hc, Nat.mul_mod_mul_right]
  have h1 : (2 * (p % d * c) < d * c) ↔ 2 * (p % d) < d := by
    rw [← Nat.mul_assoc]; exact Nat.mul_lt_mul_right hc
  have h2 : (d * c < 2 * (p % d * c)) ↔ d < 2 * (p % d) := by
    rw [← Nat.mul_assoc]; exact Nat.mul_lt_mul_right hc
  simp only [h1, h2]

theorem binade_scale (p q : Nat) {c : Nat} (hc : 0 < c) : binade (p * c) (q * c) = binade p q := by
  simp only [binade, Nat.mul_div_mul_right _ _ hc]

theorem nearest_scale (p q : Nat) {c : Nat} (hc : 0 < c) : nearest (p * c) (q * c) = nearest p q := by
  rw [nearest_halfEven, nearest_halfEven, binade_scale p q hc, Nat.mul_right_comm, halfEven_scale _ _ hc]

/-- The double is within half a step of the number. -/
theorem nearest_near (p q : Nat) (hq : 0 < q) :
    2 * p ≤ 2 * (nearest p q * q) + q * 2 ^ binade p q ∧ 2 * (nearest p q * q) ≤ 2 * p + q * 2 ^ binade p q := by
  have h := halfEven_near p (q * 2 ^ binade p q) (Nat.mul_pos hq (pow_pos2 _))
  rw [nearest_halfEven]
  rw [show halfEven p (q * 2 ^ binade p q) * 2 ^ binade p q * q = halfEven p (q * 2 ^ binade p q) * (q * 2 ^ binade p q) by
    rw [Nat.mul_assoc, Nat.mul_comm (2 ^ _) q]]
  exact h

/-- A step is at most a 2^52nd of the number, unless this is smaller than the normal doubles. -/
theorem binade_le {p q : Nat} (hq : 0 < q) (h : q * 2 ^ 52 ≤ p) : q * 2 ^ binade p q * 2 ^ 52 ≤ p := by
  have h1 : 2 ^ 52 ≤ p / q := (Nat.le_div_iff_mul_le hq).2 (by rw [Nat.mul_comm]; exact h)
  have h0 : p / q ≠ 0 := by
    have := pow_pos2 52
    omega
  have h2 : 52 ≤ (p / q).log2 := (Nat.le_log2 h0).2 h1
  have h3 : 2 ^ binade p q * 2 ^ 52 = 2 ^ (p / q).log2 := by
    rw [← Nat.pow_add, binade, Nat.sub_add_cancel h2]
  rw [Nat.mul_assoc, h3]
  have h4 := Nat.log2_self_le h0
  exact Nat.le_trans (Nat.mul_le_mul_left q h4) (Nat.mul_div_le p q)

theorem isDouble_iff (n : Nat) : isDouble n = true ↔ n % 2 ^ (n.log2 - 52) = 0 ∧ n < tooLarge := by
  simp [isDouble]

theorem nearest_exact {n q : Nat} (hn : isDouble n = true) (hq : 0 < q) : nearest (n * q) q = n := by
  have hb : binade (n * q) q = n.log2 - 52 := by rw [binade, Nat.mul_div_cancel _ hq]
  have h := ((isDouble_iff n).1 hn).1
  rw [nearest_halfEven, hb]
  obtain ⟨m, hm⟩ := Nat.dvd_of_mod_eq_zero h
  have e : n * q = m * (q * 2 ^ (n.log2 - 52)) := by
    conv => lhs; rw [hm]
    rw [Nat.mul_comm (2 ^ _) m, Nat.mul_assoc, Nat.mul_comm (2 ^ _) q]
  rw [e, halfEven_exact m (Nat.mul_pos hq (pow_pos2 _)), Nat.mul_comm]
  exact hm.symm

/-- What is rounded has 53 significant bits. -/
theorem nearest_bits (p q : Nat) (hq : 0 < q) : nearest p q % 2 ^ ((nearest p q).log2 - 52) = 0 := by
  apply Nat.mod_eq_zero_of_dvd
  by_cases h0 : p / q = 0
  · have hb : binade p q = 0 := by rw [binade, h0]; rfl
    have hn := nearest_near p q hq
    rw [hb] at hn
    have hp : p < q := by
      rcases Nat.lt_or_ge p q with h | h
      · exact h
      · have := Nat.div_pos h hq; omega
    have : nearest p q ≤ 1 := by
      apply Nat.le_of_lt_succ
      apply Nat.lt_of_mul_lt_mul_right (a := q)
      rw [Nat.succ_mul, Nat.one_mul]
      generalize nearest p q * q = x at hn
      simp only [Nat.pow_zero, Nat.mul_one] at hn
      omega
    rcases (by omega : nearest p q = 0 ∨ nearest p q = 1) with h | h <;> rw [h] <;> decide
  · have hle : nearest p q ≤ 2 ^ (53 + binade p q) := by
      -- the quotient is below 2^(53+k)
      have h1 : p / q < 2 ^ (53 + binade p q) := by
        refine Nat.lt_of_lt_of_le (Nat.lt_log2_self (n := p / q)) (Nat.pow_le_pow_right (by decide) ?_)
        rw [binade]; omega
      have h2 : p < q * 2 ^ (53 + binade p q) := by
        rw [Nat.mul_comm]; exact (Nat.div_lt_iff_lt_mul hq).1 h1
      have h3 := halfEven_near p (q * 2 ^ binade p q) (Nat.mul_pos hq (pow_pos2 _))
      rw [nearest_halfEven, Nat.pow_add]
      apply Nat.mul_le_mul_right
      apply Nat.le_of_lt_succ
      apply Nat.lt_of_mul_lt_mul_right (a := q * 2 ^ binade p q)
      have e : q * 2 ^ (53 + binade p q) = 2 ^ 53 * (q * 2 ^ binade p q) := by
        rw [Nat.pow_add, Nat.mul_left_comm]
      rw [e] at h2
      have hpos := Nat.mul_pos hq (pow_pos2 (binade p q))
      rw [Nat.succ_mul]
      generalize q * 2 ^ binade p q = d at *
      omega
    have hd : 2 ^ binade p q ∣ nearest p q := ⟨_, by rw [nearest_halfEven, Nat.mul_comm]⟩
    by_cases hz : nearest p q = 0
    · rw [hz]; exact Nat.dvd_zero _
    rcases Nat.lt_or_eq_of_le hle with h | h
    · refine Nat.dvd_trans (Nat.pow_dvd_pow 2 ?_) hd
      have := (Nat.log2_lt hz).2 h
      omega
    · rw [h, Nat.log2_two_pow]
      exact Nat.pow_dvd_pow 2 (by omega)

theorem isDouble_nearest {p q : Nat} (hq : 0 < q) (h : nearest p q < tooLarge) : isDouble (nearest p q) = true :=
  (isDouble_iff _).2 ⟨nearest_bits p q hq, h⟩

theorem Dbl.mk_of {neg : Bool} {n : Nat} (h : isDouble n = true) : Dbl.mk neg n = .fin neg n h := dif_pos h

end Jq
