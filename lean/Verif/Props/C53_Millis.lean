import Verif.Lemmas.Float
/-! # C53: conversion of datetimes to milliseconds -/
namespace Jq

/-- Whole seconds survive. -/
theorem c53_whole_seconds_partial (dt : Int) (h : dt % 1000000 = 0) : millisToDt (dtToMillis dt) = dt := by
  simp only [millisToDt, dtToMillis, microsecondOf, intMillis, h, Int.add_zero]
  obtain ⟨k, hk⟩ : ∃ k, dt = 1000 * k := ⟨dt / 1000, by omega⟩
  rw [hk, Int.mul_tdiv_cancel_left _ (by decide)]
  omega

/-- Whole seconds keep their order. -/
theorem c53_whole_seconds_order_partial (a b : Int) (ha : a % 1000000 = 0) (hb : b % 1000000 = 0) : dtToMillis a < dtToMillis b ↔ a < b := by
  have h1 := c53_whole_seconds_partial a ha
  have h2 := c53_whole_seconds_partial b hb
  simp only [millisToDt] at h1 h2
  omega

/-- A part of a second is counted twice. -/
theorem c53_counted_twice_refuted (dt : Int) (h : 0 ≤ dt) :
    millisToDt (dtToMillis dt) ≤ dt + dt % 1000000 ∧ dt + dt % 1000000 < millisToDt (dtToMillis dt) + 1000 := by
  simp only [millisToDt, dtToMillis, microsecondOf, intMillis]
  rw [Int.tdiv_eq_ediv_of_nonneg (by omega)]
  omega

/-- Half a second too late. -/
theorem c53_half_second_witness : millisToDt (dtToMillis 1700000000500000) = 1700000001000000 := by decide

/-- A later time gets an earlier number. -/
theorem c53_order_refuted : ∃ a b : Int, 0 ≤ a ∧ a < b ∧ dtToMillis b < dtToMillis a :=
  ⟨1700000000500000 + 250000, 1700000001000000, by decide, by decide, by decide⟩

example : (1700000000000000 : Int) % 1000000 = 0 := by decide

/-- Within one second the order is kept. -/
theorem c53_same_second_order_partial (a b : Int) (h0 : 0 ≤ a) (h : a ≤ b) (hs : a / 1000000 = b / 1000000) : dtToMillis a ≤ dtToMillis b := by
  simp only [dtToMillis, microsecondOf, intMillis]
  rw [Int.tdiv_eq_ediv_of_nonneg (by omega), Int.tdiv_eq_ediv_of_nonneg (by omega)]
  omega

/-! ## With the float operations of the program -/

/-- The rounding of Python's floats is one of those the following theorems are about. -/
theorem c53_double_rounds : Rounds double := double_rounds

/-- It is that of IEEE 754: `double x` is the multiple of the unit in the last place of 53 binary digits that is nearest to `x`; of two
equally near ones, the even one. -/
theorem c53_double_nearest (x : Rat) (hx : 0 < x) : ∃ (u : Rat) (n : Int), (∃ k : Nat, u = 2 ^ k ∨ u = 1 / 2 ^ k) ∧
    2 ^ 52 * u ≤ x ∧ x ≤ 2 ^ 53 * u ∧ double x = n * u ∧ x - u / 2 ≤ n * u ∧ n * u ≤ x + u / 2 ∧
    (n * u = x - u / 2 ∨ n * u = x + u / 2 → n % 2 = 0) := by
  refine ⟨ulp x, roundEven (x / ulp x), ?_, ?_, ?_, rfl, (double_near x).1, (double_near x).2, ?_⟩
  · by_cases h : x < 2 ^ 53
    · obtain ⟨k, hk⟩ := ulp_inv h
      exact ⟨k, .inr hk⟩
    · have p53 : (2 : Rat) ^ 53 = ((9007199254740992 : Int) : Rat) := by decide
      have h1 : 1 ≤ x := by rw [p53] at h; grind
      have hf : 9007199254740992 ≤ x.floor := Rat.le_floor_iff.2 (by rw [p53] at h; grind)
      have hl : 53 ≤ Nat.log2 x.floor.toNat := (Nat.le_log2 (by omega)).2 (by omega)
      refine ⟨Nat.log2 x.floor.toNat - 52, .inl ?_⟩
      rw [ulp_of_one_le h1]
      generalize Nat.log2 x.floor.toNat = l at hl
      have e : ((2 ^ (l - 52) * 2 ^ 52 : Nat) : Rat) = ((2 ^ l : Nat) : Rat) := by
        rw [← Nat.pow_add]; congr 2; omega
      simp only [Rat.natCast_mul, Rat.natCast_pow, Rat.natCast_ofNat] at e
      have b := two_pow_pos 52
      rw [← e]
      grind
  · exact (ulp_range hx).1
  · exact (ulp_range hx).2
  · intro h
    have hu := ulp_pos x
    have e : x / ulp x * ulp x = x := Rat.div_mul_cancel (by grind)
    refine roundEven_tie ?_
    rcases h with h | h
    · left
      refine Rat.le_antisymm ?_ ?_ <;> refine Rat.le_of_mul_le_mul_right ?_ hu <;> grind
    · right
      refine Rat.le_antisymm ?_ ?_ <;> refine Rat.le_of_mul_le_mul_right ?_ hu <;> grind

example : double (1 / 10) = 3602879701896397 / 36028797018963968 := by decide +kernel
example : double (9007199254740993) = 9007199254740992 ∧ double (9007199254740995) = 9007199254740996 := by decide +kernel

private theorem floatMillis_cases {rnd : Rat → Rat} (R : Rounds rnd) (s u : Int) (hs : 0 ≤ s) (hs' : s < 4294967296) (hu : 0 ≤ u)
    (hu' : u < 1000000) :
    floatMillis rnd (s * 1000000 + u) = s * 1000 + u / 500 ∨ (u % 500 = 0 ∧ floatMillis rnd (s * 1000000 + u) = s * 1000 + u / 500 - 1) := by
  have h := R.millis_near s u hs hs' hu hu'
  have e1 : (s * 1000000 + u) / 1000000 = s := by omega
  have e2 : (s * 1000000 + u) % 1000000 = u := by omega
  simp only [floatMillis, timestampOf, microsecondOf, e1, e2]
  simp only at h
  generalize rnd (rnd (rnd (s + rnd ((u : Rat) / 1000000)) * 1000) + rnd ((u : Rat) / 1000)) = x at h ⊢
  have eu : (u : Rat) = ((u / 500 : Int) : Rat) * 500 + ((u % 500 : Int) : Rat) := by
    have : ((u / 500 * 500 + u % 500 : Int) : Rat) = (u : Rat) := congrArg _ (by omega)
    rw [← this]
    simp only [Rat.intCast_add, Rat.intCast_mul, Rat.intCast_ofNat]
  have r1 : ((u % 500 : Int) : Rat) ≤ ((499 : Int) : Rat) := Rat.intCast_le_intCast.2 (by omega)
  simp only [Rat.intCast_ofNat] at r1
  by_cases hr : u % 500 = 0
  · rw [hr] at eu
    simp only [Rat.intCast_zero] at eu
    by_cases hx : ((s * 1000 + u / 500 : Int) : Rat) ≤ x
    · refine .inl (floor_eq hx ?_)
      simp only [Rat.intCast_add, Rat.intCast_mul, Rat.intCast_ofNat] at hx ⊢
      grind
    · refine .inr ⟨hr, floor_eq ?_ ?_⟩ <;>
        simp only [Rat.intCast_add, Rat.intCast_mul, Rat.intCast_ofNat, Rat.intCast_sub] at hx ⊢ <;> grind
  · have r0 : ((1 : Int) : Rat) ≤ ((u % 500 : Int) : Rat) := Rat.intCast_le_intCast.2 (by omega)
    simp only [Rat.intCast_one] at r0
    refine .inl (floor_eq ?_ ?_) <;> simp only [Rat.intCast_add, Rat.intCast_mul, Rat.intCast_ofNat] <;> grind

private theorem dtToMillis_eq (s u : Int) (hs : 0 ≤ s) (hu : 0 ≤ u) (hu' : u < 1000000) : dtToMillis (s * 1000000 + u) = s * 1000 + u / 500 := by
  simp only [dtToMillis, microsecondOf, intMillis]
  rw [Int.tdiv_eq_ediv_of_nonneg (by omega)]
  omega

/-- Up to the year 2106 the floats give the same number as exact arithmetic, or one less; one less only if the microseconds are a
multiple of 500. -/
theorem c53_float_close (rnd : Rat → Rat) (R : Rounds rnd) (dt : Int) (h0 : 0 ≤ dt) (h1 : dt < 4294967296000000) :
    floatMillis rnd dt = dtToMillis dt ∨ (dt % 500 = 0 ∧ floatMillis rnd dt = dtToMillis dt - 1) := by
  have e : dt = dt / 1000000 * 1000000 + dt % 1000000 := by omega
  have a := floatMillis_cases R (dt / 1000000) (dt % 1000000) (by omega) (by omega) (by omega) (by omega)
  have b := dtToMillis_eq (dt / 1000000) (dt % 1000000) (by omega) (by omega) (by omega)
  rw [← e] at a b
  rw [b]
  rcases a with a | ⟨a, a'⟩
  · exact .inl a
  · exact .inr ⟨by omega, a'⟩

/-- The way back is exact. -/
theorem c53_float_back (rnd : Rat → Rat) (R : Rounds rnd) (ms : Int) (h0 : 0 ≤ ms) (h1 : ms < 4294967296000) :
    floatDt rnd ms = millisToDt ms := R.back ms h0 h1

/-- Whole seconds survive with floats too, in every year that a datetime can have. -/
theorem c53_float_whole_seconds_partial (rnd : Rat → Rat) (R : Rounds rnd) (dt : Int) (h0 : 0 ≤ dt) (h1 : dt < 9007199254740992000)
    (h : dt % 1000000 = 0) : floatMillis rnd dt = dtToMillis dt ∧ floatDt rnd (floatMillis rnd dt) = dt := by
  obtain ⟨n, rfl⟩ : ∃ n : Nat, dt = n * 1000000 := ⟨(dt / 1000000).toNat, by omega⟩
  have e1 : (n * 1000000 : Int) / 1000000 = n := by omega
  have e2 : (n * 1000000 : Int) % 1000000 = 0 := by omega
  have z1 : ((0 : Int) : Rat) / 1000000 = 0 := by decide +kernel
  have z2 : ((0 : Int) : Rat) / 1000 = 0 := by decide +kernel
  have w1 : rnd (n : Rat) = n := R.whole n (by omega)
  have w2 : rnd ((n : Rat) * 1000) = (n : Rat) * 1000 := by
    have := R.whole (n * 1000) (by omega)
    simpa only [Rat.natCast_mul, Rat.natCast_ofNat] using this
  have hf : floatMillis rnd (n * 1000000) = n * 1000 := by
    simp only [floatMillis, timestampOf, microsecondOf, e1, e2, z1, z2, R.zero, Rat.add_zero, Rat.intCast_natCast, w1, w2]
    have : ((n * 1000 : Int) : Rat) = (n : Rat) * 1000 := by
      rw [Rat.intCast_mul, Rat.intCast_natCast, Rat.intCast_ofNat]
    rw [← this, Rat.floor_intCast]
  have hd := dtToMillis_eq n 0 (by omega) (by omega) (by omega)
  rw [Int.add_zero] at hd
  refine ⟨by rw [hf, hd]; omega, ?_⟩
  rw [hf]
  have e3 : ((n * 1000 : Int) : Rat) / 1000 = n := by
    rw [Rat.intCast_mul, Rat.intCast_natCast, Rat.intCast_ofNat]; grind
  have e4 : (n : Rat).floor = n := by rw [← Rat.intCast_natCast, Rat.floor_intCast]
  have e5 : ((n : Rat) - ((n : Int) : Rat)) * 1000000 = 0 := by rw [Rat.intCast_natCast]; grind
  have e6 : roundEven 0 = 0 := roundEven_int 0
  simp only [floatDt, fromTimestamp, e3, w1, e4, e5, R.zero, e6, Int.add_zero]

/-- A datetime keeps its millisecond if it is less than half a millisecond after a whole second; from the second millisecond on it
does not: the number is too large. -/
theorem c53_float_millisecond_partial (rnd : Rat → Rat) (R : Rounds rnd) (dt : Int) (h0 : 0 ≤ dt) (h1 : dt < 4294967296000000) :
    (dt % 1000000 < 500 → floatMillis rnd dt = millisecondOf dt) ∧ (1000 < dt % 1000000 → millisecondOf dt < floatMillis rnd dt) := by
  have e : dt = dt / 1000000 * 1000000 + dt % 1000000 := by omega
  have b := dtToMillis_eq (dt / 1000000) (dt % 1000000) (by omega) (by omega) (by omega)
  rw [← e] at b
  have c := c53_float_close rnd R dt h0 h1
  simp only [millisecondOf]
  refine ⟨fun h => ?_, fun h => ?_⟩
  · by_cases hz : dt % 1000000 = 0
    · have := (c53_float_whole_seconds_partial rnd R dt h0 (by omega) hz).1
      omega
    · omega
  · omega

/-- With floats too a part of a second is counted twice, up to two milliseconds. -/
theorem c53_float_counted_twice_refuted (rnd : Rat → Rat) (R : Rounds rnd) (dt : Int) (h0 : 0 ≤ dt) (h1 : dt < 4294967295000000) :
    floatDt rnd (floatMillis rnd dt) ≤ dt + dt % 1000000 ∧ dt + dt % 1000000 < floatDt rnd (floatMillis rnd dt) + 2000 := by
  have c := c53_float_close rnd R dt h0 (by omega)
  have t := c53_counted_twice_refuted dt h0
  simp only [millisToDt] at t
  have hpos : 0 ≤ floatMillis rnd dt := by
    have m := c53_float_millisecond_partial rnd R dt h0 (by omega)
    simp only [millisecondOf] at m
    by_cases hz : dt % 1000000 < 500
    · have := m.1 hz; omega
    · omega
  rw [R.back _ hpos (by omega)]
  omega

/-- A later time gets an earlier number, whatever the rounding. -/
theorem c53_float_order_refuted (rnd : Rat → Rat) (R : Rounds rnd) : ∃ a b : Int, 0 ≤ a ∧ a < b ∧ floatMillis rnd b < floatMillis rnd a := by
  refine ⟨1700000000750000, 1700000001000000, by decide, by decide, ?_⟩
  have a := c53_float_close rnd R 1700000000750000 (by decide) (by decide)
  have b := c53_float_close rnd R 1700000001000000 (by decide) (by decide)
  have a' : dtToMillis 1700000000750000 = 1700000001500 := by decide
  have b' : dtToMillis 1700000001000000 = 1700000001000 := by decide
  omega

/-- The floats of the program do lose a millisecond at times: 2172701115.123500 s gives ….246, not ….247. -/
theorem c53_float_lost_millisecond_witness : floatMillis double 2172701115123500 = 2172701115246 ∧ dtToMillis 2172701115123500 = 2172701115247 := by
  decide +kernel

/-- Non-vacuity: a usual time, with the program's floats. -/
example : floatMillis double 1731720600123456 = 1731720600246 ∧ floatDt double 1731720600246 = 1731720600246000 := by decide +kernel
example : floatMillis double 1731720600000499 = millisecondOf 1731720600000499 := by decide +kernel

end Jq
