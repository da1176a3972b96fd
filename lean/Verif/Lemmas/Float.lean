import Verif.Model.Millis
import Verif.Spec.Millis
/-! # Rounding -/
namespace Jq

theorem roundEven_near (y : Rat) : y - 1 / 2 ≤ roundEven y ∧ (roundEven y : Rat) ≤ y + 1 / 2 := by
  have h1 := Rat.floor_le y
  have h2 := Rat.lt_floor_add_one y
  simp only [Rat.intCast_add, Rat.intCast_one] at h2
  unfold roundEven
  split
  · grind
  · split
    · simp only [Rat.intCast_add, Rat.intCast_one]; grind
    · split
      · grind
      · simp only [Rat.intCast_add, Rat.intCast_one]; grind

theorem roundEven_int (n : Int) : roundEven n = n := by
  unfold roundEven
  rw [Rat.floor_intCast, if_pos]
  grind

theorem roundEven_eq {y : Rat} {n : Int} (h1 : (n : Rat) - 1 / 2 < y) (h2 : y < n + 1 / 2) : roundEven y = n := by
  have h := roundEven_near y
  have a : (roundEven y : Rat) < ((n + 1 : Int) : Rat) := by
    simp only [Rat.intCast_add, Rat.intCast_one]; grind
  have b : ((n - 1 : Int) : Rat) < (roundEven y : Rat) := by
    simp only [Rat.intCast_sub, Rat.intCast_one]; grind
  have a' := Rat.intCast_lt_intCast.1 a
  have b' := Rat.intCast_lt_intCast.1 b
  omega

theorem floor_eq {x : Rat} {n : Int} (h : (n : Rat) ≤ x) (h' : x < n + 1) : x.floor = n := by
  apply Int.le_antisymm
  · exact Int.lt_add_one_iff.1 (Rat.floor_lt_iff.2 (by simpa using h'))
  · exact Rat.le_floor_iff.2 h

theorem two_pow_pos (k : Nat) : (0 : Rat) < 2 ^ k := Rat.pow_pos (by decide)

theorem ulp_pos (x : Rat) : 0 < ulp x := by
  unfold ulp
  split
  · rw [Rat.lt_div_iff (two_pow_pos _), Rat.zero_mul]; exact two_pow_pos _
  · rw [Rat.lt_div_iff (two_pow_pos _), Rat.zero_mul]; decide

theorem double_near (x : Rat) : x - ulp x / 2 ≤ double x ∧ double x ≤ x + ulp x / 2 := by
  have hu := ulp_pos x
  have h := roundEven_near (x / ulp x)
  have e : x / ulp x * ulp x = x := Rat.div_mul_cancel (by grind)
  unfold double
  constructor
  · have := Rat.mul_le_mul_of_nonneg_right h.1 (Rat.le_of_lt hu)
    grind
  · have := Rat.mul_le_mul_of_nonneg_right h.2 (Rat.le_of_lt hu)
    grind

theorem double_exact {x : Rat} (n : Int) (h : x = n * ulp x) : double x = x := by
  have hu := ulp_pos x
  have e : x / ulp x = n := by
    have h' : x / ulp x = n * ulp x / ulp x := congrArg (· / ulp x) h
    rw [h', Rat.mul_div_cancel (by grind)]
  unfold double
  rw [e, roundEven_int, ← h]

theorem one_le_two_pow (k : Nat) : (1 : Rat) ≤ 2 ^ k := by
  have : ((1 : Nat) : Rat) ≤ ((2 ^ k : Nat) : Rat) := Rat.natCast_le_natCast.2 Nat.one_le_two_pow
  simpa using this

theorem ulp_le {k : Nat} {x : Rat} (h : x < 2 ^ k) : ulp x ≤ 2 ^ k / 2 ^ 53 := by
  have p53 : (2 : Rat) ^ 53 = 9007199254740992 := by decide
  have p52 : (2 : Rat) ^ 52 = 4503599627370496 := by decide
  have hk := one_le_two_pow k
  unfold ulp
  split
  · rename_i h1
    have hf1 : 1 ≤ x.floor := Rat.le_floor_iff.2 (by simpa using h1)
    have hfN : ((x.floor.toNat : Nat) : Int) = x.floor := Int.toNat_of_nonneg (by omega)
    have hf : (x.floor.toNat : Rat) ≤ x := by
      rw [← Rat.intCast_natCast, hfN]; exact Rat.floor_le x
    have h2 : 2 ^ Nat.log2 x.floor.toNat ≤ x.floor.toNat := Nat.log2_self_le (by omega)
    have h3 : x.floor.toNat < 2 ^ k := Rat.natCast_lt_natCast.1 (by
      have : ((2 ^ k : Nat) : Rat) = 2 ^ k := by simp
      rw [this]; grind)
    have h4 : Nat.log2 x.floor.toNat < k := (Nat.pow_lt_pow_iff_right (by decide)).1 (Nat.lt_of_le_of_lt h2 h3)
    have h5 : 2 ^ Nat.log2 x.floor.toNat * 2 ≤ 2 ^ k := by
      rw [← Nat.pow_succ]; exact Nat.pow_le_pow_right (by decide) h4
    have h6 : ((2 ^ Nat.log2 x.floor.toNat * 2 : Nat) : Rat) ≤ ((2 ^ k : Nat) : Rat) := Rat.natCast_le_natCast.2 h5
    simp only [Rat.natCast_mul, Rat.natCast_pow, Rat.natCast_ofNat] at h6
    rw [p53, p52]
    grind
  · generalize (1 / x).floor.toNat.log2 = j
    have hj := one_le_two_pow j
    have hc := two_pow_pos (j + 53)
    refine Rat.le_of_mul_le_mul_right ?_ hc
    rw [Rat.div_mul_cancel (by grind)]
    have e : (2 : Rat) ^ (j + 53) = 2 ^ j * 9007199254740992 := by
      have : ((2 ^ (j + 53) : Nat) : Rat) = ((2 ^ j * 9007199254740992 : Nat) : Rat) := by rw [Nat.pow_add]
      simpa using this
    have hm := Rat.mul_le_mul_of_nonneg_left hj (c := 2 ^ k) (by grind)
    rw [e, p53]
    grind

theorem ulp_of_one_le {x : Rat} (h : 1 ≤ x) : ulp x = 2 ^ Nat.log2 x.floor.toNat / 2 ^ 52 := by rw [ulp, if_pos h]

/-- A number from one on that is a fraction of a power of two with at most 53 binary digits is a float. -/
theorem double_dyadic {x : Rat} (n m : Nat) (h1 : 1 ≤ x) (hm : Nat.log2 x.floor.toNat + m ≤ 52) (hx : x * 2 ^ m = n) : double x = x := by
  refine double_exact ((n * 2 ^ (52 - Nat.log2 x.floor.toNat - m) : Nat) : Int) ?_
  rw [ulp_of_one_le h1, Rat.intCast_natCast]
  generalize Nat.log2 x.floor.toNat = l at hm ⊢
  have hp := two_pow_pos m
  have p52 : (2 : Rat) ^ 52 = 4503599627370496 := by decide
  have e : ((2 ^ (52 - l - m) * 2 ^ l * 2 ^ m : Nat) : Rat) = ((2 ^ 52 : Nat) : Rat) := by
    rw [← Nat.pow_add, ← Nat.pow_add]; congr 2; omega
  simp only [Rat.natCast_mul, Rat.natCast_pow, Rat.natCast_ofNat] at e ⊢
  rw [← hx]
  rw [p52] at e ⊢
  grind

theorem roundEven_ge {y : Rat} {m : Int} (h : (m : Rat) ≤ y) : m ≤ roundEven y := by
  have hf : m ≤ y.floor := Rat.le_floor_iff.2 h
  unfold roundEven
  repeat' split
  all_goals omega

theorem roundEven_le {y : Rat} {m : Int} (h : y ≤ (m : Rat)) : roundEven y ≤ m := by
  have hf := Rat.floor_le y
  have hm : y.floor ≤ m := Rat.intCast_le_intCast.1 (by grind)
  by_cases he : y.floor = m
  · have : y = (m : Rat) := by rw [← he] at h ⊢; grind
    rw [this, roundEven_int]; omega
  · unfold roundEven
    repeat' split
    all_goals omega

/-- Below 2^53 the distance of the floats is one over a power of two. -/
theorem ulp_inv {x : Rat} (h : x < 2 ^ 53) : ∃ k : Nat, ulp x = 1 / 2 ^ k := by
  by_cases h1 : 1 ≤ x
  · refine ⟨52 - Nat.log2 x.floor.toNat, ?_⟩
    have hf1 : 1 ≤ x.floor := Rat.le_floor_iff.2 (by simpa using h1)
    have hfN : ((x.floor.toNat : Nat) : Int) = x.floor := Int.toNat_of_nonneg (by omega)
    have hlt : x.floor.toNat < 2 ^ 53 := by
      have a : (x.floor : Rat) ≤ x := Rat.floor_le x
      have p53 : (2 : Rat) ^ 53 = ((9007199254740992 : Int) : Rat) := by decide
      have : x.floor < 9007199254740992 := Rat.intCast_lt_intCast.1 (by rw [p53] at h; grind)
      omega
    have hl : Nat.log2 x.floor.toNat ≤ 52 := by
      have := (Nat.log2_lt (by omega : x.floor.toNat ≠ 0)).2 hlt
      omega
    rw [ulp_of_one_le h1]
    generalize Nat.log2 x.floor.toNat = l at hl
    have e : ((2 ^ l * 2 ^ (52 - l) : Nat) : Rat) = ((2 ^ 52 : Nat) : Rat) := by
      rw [← Nat.pow_add]; congr 2; omega
    simp only [Rat.natCast_mul, Rat.natCast_pow, Rat.natCast_ofNat] at e
    have a := two_pow_pos l
    have b := two_pow_pos (52 - l)
    rw [← e]
    grind
  · exact ⟨_, by rw [ulp, if_neg h1]⟩

theorem roundEven_tie {y : Rat} (h : (roundEven y : Rat) = y - 1 / 2 ∨ (roundEven y : Rat) = y + 1 / 2) : roundEven y % 2 = 0 := by
  have h2 := Rat.lt_floor_add_one y
  have h1 := Rat.floor_le y
  simp only [Rat.intCast_add, Rat.intCast_one] at h2
  unfold roundEven at *
  split at h
  · exfalso; grind
  · split at h
    · exfalso; simp only [Rat.intCast_add, Rat.intCast_one] at h; grind
    · split at h
      · rename_i c; rw [if_neg (by assumption), if_neg (by assumption), if_pos c]; exact c
      · rename_i c; rw [if_neg (by assumption), if_neg (by assumption), if_neg c]; omega

theorem ulp_range {x : Rat} (hx : 0 < x) : 2 ^ 52 * ulp x ≤ x ∧ x ≤ 2 ^ 53 * ulp x := by
  have p53 : (2 : Rat) ^ 53 = 9007199254740992 := by decide
  have p52 : (2 : Rat) ^ 52 = 4503599627370496 := by decide
  by_cases h1 : 1 ≤ x
  · have hf1 : 1 ≤ x.floor := Rat.le_floor_iff.2 (by simpa using h1)
    have hfN : ((x.floor.toNat : Nat) : Int) = x.floor := Int.toNat_of_nonneg (by omega)
    have hf : (x.floor.toNat : Rat) ≤ x := by
      rw [← Rat.intCast_natCast, hfN]; exact Rat.floor_le x
    have hg : x < ((x.floor.toNat + 1 : Nat) : Rat) := by
      have := Rat.lt_floor_add_one x
      rw [← Rat.intCast_natCast]
      have e : (((x.floor.toNat + 1 : Nat) : Int)) = x.floor + 1 := by omega
      rw [e]; exact this
    have h2 : 2 ^ Nat.log2 x.floor.toNat ≤ x.floor.toNat := Nat.log2_self_le (by omega)
    have h3 : x.floor.toNat + 1 ≤ 2 * 2 ^ Nat.log2 x.floor.toNat := by
      have := Nat.lt_log2_self (n := x.floor.toNat)
      rw [Nat.pow_succ] at this; omega
    have h4 : ((2 ^ Nat.log2 x.floor.toNat : Nat) : Rat) ≤ (x.floor.toNat : Rat) := Rat.natCast_le_natCast.2 h2
    have h5 : ((x.floor.toNat + 1 : Nat) : Rat) ≤ ((2 * 2 ^ Nat.log2 x.floor.toNat : Nat) : Rat) := Rat.natCast_le_natCast.2 h3
    simp only [Rat.natCast_mul, Rat.natCast_pow, Rat.natCast_ofNat] at h4 h5
    rw [ulp_of_one_le h1, p53, p52]
    constructor <;> grind
  · rw [ulp, if_neg h1]
    have hy : 1 ≤ 1 / x := by
      refine Rat.le_of_mul_le_mul_right ?_ hx
      rw [Rat.div_mul_cancel (by grind)]; grind
    generalize hyy : 1 / x = y at hy
    have hxy : x * y = 1 := by rw [← hyy]; grind
    have hf1 : 1 ≤ y.floor := Rat.le_floor_iff.2 (by simpa using hy)
    have hfN : ((y.floor.toNat : Nat) : Int) = y.floor := Int.toNat_of_nonneg (by omega)
    have hf : (y.floor.toNat : Rat) ≤ y := by
      rw [← Rat.intCast_natCast, hfN]; exact Rat.floor_le y
    have hg : y < ((y.floor.toNat + 1 : Nat) : Rat) := by
      have := Rat.lt_floor_add_one y
      rw [← Rat.intCast_natCast]
      have e : (((y.floor.toNat + 1 : Nat) : Int)) = y.floor + 1 := by omega
      rw [e]; exact this
    have h2 : 2 ^ Nat.log2 y.floor.toNat ≤ y.floor.toNat := Nat.log2_self_le (by omega)
    have h3 : y.floor.toNat + 1 ≤ 2 * 2 ^ Nat.log2 y.floor.toNat := by
      have := Nat.lt_log2_self (n := y.floor.toNat)
      rw [Nat.pow_succ] at this; omega
    have h4 : ((2 ^ Nat.log2 y.floor.toNat : Nat) : Rat) ≤ (y.floor.toNat : Rat) := Rat.natCast_le_natCast.2 h2
    have h5 : ((y.floor.toNat + 1 : Nat) : Rat) ≤ ((2 * 2 ^ Nat.log2 y.floor.toNat : Nat) : Rat) := Rat.natCast_le_natCast.2 h3
    simp only [Rat.natCast_mul, Rat.natCast_pow, Rat.natCast_ofNat] at h4 h5
    generalize y.floor.toNat.log2 = j at *
    have hj := two_pow_pos j
    have e : (2 : Rat) ^ (j + 53) = 2 ^ j * 9007199254740992 := by
      have : ((2 ^ (j + 53) : Nat) : Rat) = ((2 ^ j * 9007199254740992 : Nat) : Rat) := by rw [Nat.pow_add]
      simpa using this
    have hc := two_pow_pos (j + 53)
    have k1 : x * 2 ^ j ≤ 1 := by rw [← hxy]; exact Rat.mul_le_mul_of_nonneg_left (by grind) (Rat.le_of_lt hx)
    have k2 : 1 ≤ x * (2 * 2 ^ j) := by rw [← hxy]; exact Rat.mul_le_mul_of_nonneg_left (by grind) (Rat.le_of_lt hx)
    rw [p53, p52]
    constructor <;> refine Rat.le_of_mul_le_mul_right ?_ hc <;> rw [Rat.mul_assoc, Rat.div_mul_cancel (by grind)] <;> rw [e] <;> grind

theorem double_order (n : Nat) (x : Rat) (h : x < 2 ^ 53) : ((n : Rat) ≤ x → (n : Rat) ≤ double x) ∧ (x ≤ n → double x ≤ n) := by
  obtain ⟨k, hk⟩ := ulp_inv h
  have hp := two_pow_pos k
  have hu := ulp_pos x
  have e : x / ulp x = x * 2 ^ k := by rw [hk]; grind
  have en : ((n * 2 ^ k : Nat) : Rat) = (n : Rat) * 2 ^ k := by
    rw [Rat.natCast_mul, Rat.natCast_pow, Rat.natCast_ofNat]
  have ed : (n : Rat) = ((n * 2 ^ k : Nat) : Int) * ulp x := by
    rw [Rat.intCast_natCast, en, hk]; grind
  unfold double
  constructor
  · intro hx
    have : (((n * 2 ^ k : Nat) : Int) : Rat) ≤ x / ulp x := by
      rw [e, Rat.intCast_natCast, en]; exact Rat.mul_le_mul_of_nonneg_right hx (Rat.le_of_lt hp)
    have := Rat.mul_le_mul_of_nonneg_right (Rat.intCast_le_intCast.2 (roundEven_ge this)) (Rat.le_of_lt hu)
    rwa [← ed] at this
  · intro hx
    have : x / ulp x ≤ (((n * 2 ^ k : Nat) : Int) : Rat) := by
      rw [e, Rat.intCast_natCast, en]; exact Rat.mul_le_mul_of_nonneg_right hx (Rat.le_of_lt hp)
    have := Rat.mul_le_mul_of_nonneg_right (Rat.intCast_le_intCast.2 (roundEven_le this)) (Rat.le_of_lt hu)
    rwa [← ed] at this

theorem double_rounds : Rounds double := by
  have p54 : (2 : Rat) ^ 54 = 18014398509481984 := by decide
  have p53 : (2 : Rat) ^ 53 = 9007199254740992 := by decide
  refine ⟨fun k x h0 h => ?_, fun n hn => ?_, fun n hn => ?_, fun n x _ h => double_order n x h⟩
  · have h1 := double_near x
    have h2 := ulp_le h
    rw [p53] at h2
    rw [p54]
    constructor <;> grind
  · by_cases h : n = 0
    · exact double_exact 0 (by subst h; simp)
    · refine double_dyadic n 0 ?_ ?_ (by simp)
      · have : ((1 : Nat) : Rat) ≤ (n : Rat) := Rat.natCast_le_natCast.2 (by omega)
        simpa using this
      · have e : (n : Rat).floor = n := by rw [← Rat.intCast_natCast, Rat.floor_intCast]
        rw [e, Int.toNat_natCast]
        have := (Nat.log2_lt h).2 hn
        omega
  · by_cases h : n = 0
    · exact double_exact 0 (by subst h; decide +kernel)
    · by_cases h' : n = 1
      · subst h'; decide +kernel
      · refine double_dyadic n 1 ?_ ?_ (by grind)
        · have : ((2 : Nat) : Rat) ≤ (n : Rat) := Rat.natCast_le_natCast.2 (by omega)
          simp only [Rat.natCast_ofNat] at this
          grind
        · have e : ((n : Rat) / 2).floor = ((n / 2 : Nat) : Int) := by
            have a : ((2 * (n / 2) : Nat) : Rat) ≤ n := Rat.natCast_le_natCast.2 (by omega)
            have b : (n : Rat) < ((2 * (n / 2) + 2 : Nat) : Rat) := Rat.natCast_lt_natCast.2 (by omega)
            simp only [Rat.natCast_mul, Rat.natCast_add, Rat.natCast_ofNat] at a b
            refine floor_eq ?_ ?_ <;> rw [Rat.intCast_natCast] <;> grind
          rw [e, Int.toNat_natCast]
          have := (Nat.log2_lt (n := n / 2) (k := 52) (by omega)).2 (by omega)
          omega

namespace Rounds
variable {rnd : Rat → Rat} (R : Rounds rnd)
include R

theorem e0 {x : Rat} (h0 : 0 ≤ x) (h : x < 1) : x - 1 / 18014398509481984 ≤ rnd x ∧ rnd x ≤ x + 1 / 18014398509481984 := by
  have p : (2 : Rat) ^ 0 / 2 ^ 54 = 1 / 18014398509481984 := by decide +kernel
  have := R.err 0 x h0 (by simpa using h)
  rwa [p] at this

theorem e10 {x : Rat} (h0 : 0 ≤ x) (h : x < 1024) : x - 1 / 17592186044416 ≤ rnd x ∧ rnd x ≤ x + 1 / 17592186044416 := by
  have p : (2 : Rat) ^ 10 / 2 ^ 54 = 1 / 17592186044416 := by decide +kernel
  have q : (2 : Rat) ^ 10 = 1024 := by decide +kernel
  have := R.err 10 x h0 (by rw [q]; exact h)
  rwa [p] at this

theorem e20 {x : Rat} (h0 : 0 ≤ x) (h : x < 1048576) : x - 1 / 17179869184 ≤ rnd x ∧ rnd x ≤ x + 1 / 17179869184 := by
  have p : (2 : Rat) ^ 20 / 2 ^ 54 = 1 / 17179869184 := by decide +kernel
  have q : (2 : Rat) ^ 20 = 1048576 := by decide +kernel
  have := R.err 20 x h0 (by rw [q]; exact h)
  rwa [p] at this

theorem e32 {x : Rat} (h0 : 0 ≤ x) (h : x < 4294967296) : x - 1 / 4194304 ≤ rnd x ∧ rnd x ≤ x + 1 / 4194304 := by
  have p : (2 : Rat) ^ 32 / 2 ^ 54 = 1 / 4194304 := by decide +kernel
  have q : (2 : Rat) ^ 32 = 4294967296 := by decide +kernel
  have := R.err 32 x h0 (by rw [q]; exact h)
  rwa [p] at this

theorem e42 {x : Rat} (h0 : 0 ≤ x) (h : x < 4398046511104) : x - 1 / 4096 ≤ rnd x ∧ rnd x ≤ x + 1 / 4096 := by
  have p : (2 : Rat) ^ 42 / 2 ^ 54 = 1 / 4096 := by decide +kernel
  have q : (2 : Rat) ^ 42 = 4398046511104 := by decide +kernel
  have := R.err 42 x h0 (by rw [q]; exact h)
  rwa [p] at this

theorem zero : rnd 0 = 0 := by simpa using R.whole 0 (by decide)

/-- The float before it is cut off is less than a thousandth away from the exact number of milliseconds. -/
theorem millis_near (s u : Int) (hs : 0 ≤ s) (hs' : s < 4294967296) (hu : 0 ≤ u) (hu' : u < 1000000) :
    let x := rnd (rnd (rnd (s + rnd ((u : Rat) / 1000000)) * 1000) + rnd ((u : Rat) / 1000))
    (s : Rat) * 1000 + u / 500 - 1 / 1000 < x ∧ x < (s : Rat) * 1000 + u / 500 + 1 / 1000 := by
  intro x
  have s1 : (s : Rat) ≤ ((4294967295 : Int) : Rat) := Rat.intCast_le_intCast.2 (by omega)
  have s0 : (0 : Rat) ≤ s := Rat.intCast_nonneg.2 hs
  have u1 : (u : Rat) ≤ ((999999 : Int) : Rat) := Rat.intCast_le_intCast.2 (by omega)
  have u0 : (0 : Rat) ≤ u := Rat.intCast_nonneg.2 hu
  simp only [Rat.intCast_ofNat] at s1 u1
  have a := R.e0 (x := (u : Rat) / 1000000) (by grind) (by grind)
  have a0 : 0 ≤ rnd ((u : Rat) / 1000000) := by
    by_cases h : u = 0
    · subst h
      have : ((0 : Int) : Rat) / 1000000 = 0 := by decide +kernel
      rw [this, R.zero]
      decide
    · have : ((1 : Int) : Rat) ≤ (u : Rat) := Rat.intCast_le_intCast.2 (by omega)
      simp only [Rat.intCast_one] at this
      grind
  have b := R.e10 (x := (u : Rat) / 1000) (by grind) (by grind)
  have b0 : 0 ≤ rnd ((u : Rat) / 1000) := by
    by_cases h : u = 0
    · subst h
      have : ((0 : Int) : Rat) / 1000 = 0 := by decide +kernel
      rw [this, R.zero]
      decide
    · have : ((1 : Int) : Rat) ≤ (u : Rat) := Rat.intCast_le_intCast.2 (by omega)
      simp only [Rat.intCast_one] at this
      grind
  by_cases hz : s = 0 ∧ u = 0
  · obtain ⟨rfl, rfl⟩ := hz
    have z1 : ((0 : Int) : Rat) / 1000000 = 0 := by decide +kernel
    have z2 : ((0 : Int) : Rat) / 1000 = 0 := by decide +kernel
    have z3 : ((0 : Int) : Rat) + 0 = 0 := by decide +kernel
    have hx : x = 0 := by
      show rnd (rnd (rnd (((0 : Int) : Rat) + rnd (((0 : Int) : Rat) / 1000000)) * 1000) + rnd (((0 : Int) : Rat) / 1000)) = 0
      rw [z1, z2, R.zero, z3, R.zero, Rat.zero_mul, R.zero, Rat.add_zero, R.zero]
    rw [hx]
    exact ⟨by decide +kernel, by decide +kernel⟩
  · have hsu : 1 / 1000000 ≤ (s : Rat) + u / 1000000 := by
      by_cases h : u = 0
      · have : ((1 : Int) : Rat) ≤ (s : Rat) := Rat.intCast_le_intCast.2 (by omega)
        simp only [Rat.intCast_one] at this
        grind
      · have : ((1 : Int) : Rat) ≤ (u : Rat) := Rat.intCast_le_intCast.2 (by omega)
        simp only [Rat.intCast_one] at this
        grind
    have c := R.e32 (x := s + rnd ((u : Rat) / 1000000)) (by grind) (by grind)
    have d := R.e42 (x := rnd (s + rnd ((u : Rat) / 1000000)) * 1000) (by grind) (by grind)
    have e := R.e42 (x := rnd (rnd (s + rnd ((u : Rat) / 1000000)) * 1000) + rnd ((u : Rat) / 1000)) (by grind) (by grind)
    show _ < rnd _ ∧ rnd _ < _
    constructor <;> grind

/-- The way back rounds to the exact microsecond. -/
theorem back (ms : Int) (h0 : 0 ≤ ms) (h1 : ms < 4294967296000) : floatDt rnd ms = ms * 1000 := by
  have a0 : (0 : Rat) ≤ ms := Rat.intCast_nonneg.2 h0
  have a1 : (ms : Rat) ≤ ((4294967295999 : Int) : Rat) := Rat.intCast_le_intCast.2 (by omega)
  simp only [Rat.intCast_ofNat] at a1
  have b := R.e32 (x := (ms : Rat) / 1000) (by grind) (by grind)
  unfold floatDt fromTimestamp
  generalize ht : rnd ((ms : Rat) / 1000) = t at b ⊢
  have f1 := Rat.floor_le t
  have f2 := Rat.lt_floor_add_one t
  simp only [Rat.intCast_add, Rat.intCast_one] at f2
  have c := R.e20 (x := (t - t.floor) * 1000000) (by grind) (by grind)
  have : roundEven (rnd ((t - t.floor) * 1000000)) = ms * 1000 - t.floor * 1000000 := by
    apply roundEven_eq <;> simp only [Rat.intCast_sub, Rat.intCast_mul, Rat.intCast_ofNat] <;> grind
  omega

end Rounds

end Jq
