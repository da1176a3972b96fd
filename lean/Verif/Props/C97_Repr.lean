import Verif.Props.C97_Arithmetic
/-! # C97: how `repr` writes a float -/
namespace Jq

set_option exponentiation.threshold 2100

/-- Digits with a point: no needless zeros before or behind them. -/
def PointForm (s : Str) : Prop :=
  ∃ whole frac, s = whole ++ '.' :: frac ∧ DigitsOnly whole ∧ DigitsOnly frac ∧ whole ≠ [] ∧ frac ≠ [] ∧
    (whole = ['0'] ∨ whole.head? ≠ some '0') ∧ (frac = ['0'] ∨ frac.getLast? ≠ some '0')

/-- One digit, perhaps a point and more digits, `e`, the sign, and at least two digits. -/
def ExpForm (sign : Char) (s : Str) : Prop :=
  ∃ d frac es, s = d :: (frac ++ 'e' :: sign :: es) ∧ '1' ≤ d ∧ d ≤ '9' ∧
    (frac = [] ∨ ∃ f, frac = '.' :: f ∧ f ≠ [] ∧ DigitsOnly f ∧ f.getLast? ≠ some '0') ∧
    DigitsOnly es ∧ (es.length = 2 ∨ (2 < es.length ∧ es.head? ≠ some '0'))

private theorem last_dropZeros (s : Str) : (dropZeros s).getLast? ≠ some '0' := by
  unfold dropZeros
  rw [List.getLast?_reverse]
  intro h
  have : ∀ r : Str, (r.dropWhile (· = '0')).head? ≠ some '0' := by
    intro r
    induction r with
    | nil => simp
    | cons c r ih =>
      by_cases hc : c = '0'
      · simp only [hc, decide_true, List.dropWhile_cons_of_pos]; exact ih
      · simp [hc]
  exact this _ h

private theorem last_drop {s : Str} {k : Nat} (h : k < s.length) : (s.drop k).getLast? = s.getLast? := by
  conv => rhs; rw [← List.take_append_drop k s]
  rw [List.getLast?_append]
  cases hd : (s.drop k).getLast? with
  | none =>
    have := List.getLast?_eq_none_iff.1 hd
    rw [List.drop_eq_nil_iff] at this
    omega
  | some x => rfl

private theorem last_app {a b : Str} (hb : b ≠ []) : (a ++ b).getLast? = b.getLast? := by
  rw [List.getLast?_append]
  cases h : b.getLast? with
  | none => exact absurd (List.getLast?_eq_none_iff.1 h) hb
  | some x => rfl

private theorem digits_take {s : Str} (k : Nat) (h : DigitsOnly s) : DigitsOnly (s.take k) := fun c hc => h c (List.mem_of_mem_take hc)
private theorem digits_drop {s : Str} (k : Nat) (h : DigitsOnly s) : DigitsOnly (s.drop k) := fun c hc => h c (List.mem_of_mem_drop hc)

private theorem plain_form {ds : Str} {pt : Int} (hd : DigitsOnly ds) (h0 : ds ≠ []) (hz : ds.head? ≠ some '0') (hl : ds.getLast? ≠ some '0')
    (h1 : -4 < pt) (h2 : pt ≤ 16) : PointForm (reprDigits ds pt) := by
  unfold reprDigits
  rw [if_pos ⟨h1, h2⟩]
  split
  · refine ⟨['0'], List.replicate (-pt).toNat '0' ++ ds, by simp, digitsOnly_zero, digitsOnly_append (digitsOnly_zeros _) hd, by simp, by simp [h0],
      .inl rfl, .inr ?_⟩
    rw [last_app h0]; exact hl
  · split
    · refine ⟨ds ++ List.replicate (pt.toNat - ds.length) '0', ['0'], by simp, digitsOnly_append hd (digitsOnly_zeros _), digitsOnly_zero,
        by simp [h0], by simp, .inr ?_, .inl rfl⟩
      cases ds with
      | nil => exact absurd rfl h0
      | cons a l => exact hz
    · rename_i hp hlen
      refine ⟨ds.take pt.toNat, ds.drop pt.toNat, rfl, digits_take _ hd, digits_drop _ hd, ?_, ?_, .inr ?_, .inr ?_⟩
      · cases ds with
        | nil => exact absurd rfl h0
        | cons a l =>
          obtain ⟨k, hk⟩ : ∃ k, pt.toNat = k + 1 := ⟨pt.toNat - 1, by omega⟩
          rw [hk]; simp
      · intro e
        rw [List.drop_eq_nil_iff] at e
        omega
      · cases ds with
        | nil => exact absurd rfl h0
        | cons a l =>
          obtain ⟨k, hk⟩ : ∃ k, pt.toNat = k + 1 := ⟨pt.toNat - 1, by omega⟩
          rw [hk]
          exact hz
      · rw [last_drop (by omega)]; exact hl

private theorem exp_form {ds : Str} {pt : Int} (hd : DigitsOnly ds) (h0 : ds ≠ []) (hz : ds.head? ≠ some '0') (hl : ds.getLast? ≠ some '0')
    (h : ¬ (-4 < pt ∧ pt ≤ 16)) : ExpForm (if pt - 1 < 0 then '-' else '+') (reprDigits ds pt) := by
  unfold reprDigits
  rw [if_neg h]
  simp only []
  cases ds with
  | nil => exact absurd rfl h0
  | cons a l =>
    have ha := hd a (by simp)
    have ha1 : '1' ≤ a := by
      have h3 := isDig_toNat.1 (isDig_iff.2 ha)
      have h4 : a.toNat ≠ 48 := by
        intro e
        apply hz
        have : a = '0' := Char.toNat_inj.1 (by rw [show '0'.toNat = 48 from rfl]; exact e)
        rw [this]; rfl
      show (49 : UInt32) ≤ a.val
      rw [UInt32.le_iff_toNat_le]
      show 49 ≤ a.toNat
      omega
    have hes := natStr_digits (pt - 1).natAbs
    refine ⟨a, if (a :: l).length ≤ 1 then [] else '.' :: (a :: l).drop 1,
      if (natStr (pt - 1).natAbs).length < 2 then '0' :: natStr (pt - 1).natAbs else natStr (pt - 1).natAbs, by simp, ha1, ha.2, ?_, ?_, ?_⟩
    · split
      · exact .inl rfl
      · rename_i hlen
        refine .inr ⟨l, rfl, ?_, fun c hc => hd c (List.mem_cons_of_mem _ hc), ?_⟩
        · rintro rfl; simp at hlen
        · have : l ≠ [] := by rintro rfl; simp at hlen
          rwa [show a :: l = [a] ++ l from rfl, last_app this] at hl
    · split
      · intro c hc
        rcases List.mem_cons.1 hc with rfl | hc
        · decide
        · exact isDig_iff.1 (hes c hc)
      · exact fun c hc => isDig_iff.1 (hes c hc)
    · have hne : 0 < (natStr (pt - 1).natAbs).length := by
        have := natStr_length (pt - 1).natAbs 0
        by_cases hh : 1 ≤ (pt - 1).natAbs
        · exact this hh
        · exfalso; omega
      split
      · rename_i hlt
        left
        simp only [List.length_cons]
        omega
      · rename_i hge
        by_cases e : (natStr (pt - 1).natAbs).length = 2
        · exact .inl e
        · exact .inr ⟨by omega, fun e0 => by
            have := natStr_head_zero _ e0
            omega⟩

/-- The number of digits before the point of the shortest decimal tells between which powers of ten the double is. -/
private theorem decade {n K : Nat} (ok : isDouble n = true) (h0 : n ≠ 0) :
    K + 1 ≤ (natStr (shortest unit1 tens n topTen).1).length + (shortest unit1 tens n topTen).2 ↔ readTen unit1 tens 1 K ≤ n := by
  have hr := shortest_read ok tens_pos unit1_dvd_tens topTen
  have hmax := @shortest_max n 1 K ok h0
  generalize shortest unit1 tens n topTen = x at *
  obtain ⟨c, j⟩ := x
  simp only at *
  have hc0 : c ≠ 0 := by
    rintro rfl
    rw [readTen_zero] at hr
    exact h0 hr.symm
  have hge := natStr_ge c hc0
  have hval : K + 1 ≤ (natStr c).length + j ↔ 10 ^ K ≤ c * 10 ^ j := by
    have hlen : 0 < (natStr c).length := natStr_length c 0 (by simp; omega)
    constructor
    · intro h
      have h1 : 10 ^ K ≤ 10 ^ ((natStr c).length - 1 + j) := Nat.pow_le_pow_right (by decide) (by omega)
      rw [Nat.pow_add] at h1
      exact Nat.le_trans h1 (Nat.mul_le_mul_right _ hge)
    · intro h
      rcases Nat.lt_or_ge ((natStr c).length + j) (K + 1) with hlt | hge'
      · exfalso
        have hclt : c < 10 ^ (natStr c).length := by
          rcases Nat.lt_or_ge c (10 ^ (natStr c).length) with g | g
          · exact g
          · have := natStr_length c _ g
            omega
        have h1 : c * 10 ^ j < 10 ^ (natStr c).length * 10 ^ j := Nat.mul_lt_mul_of_pos_right hclt (pow_pos10 _)
        rw [← Nat.pow_add] at h1
        have h2 : 10 ^ ((natStr c).length + j) ≤ 10 ^ K := Nat.pow_le_pow_right (by decide) (by omega)
        omega
      · exact hge'
  rw [hval]
  constructor
  · intro h
    rw [← hr]
    unfold readTen
    apply nearest_mono tens_pos
    rw [Nat.one_mul]
    exact Nat.mul_le_mul_right _ h
  · intro h
    rcases Nat.lt_or_ge (c * 10 ^ j) (10 ^ K) with hlt | hge'
    · exfalso
      have h1 : n ≤ readTen unit1 tens 1 K := by
        rw [← hr]
        unfold readTen
        apply nearest_mono tens_pos
        rw [Nat.one_mul]
        exact Nat.mul_le_mul_right _ (Nat.le_of_lt hlt)
      have h2 := hmax (by omega)
      have h3 : 10 ^ K ≤ 10 ^ j := Nat.pow_le_pow_right (by decide) h2
      have h4 : 10 ^ j ≤ c * 10 ^ j := Nat.le_mul_of_pos_left _ (by omega)
      omega
    · exact hge'

private theorem upper {n : Nat} : readTen unit1 tens 1 1090 ≤ n ↔ 10 ^ 16 * unit1 ≤ n := by
  have : readTen unit1 tens 1 1090 = 10 ^ 16 * unit1 := by
    have e : 1 * 10 ^ 1090 * unit1 = 10 ^ 16 * unit1 * tens := by
      unfold tens
      rw [Nat.one_mul, show 1090 = 16 + 1074 from rfl, Nat.pow_add, Nat.mul_right_comm]
    rw [readTen, e]
    refine nearest_self tens_pos ⟨5 ^ 16, 16 + 1074, by decide, ?_⟩
    unfold unit1
    rw [Nat.pow_add, ← Nat.mul_assoc]
  rw [this]

private theorem lower {n : Nat} (ok : isDouble n = true) : readTen unit1 tens 1 1070 ≤ n ↔ unit1 ≤ n * 10 ^ 4 := by
  have e : readTen unit1 tens 1 1070 = nearest unit1 (10 ^ 4) := by
    have h := nearest_scale unit1 (10 ^ 4) (pow_pos10 1070)
    have h1 : tens = 10 ^ 4 * 10 ^ 1070 := by unfold tens; rw [← Nat.pow_add]
    rw [readTen, h1, Nat.one_mul, Nat.mul_comm (10 ^ 1070) unit1]
    exact h
  rw [e]
  have hN : unit1 ≤ nearest unit1 (10 ^ 4) * 10 ^ 4 := by decide +kernel
  constructor
  · intro h
    exact Nat.le_trans hN (Nat.mul_le_mul_right _ h)
  · intro h
    have := nearest_mono (q := 10 ^ 4) (pow_pos10 4) h
    rwa [nearest_exact ok (pow_pos10 4)] at this

/-- `repr` writes zero and the numbers from 0.0001 up to, not including, 10^16 with digits and a point, the others with a power of ten.  With
`c97_repr_shortest` this says which text it is. -/
theorem c97_repr_form (neg : Bool) (n : Nat) (ok : isDouble n = true) : ∃ t, (Dbl.fin neg n ok).repr = (if neg then c!"-" else []) ++ t ∧
    (n = 0 → t = c!"0.0") ∧
    (unit1 ≤ n * 10 ^ 4 → n < 10 ^ 16 * unit1 → PointForm t) ∧
    (n ≠ 0 → n * 10 ^ 4 < unit1 → ExpForm '-' t) ∧
    (10 ^ 16 * unit1 ≤ n → ExpForm '+' t) := by
  refine ⟨reprUnits n, rfl, ?_, ?_⟩
  · rintro rfl; rfl
  by_cases h0 : n = 0
  · subst h0
    have hu := unit1_pos
    refine ⟨fun h => ?_, fun h => absurd rfl h, fun h => ?_⟩
    · omega
    · have : 10 ^ 16 * unit1 = 0 := by omega
      rcases Nat.mul_eq_zero.1 this with h | h <;> omega
  · have hup := (decade (K := 1090) ok h0).trans upper
    have hlo := (decade (K := 1070) ok h0).trans (lower ok)
    unfold reprUnits
    rw [if_neg h0]
    obtain ⟨z, hz, h1, h2⟩ := shortest_digits ok tens_pos unit1_dvd_tens h0 topTen
    have hr := shortest_read ok tens_pos unit1_dvd_tens topTen
    generalize shortest unit1 tens n topTen = x at *
    obtain ⟨c, j⟩ := x
    simp only at *
    have hhead : (dropZeros (natStr c)).head? ≠ some '0' := by
      intro e
      have hc : c = 0 := by
        refine natStr_head_zero c ?_
        rw [hz]
        cases hd : dropZeros (natStr c) with
        | nil => exact absurd hd h1
        | cons a l => rw [hd] at e; exact e
      rw [hc, readTen_zero] at hr
      exact h0 hr.symm
    have hlast := last_dropZeros (natStr c)
    have hmono : 10 ^ 16 * unit1 ≤ n → unit1 ≤ n * 10 ^ 4 := by
      intro h; omega
    generalize unit1 = u at *
    refine ⟨fun ha hb => plain_form h2 h1 hhead hlast ?_ ?_, fun _ ha => ?_, fun ha => ?_⟩
    · have := hlo.2 ha; omega
    · have : ¬ (1090 + 1 ≤ (natStr c).length + j) := fun h => by have := hup.1 h; omega
      omega
    · have h3 : ¬ (1070 + 1 ≤ (natStr c).length + j) := fun h => by have := hlo.1 h; omega
      have := exp_form (pt := (natStr c).length + j - 1074) h2 h1 hhead hlast (by omega)
      rwa [if_pos (by omega)] at this
    · have h3 := hup.2 ha
      have := exp_form (pt := (natStr c).length + j - 1074) h2 h1 hhead hlast (by omega)
      rwa [if_neg (by omega)] at this

/-- A price of 0.00001 yuan or of 10^16 yuan would be written with an exponent. -/
example : (Dbl.ofDec false 1 (-5)).repr = c!"1e-05" := by decide +kernel
example : (Dbl.ofDec false 1 16).repr = c!"1e+16" := by decide +kernel
/-- Just inside the limits there is none. -/
example : (Dbl.ofDec false 1 (-4)).repr = c!"0.0001" := by decide +kernel
example : (Dbl.ofDec false 1 15).repr = c!"1000000000000000.0" := by decide +kernel

end Jq
