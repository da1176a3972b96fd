import Verif.Spec.Timers
import Verif.Props.C09_TimeExpr
import Verif.Lemmas.EventSource
import Verif.Lemmas.NatStr

namespace Jq

theorem two_digitStr {n : Nat} (h : n < 100) : DigitStr (two n) := by
  refine ⟨by simp [two], ?_⟩
  intro c hc
  simp only [two, List.mem_cons, List.not_mem_nil, or_false] at hc
  rcases hc with rfl | rfl
  · exact (digChar_spec _ (by omega)).1
  · exact (digChar_spec _ (by omega)).1

theorem natOfDigits_two {n : Nat} (h : n < 100) : natOfDigits (two n) = n := by
  simp only [two, natOfDigits, List.foldl_cons, List.foldl_nil]
  rw [(digChar_spec (n / 10) (by omega)).2, (digChar_spec (n % 10) (by omega)).2]
  omega

theorem tod_bounds (t : Int) : 0 ≤ t % dayUs ∧ t % dayUs < dayUs :=
  ⟨Int.emod_nonneg _ (by decide), Int.emod_lt_of_pos _ (by decide)⟩

/-- The entry written by the timers means the time of day it was made from, to the second. -/
theorem entryTime_hms (mp : Periods) (t : Int) :
    entryTime mp 0 (hmsStr t) = .ok ((t % dayUs) / secUs * secUs) := by
  obtain ⟨h1, h2⟩ := tod_bounds t
  generalize hv : t % dayUs = v at *
  have hs0 : 0 ≤ v / secUs := Int.ediv_nonneg h1 (by decide)
  have hs1 : v / secUs < 86400 := Int.ediv_lt_of_lt_mul (by decide) (by simpa [dayUs] using h2)
  obtain ⟨s, hs⟩ : ∃ s : Nat, v / secUs = s := ⟨(v / secUs).toNat, by omega⟩
  simp only [hmsStr, hv, hs, Int.toNat_natCast]
  have hs2 : s < 86400 := by omega
  rw [c10_clock_hms mp 0 _ _ _ (two_digitStr (by omega)) (two_digitStr (by omega)) (two_digitStr (by omega)),
    natOfDigits_two (by omega), natOfDigits_two (by omega), natOfDigits_two (by omega), if_pos (by omega)]
  have e : ((s / 3600 * 3600 + s / 60 % 60 * 60 + s % 60 : Nat) : Int) = (s : Int) := by
    have : s / 3600 * 3600 + s / 60 % 60 * 60 + s % 60 = s := by omega
    exact congrArg _ this
  rw [Int.zero_mul, Int.zero_add, ← e]
  rfl

/-- The loop makes the expected entries. -/
theorem timesLoop_eq (endT step : Int) (hstep : 0 < step) (n : Nat) (cur : Int)
    (hn : (n : Int) = if cur ≤ endT then (endT - cur) / step + 1 else 0) (fuel : Nat) (hf : n < fuel) :
    timesLoop endT step fuel cur = some ((List.range n).map fun (k : Nat) => hmsStr (cur + k * step)) := by
  induction n generalizing cur fuel with
  | zero =>
    obtain ⟨f, rfl⟩ : ∃ f, fuel = f + 1 := ⟨fuel - 1, by omega⟩
    have hgt : ¬ cur ≤ endT := by
      intro hle
      rw [if_pos hle] at hn
      have : 0 ≤ (endT - cur) / step := Int.ediv_nonneg (by omega) (by omega)
      omega
    simp [timesLoop, hgt]
  | succ n ih =>
    obtain ⟨f, rfl⟩ : ∃ f, fuel = f + 1 := ⟨fuel - 1, by omega⟩
    have hle : cur ≤ endT := by
      apply Classical.byContradiction
      intro h
      rw [if_neg h] at hn; omega
    rw [if_pos hle] at hn
    simp only [timesLoop, if_pos hle]
    have hn' : (n : Int) = if cur + step ≤ endT then (endT - (cur + step)) / step + 1 else 0 := by
      have e : endT - (cur + step) = (endT - cur) + (-1) * step := by omega
      by_cases h2 : cur + step ≤ endT
      · rw [if_pos h2, e, Int.add_mul_ediv_right _ _ (by omega)]
        omega
      · rw [if_neg h2]
        have : (endT - cur) / step = 0 := Int.ediv_eq_zero_of_lt (by omega) (by omega)
        omega
    rw [ih (cur + step) hn' f (by omega)]
    simp only [Option.map_some, List.range_succ_eq_map, List.map_cons, List.map_map, Option.some.injEq, List.cons.injEq]
    refine ⟨by simp, List.map_congr_left fun k _ => ?_⟩
    simp only [Function.comp]
    congr 1
    rw [Int.natCast_succ, Int.add_mul]
    omega


theorem steps_count {a b step : Int} (hstep : 0 < step) :
    (((b - a) / step + 1).toNat : Int) = if a ≤ b then (b - a) / step + 1 else 0 := by
  split
  · rename_i h
    have : 0 ≤ (b - a) / step := Int.ediv_nonneg (by omega) (by omega)
    omega
  · rename_i h
    have : (b - a) / step < 0 := Int.ediv_neg_of_neg_of_pos (by omega) hstep
    omega

theorem timesLoop_steps (day a b step : Int) (hstep : 0 < step) (fuel : Nat) (hf : ((b - a) / step + 1).toNat < fuel) :
    timesLoop (day * dayUs + b) step fuel (day * dayUs + a) =
      some ((List.range ((b - a) / step + 1).toNat).map fun (k : Nat) => hmsStr (day * dayUs + (a + k * step))) := by
  rw [timesLoop_eq _ _ hstep ((b - a) / step + 1).toNat _ ?_ fuel hf]
  · simp only [Option.some.injEq]
    refine List.map_congr_left fun k _ => ?_
    congr 1; omega
  · rw [steps_count hstep]
    have e : day * dayUs + b - (day * dayUs + a) = b - a := by omega
    rw [e]
    by_cases h : a ≤ b
    · rw [if_pos h, if_pos (by omega)]
    · rw [if_neg h, if_neg (by omega)]

theorem step_le {a b step : Int} (hstep : 0 < step) {k : Nat} (hk : k < ((b - a) / step + 1).toNat) :
    a + k * step ≤ b := by
  have h1 : (k : Int) ≤ (b - a) / step := by omega
  have h2 := Int.mul_le_mul_of_nonneg_right h1 (Int.le_of_lt hstep)
  have h3 := Int.ediv_mul_le (b - a) (Int.ne_of_gt hstep)
  omega

/-- The strings made by a loop over a period denote its steps. -/
theorem entryTime_steps (mp : Periods) (day : Int) (p : Int × Int) (step : Int) (hstep : 0 < step)
    (h0 : 0 ≤ p.1) (h1 : p.2 < dayUs) :
    ((List.range ((p.2 - p.1) / step + 1).toNat).map fun (k : Nat) =>
      entryTime mp 0 (hmsStr (day * dayUs + (p.1 + k * step)))) = (stepTimes step p).map .ok := by
  simp only [stepTimes, List.map_map]
  refine List.map_congr_left fun k hk => ?_
  have hle := step_le hstep (List.mem_range.1 hk)
  have hnn : 0 ≤ (k : Int) * step := Int.mul_nonneg (by omega) (by omega)
  rw [entryTime_hms]
  simp only [Function.comp]
  rw [show day * dayUs + (p.1 + k * step) = (p.1 + k * step) + dayUs * day by rw [Int.mul_comm]; omega,
    Int.add_mul_emod_self_left, Int.emod_eq_of_lt (by omega) (by omega)]

/-- All loops over a list of periods. -/
theorem periodTimes_eq (mp : Periods) (day step : Int) (hstep : 0 < step) (ps : Periods)
    (hr : ∀ p ∈ ps, 0 ≤ p.1 ∧ p.2 < dayUs) :
    ∃ N, ∀ fuel, N ≤ fuel → ∃ ts, periodTimes fuel day step ps = some ts ∧
      ts.map (entryTime mp 0) = (ps.flatMap (stepTimes step)).map .ok := by
  induction ps with
  | nil => exact ⟨0, fun fuel _ => ⟨[], rfl, rfl⟩⟩
  | cons p ps ih =>
    obtain ⟨N, hN⟩ := ih (fun q hq => hr q (List.mem_cons_of_mem _ hq))
    obtain ⟨hp1, hp2⟩ := hr p (List.mem_cons_self ..)
    refine ⟨max N (((p.2 - p.1) / step + 1).toNat + 1), fun fuel hf => ?_⟩
    obtain ⟨ts, h1, h2⟩ := hN fuel (by omega)
    refine ⟨((List.range ((p.2 - p.1) / step + 1).toNat).map fun (k : Nat) =>
      hmsStr (day * dayUs + (p.1 + k * step))) ++ ts, ?_, ?_⟩
    · simp only [periodTimes]
      rw [timesLoop_steps day p.1 p.2 step hstep fuel (by omega), h1]
      rfl
    · simp only [List.map_append, List.map_map, List.flatMap_cons, h2]
      congr 1
      exact entryTime_steps mp day p step hstep hp1 hp2

end Jq
