import Verif.Model.Retry
set_option linter.unusedSectionVars false
/-!
# C45: retrying

The world is the number of calls made so far; `out i` is the outcome of call number `i`.
-/
namespace Jq
variable {ε α : Type}

/-- A function whose calls have the outcomes `out 0`, `out 1`, … -/
def counted (out : Nat → Except ε α) (n : Nat) : Nat × Except ε α := (n + 1, out n)

/-- Between 1 and `max_attempts + 1` calls are made; all but the last failed with an accepted error; the last one
gives the result, and it succeeded, or failed with a refused error, or was the last allowed. -/
theorem c45_result (accept : ε → Bool) (m : Nat) (out : Nat → Except ε α) (n : Nat) :
    ∃ j, j ≤ m ∧ simpleRetry accept m (counted out) n = (n + j + 1, out (n + j)) ∧
      (∀ i < j, ∃ e, out (n + i) = .error e ∧ accept e = true) ∧
      ((∃ a, out (n + j) = .ok a) ∨ (∃ e, out (n + j) = .error e ∧ accept e = false) ∨ j = m) := by
  simp only [simpleRetry, Int.toNat_natCast]
  induction m generalizing n with
  | zero =>
    refine ⟨0, Nat.le_refl _, ?_, by simp, .inr (.inr rfl)⟩
    simp only [retry, counted, Nat.add_zero]
    cases out n with
    | ok a => rfl
    | error e => simp
  | succ m ih =>
    rw [retry]
    simp only [counted]
    cases ho : out n with
    | ok a => exact ⟨0, Nat.zero_le _, by simp [ho], by simp, .inl ⟨a, by simpa using ho⟩⟩
    | error e =>
      cases ha : accept e with
      | false => exact ⟨0, Nat.zero_le _, by simp [ho, ha], by simp, .inr (.inl ⟨e, by simpa using ho, ha⟩)⟩
      | true =>
        obtain ⟨j, h1, h2, h3, h4⟩ := ih (n + 1)
        have harith : ∀ i, n + 1 + i = n + (i + 1) := by intro i; omega
        refine ⟨j + 1, by omega, ?_, ?_, ?_⟩
        · simp only [ha, Bool.not_true, Bool.false_eq_true, if_false]
          rw [show (retry accept (counted out) m (n + 1)) = _ from h2, harith]
        · intro i hi
          cases i with
          | zero => exact ⟨e, by simpa using ho, ha⟩
          | succ i => rw [← harith]; exact h3 i (by omega)
        · rw [← harith]
          rcases h4 with h4 | h4 | h4
          · exact .inl h4
          · exact .inr (.inl h4)
          · exact .inr (.inr (by omega))

/-- A negative number of attempts is as zero: one call. -/
theorem c45_negative (accept : ε → Bool) (m : Int) (hm : m < 0) (out : Nat → Except ε α) (n : Nat) :
    simpleRetry accept m (counted out) n = (n + 1, out n) := by
  obtain ⟨j, h1, h2, _⟩ := c45_result accept 0 out n
  have : m.toNat = 0 := by omega
  simp only [simpleRetry, this]
  have hj : j = 0 := by omega
  subst hj
  simpa [simpleRetry] using h2

/-- The function makes up to `N` calls, until the first success. -/
private def UpTo (g : Nat → Nat × Except ε α) (out : Nat → Except ε α) (N : Nat) : Prop :=
  ∀ n, ∃ j, j < N ∧ g n = (n + j + 1, out (n + j)) ∧ (∀ i < j, ∃ e, out (n + i) = .error e) ∧ ((∃ a, out (n + j) = .ok a) ∨ j + 1 = N)

private theorem upTo_retry {g : Nat → Nat × Except ε α} {out : Nat → Except ε α} {N : Nat} (h : UpTo g out N) (m : Nat) :
    UpTo (retry (fun _ => true) g m) out ((m + 1) * N) := by
  induction m with
  | zero =>
    intro n
    obtain ⟨j, h1, h2, h3, h4⟩ := h n
    refine ⟨j, by omega, ?_, h3, by rcases h4 with h4 | h4; exact .inl h4; exact .inr (by omega)⟩
    rw [retry, h2]
    cases ho : out (n + j) <;> simp
  | succ m ih =>
    intro n
    obtain ⟨j, h1, h2, h3, h4⟩ := h n
    rw [retry, h2]
    cases ho : out (n + j) with
    | ok a =>
      refine ⟨j, ?_, by simp [ho], h3, .inl ⟨a, ho⟩⟩
      have : N ≤ (m + 1 + 1) * N := Nat.le_mul_of_pos_left N (by omega)
      omega
    | error e =>
      have hj : j + 1 = N := by
        rcases h4 with ⟨a, h4⟩ | h4
        · rw [ho] at h4; cases h4
        · exact h4
      obtain ⟨j', k1, k2, k3, k4⟩ := ih (n + j + 1)
      have harith : ∀ i, n + j + 1 + i = n + (N + i) := by intro i; omega
      have hmul : (m + 1 + 1) * N = (m + 1) * N + N := by rw [Nat.add_mul (m + 1) 1 N, Nat.one_mul]
      refine ⟨N + j', by omega, ?_, ?_, ?_⟩
      · simp only [Bool.not_true, Bool.false_eq_true, if_false]
        rw [k2, harith]
      · intro i hi
        by_cases hij : i < j
        · exact h3 i hij
        · by_cases hij' : i = j
          · subst hij'; exact ⟨e, ho⟩
          · obtain ⟨i', rfl⟩ : ∃ i', i = N + i' := ⟨i - N, by omega⟩
            rw [← harith]; exact k3 i' (by omega)
      · rw [← harith]
        rcases k4 with k4 | k4
        · exact .inl k4
        · exact .inr (by omega)

/-- How many calls are allowed after calls of `set_options` with these `max_attempts`: the product. -/
def allowed : List Int → Nat
  | [] => 1
  | m :: ms => (m.toNat + 1) * allowed ms

/-- After calls of `set_options` with any `max_attempts`, the first success among up to the product of the allowed numbers of calls is
returned. -/
theorem c45_after_set_options_partial (ms : List Int) (out : Nat → Except ε α) (n : Nat) :
    ∃ j, j < allowed ms ∧ wrapAgain (counted out) ms n = (n + j + 1, out (n + j)) ∧ (∀ i < j, ∃ e, out (n + i) = .error e) ∧
      ((∃ a, out (n + j) = .ok a) ∨ j + 1 = allowed ms) := by
  have : UpTo (wrapAgain (counted out) ms) out (allowed ms) := by
    induction ms with
    | nil => intro n; exact ⟨0, by simp [allowed], rfl, by simp, .inr (by simp [allowed])⟩
    | cons m ms ih => exact upTo_retry ih m.toNat
  exact this n

/-- A file that cannot be read is tried as often as the product of the allowed numbers says. -/
theorem c45_attempts_multiply_refuted (ms : List Int) (e : ε) (n : Nat) :
    wrapAgain (counted (fun _ => (.error e : Except ε α))) ms n = (n + allowed ms, .error e) := by
  obtain ⟨j, h1, h2, h3, h4⟩ := c45_after_set_options_partial ms (fun _ => (.error e : Except ε α)) n
  rw [h2]
  rcases h4 with ⟨a, h4⟩ | h4
  · cases h4
  · rw [← h4, Nat.add_assoc]

/-- After `k` calls of `set_options` with the same `max_attempts`: the power. -/
theorem c45_same_options (m k : Nat) : allowed (List.replicate k (m : Int)) = (m + 1) ^ k := by
  induction k with
  | zero => rfl
  | succ k ih => rw [List.replicate_succ, allowed, ih, Int.toNat_natCast, Nat.pow_succ, Nat.mul_comm]

/-- Asking for no retries does not take the earlier ones away: the number of allowed calls never becomes smaller. -/
theorem c45_never_fewer (m : Int) (ms : List Int) : allowed ms ≤ allowed (m :: ms) ∧ (m ≤ 0 → allowed (m :: ms) = allowed ms) := by
  refine ⟨Nat.le_mul_of_pos_left _ (by omega), fun h => ?_⟩
  have : m.toNat = 0 := by omega
  simp [allowed, this]

/-- With the default of three retries: four attempts after one `set_options`, sixteen after two; and still sixteen after a third one that asks
for none. -/
theorem c45_default_witness : (wrapAgain (counted (fun _ => (.error () : Except Unit Unit))) [3] 0).1 = 4 ∧
    (wrapAgain (counted (fun _ => (.error () : Except Unit Unit))) [3, 3] 0).1 = 16 ∧
    (wrapAgain (counted (fun _ => (.error () : Except Unit Unit))) [0, 3, 3] 0).1 = 16 := by decide

example : simpleRetry (fun e => decide (e ≠ 7)) 3 (counted (fun n => if n < 2 then (.error n : Except Nat Nat) else .ok n)) 0 = (3, .ok 2) := by rfl

example : wrapAgain (counted (fun n => if n < 5 then (.error n : Except Nat Nat) else .ok n)) [1, 2] 0 = (6, .ok 5) ∧ allowed [1, 2] = 6 := ⟨rfl, rfl⟩

end Jq
