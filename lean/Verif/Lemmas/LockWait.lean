import Verif.Spec.LockWait
import Verif.Lemmas.TradeGate
/-! Lemmas about waiting for the file lock. -/
namespace Jq

/-- One turn of the loop. -/
theorem writeLoop_succ (W : WaitConf) (att : Nat → Attempt) (win : Bool) (f : FileId) (header line : Str) (fuel i : Nat) (fs : Files) :
    (Held W (att i) ∧ writeLoop W att win f header line (fuel + 1) i fs =
      writeLoop W att win f header line fuel (i + 1) (((att i).ext fs).set f (some (((att i).ext fs f).getD [])))) ∨
    (¬ Held W (att i) ∧ ∃ fault r, LastTry W (att i) r ∧ (fault = .none ↔ r = .ok ()) ∧
      (∀ e n, fault = .flush e n ↔ ((att i).opening = none ∧ (att i).lock = .free ∧ (att i).flush = some (e, n))) ∧
      writeLoop W att win f header line (fuel + 1) i fs = some (i, (appendLine win fault f header line ((att i).ext fs)).1, r) ∧
      (appendLine win fault f header line ((att i).ext fs)).2 = r) := by
  have hset : ∀ (gs : Files) (a b : Option Str), (gs.set f a).set f b = gs.set f b := by
    intro gs a b; funext g; simp only [Files.set]; split <;> rfl
  simp only [writeLoop]
  cases ho : (att i).opening with
  | some e =>
    exact .inr ⟨fun h => by simp [h.opened] at ho, .open e, .error e, .notOpened e ho, by simp, by simp, rfl, rfl⟩
  | none =>
    cases hl : (att i).lock with
    | fails e => exact .inr ⟨fun h => by simp [h.taken] at hl, .lock e, .error e, .lockFails e ho hl, by simp, by simp, rfl, rfl⟩
    | free =>
      refine .inr ⟨fun h => by simp [h.taken] at hl, ?_⟩
      cases hf : (att i).flush with
      | none =>
        refine ⟨.none, .ok (), .written ho hl hf, by simp, by simp, ?_, rfl⟩
        simp only [appendLine, Files.set_self, Option.getD_some, List.length_eq_zero_iff, hset]
      | some p =>
        obtain ⟨e, n⟩ := p
        refine ⟨.flush e n, .error e, .notWritten e n ho hl hf, by simp, by simp, ?_, rfl⟩
        simp only [appendLine, Files.set_self, Option.getD_some, List.length_eq_zero_iff, hset]
    | taken =>
      by_cases ht : W.timeOut ≤ (att i).clock - W.start
      · refine .inr ⟨fun h => by have := h.early; omega, .lock .timeOut, .error .timeOut, .timedOut ho hl (by omega), by simp, by simp, ?_, rfl⟩
        simp only [if_pos ht, appendLine]
      · by_cases hi : W.interval < 0
        · refine .inr ⟨fun h => by have := h.interval; omega, .lock .valueError, .error .valueError, .noSleep ho hl (by omega) hi, by simp, by simp, ?_, rfl⟩
          simp only [if_neg ht, if_pos hi, appendLine]
        · exact .inl ⟨⟨ho, hl, by omega, by omega⟩, by simp only [if_neg ht, if_neg hi]⟩

/-- The ways to end are different, and none is waiting. -/
theorem lastTry_fun {W : WaitConf} {a : Attempt} {r r' : Py Unit} (h : LastTry W a r) (h' : LastTry W a r') : r = r' := by
  cases h <;> cases h' <;> simp_all <;> omega

theorem lastTry_not_held {W : WaitConf} {a : Attempt} {r : Py Unit} (h : LastTry W a r) : ¬ Held W a := by
  intro hh
  have := hh.1; have := hh.2; have := hh.3; have := hh.4
  cases h <;> simp_all <;> omega

/-- The files that attempt `i + n` finds. -/
def filesAt (att : Nat → Attempt) (f : FileId) : Nat → Nat → Files → Files
  | i, 0, fs => (att i).ext fs
  | i, n + 1, fs => filesAt att f (i + 1) n (((att i).ext fs).set f (some (((att i).ext fs f).getD [])))

theorem writeLoop_iff (W : WaitConf) (att : Nat → Attempt) (win : Bool) (f : FileId) (header line : Str) (k : Nat) (r : Py Unit) :
    ∀ fuel i fs, (∃ fs', writeLoop W att win f header line fuel i fs = some (k, fs', r)) ↔
      i ≤ k ∧ k < i + fuel ∧ (∀ j, i ≤ j → j < k → Held W (att j)) ∧ LastTry W (att k) r := by
  intro fuel
  induction fuel with
  | zero => intro i fs; simp [writeLoop]; omega
  | succ fuel ih =>
    intro i fs
    rcases writeLoop_succ W att win f header line fuel i fs with ⟨hh, he⟩ | ⟨hn, fault, r', hl, _, _, he, _⟩
    · rw [he, ih]
      constructor
      · rintro ⟨h1, h2, h3, h4⟩
        refine ⟨by omega, by omega, fun j hj hk => ?_, h4⟩
        by_cases e : j = i
        · subst e; exact hh
        · exact h3 j (by omega) hk
      · rintro ⟨h1, h2, h3, h4⟩
        have : i ≠ k := fun e => lastTry_not_held h4 (e ▸ hh)
        exact ⟨by omega, by omega, fun j hj hk => h3 j (by omega) hk, h4⟩
    · rw [he]
      constructor
      · rintro ⟨fs', h⟩
        injection h with h
        injection h with h1 h2
        injection h2 with h2 h3
        subst h1; subst h3
        exact ⟨by omega, by omega, fun j hj hk => absurd hk (by omega), hl⟩
      · rintro ⟨h1, h2, h3, h4⟩
        have hki : k = i := by
          rcases Nat.lt_or_ge i k with h | h
          · exact absurd (h3 i (Nat.le_refl _) h) hn
          · omega
        subst hki
        exact ⟨_, by rw [lastTry_fun h4 hl]⟩

/-- The last attempt is an `appendLine`, on the files it finds. -/
theorem writeLoop_append (W : WaitConf) (att : Nat → Attempt) (win : Bool) (f : FileId) (header line : Str) :
    ∀ fuel i fs k fs' r, writeLoop W att win f header line fuel i fs = some (k, fs', r) → ∃ fault,
      appendLine win fault f header line (filesAt att f i (k - i) fs) = (fs', r) ∧ (fault = .none ↔ r = .ok ()) ∧
      (∀ e n, fault = .flush e n ↔ ((att k).opening = none ∧ (att k).lock = .free ∧ (att k).flush = some (e, n))) := by
  intro fuel
  induction fuel with
  | zero => intro i fs k fs' r h; simp [writeLoop] at h
  | succ fuel ih =>
    intro i fs k fs' r h
    have hik := ((writeLoop_iff W att win f header line k r (fuel + 1) i fs).1 ⟨fs', h⟩).1
    rcases writeLoop_succ W att win f header line fuel i fs with ⟨hh, he⟩ | ⟨hn, fault, r', hl, hf, hfl, he, ha⟩
    · rw [he] at h
      have hik' := ((writeLoop_iff W att win f header line k r fuel (i + 1) _).1 ⟨fs', h⟩).1
      obtain ⟨fault, h1, h2⟩ := ih _ _ _ _ _ h
      refine ⟨fault, ?_, h2⟩
      have : k - i = (k - (i + 1)) + 1 := by omega
      rw [this]
      exact h1
    · rw [he] at h
      injection h with h
      injection h with h1 h2
      injection h2 with h2 h3
      subst h1; subst h2; subst h3
      refine ⟨fault, ?_, hf, hfl⟩
      rw [Nat.sub_self]
      exact Prod.ext rfl ha

/-- What the attempts find in the file, when others only add to it. -/
theorem filesAt_text (att : Nat → Attempt) (f : FileId) (x : Nat → Str) (hx : ∀ i, Adds f (att i) (x i)) :
    ∀ n i fs, (filesAt att f i n fs f).getD [] = (fs f).getD [] ++ (List.range' i (n + 1)).flatMap x := by
  intro n
  induction n with
  | zero => intro i fs; simp [filesAt, hx i fs]
  | succ n ih =>
    intro i fs
    simp only [filesAt]
    rw [ih, Files.set_self, Option.getD_some, hx i fs, List.range'_succ (n := n + 1), List.flatMap_cons, List.append_assoc]

/-- Another file is left alone. -/
theorem filesAt_other (att : Nat → Attempt) (f g : FileId) (hg : g ≠ f) (hx : ∀ i fs, (att i).ext fs g = fs g) :
    ∀ n i fs, filesAt att f i n fs g = fs g := by
  intro n
  induction n with
  | zero => intro i fs; exact hx i fs
  | succ n ih => intro i fs; simp only [filesAt]; rw [ih, Files.set_ne _ hg, hx]

end Jq
