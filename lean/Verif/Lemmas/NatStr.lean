import Verif.Lemmas.Str
namespace Jq

theorem digChar_spec : ∀ n, n < 10 → isDig (digChar n) = true ∧ digVal (digChar n) = n := by
  intro n hn
  have : ∀ k : Fin 10, isDig (digChar k.1) = true ∧ digVal (digChar k.1) = k.1 := by decide
  exact this ⟨n, hn⟩

private theorem go_fuel (f g n : Nat) (hf : n < f) (hg : n < g) : natStr.go f n = natStr.go g n := by
  induction f generalizing g n with
  | zero => omega
  | succ f ih =>
    cases g with
    | zero => omega
    | succ g =>
      simp only [natStr.go]
      split
      · rfl
      · rw [ih g (n / 10) (by omega) (by omega)]

theorem natStr_eq (n : Nat) : natStr n = if n < 10 then [digChar n] else natStr (n / 10) ++ [digChar (n % 10)] := by
  simp only [natStr]
  rw [natStr.go]
  split
  · rfl
  · rw [go_fuel n (n / 10 + 1) (n / 10) (by omega) (by omega)]

theorem natStr_digits (n : Nat) : ∀ c ∈ natStr n, isDig c = true := by
  induction n using Nat.strongRecOn with
  | ind n ih =>
    intro c hc
    rw [natStr_eq] at hc
    split at hc
    · simp only [List.mem_singleton] at hc
      subst hc; exact (digChar_spec _ (by omega)).1
    · rcases List.mem_append.1 hc with hc | hc
      · exact ih (n / 10) (by omega) c hc
      · simp only [List.mem_singleton] at hc
        subst hc; exact (digChar_spec _ (by omega)).1

theorem natStr_ne_nil (n : Nat) : natStr n ≠ [] := by
  rw [natStr_eq]; split <;> simp

theorem natOfDigits_append (a : Str) (c : Char) : natOfDigits (a ++ [c]) = 10 * natOfDigits a + digVal c := by
  simp [natOfDigits, List.foldl_append]

theorem natOfDigits_natStr (n : Nat) : natOfDigits (natStr n) = n := by
  induction n using Nat.strongRecOn with
  | ind n ih =>
    rw [natStr_eq]
    split
    · rename_i h
      simp [natOfDigits, (digChar_spec n h).2]
    · rw [natOfDigits_append, ih (n / 10) (by omega), (digChar_spec (n % 10) (by omega)).2]
      omega

theorem natStr_inj {m n : Nat} (h : natStr m = natStr n) : m = n := by
  rw [← natOfDigits_natStr m, h, natOfDigits_natStr]

theorem natStr_not_mem (n : Nat) {c : Char} (h : isDig c = false) : c ∉ natStr n := by
  intro hc
  rw [natStr_digits n c hc] at h
  exact absurd h (by decide)

end Jq
