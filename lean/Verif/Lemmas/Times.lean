import Verif.Spec.Times
import Verif.Lemmas.Options
import Verif.Lemmas.Time
/-! Lemmas for C79. -/
namespace Jq

theorem isLeap_iff (y : Nat) : isLeap y = true ↔ LeapYear y := by
  simp only [isLeap, Bool.and_eq_true, Bool.or_eq_true, decide_eq_true_eq, LeapYear, Nat.dvd_iff_mod_eq_zero]
  omega

theorem monthLengths_get (y m : Nat) (h1 : 1 ≤ m) (h2 : m ≤ 12) : (monthLengths y)[m - 1]? = some (daysInMonth y m) := by
  have hl : (if LeapYear y then 29 else 28) = if isLeap y then 29 else 28 := by
    by_cases h : LeapYear y
    · rw [if_pos h, if_pos ((isLeap_iff y).2 h)]
    · rw [if_neg h, if_neg (fun e => h ((isLeap_iff y).1 e))]
  have hm : m = 1 ∨ m = 2 ∨ m = 3 ∨ m = 4 ∨ m = 5 ∨ m = 6 ∨ m = 7 ∨ m = 8 ∨ m = 9 ∨ m = 10 ∨ m = 11 ∨ m = 12 := by omega
  rcases hm with rfl | rfl | rfl | rfl | rfl | rfl | rfl | rfl | rfl | rfl | rfl | rfl <;> simp [monthLengths, daysInMonth, hl]

/-- The moments `datetime` accepts are those that exist. -/
theorem valid_iff (d : DT) : d.valid = true ↔ d.Exists := by
  constructor
  · intro h
    obtain ⟨h1, h2, h3, h4, h5, h6, h7, h8, h9, h10⟩ := valid_fields h
    exact ⟨⟨h1, h2⟩, ⟨h3, h5, _, monthLengths_get _ _ h3 h4, h6⟩, h7, h8, h9, h10⟩
  · rintro ⟨⟨h1, h2⟩, ⟨h3, h5, n, hn, h6⟩, h7, h8, h9, h10⟩
    have h4 : d.month ≤ 12 := by
      have := (List.getElem?_eq_some_iff.1 hn).1
      simp only [monthLengths, List.length_cons, List.length_nil] at this
      omega
    rw [monthLengths_get _ _ h3 h4] at hn
    injection hn with hn
    subst hn
    simp only [DT.valid, Bool.and_eq_true, decide_eq_true_eq]
    exact ⟨⟨⟨⟨⟨⟨⟨⟨⟨h1, h2⟩, h3⟩, h4⟩, h5⟩, h6⟩, h7⟩, h8⟩, h9⟩, h10⟩

/-! ### Fields -/

theorem num_all {w : Str} {n : Nat} (h : Num w n) : w.all isDig = true :=
  List.all_eq_true.2 fun c hc => isDig_iff.2 (h.2.1 c hc)

theorem num_of {w : Str} (h0 : w ≠ []) (h : w.all isDig = true) : Num w (natOfDigits w) :=
  ⟨h0, fun c hc => isDig_iff.1 (List.all_eq_true.1 h c hc), rfl⟩

theorem num_val {w : Str} {n : Nat} (h : Num w n) : natOfDigits w = n := h.2.2

theorem field_num {w : Str} {lim n : Nat} (h : ClockField w lim n) : Short w n :=
  ⟨by rcases h.1 with e | e <;> omega, by rintro rfl; simpa using h.1, h.2.1, h.2.2.1⟩

theorem num_field {w : Str} {lim n : Nat} (h : Short w n) (hn : n < lim) : ClockField w lim n := by
  refine ⟨?_, h.2.2.1, h.2.2.2, hn⟩
  have := h.1
  have h0 : w.length ≠ 0 := fun e => h.2.1 (List.length_eq_zero_iff.1 e)
  omega

theorem fYear_mem {s r : Str} {n : Nat} (h : (n, r) ∈ fYear s) : ∃ w, s = w ++ r ∧ w.length = 4 ∧ Num w n := by
  simp only [fYear] at h
  split at h
  · rename_i e
    simp only [Bool.and_eq_true, decide_eq_true_eq] at e
    simp only [List.mem_singleton, Prod.mk.injEq] at h
    refine ⟨s.take 4, ?_, e.1, ?_⟩
    · rw [h.2, List.take_append_drop]
    · rw [h.1]
      exact num_of (by intro e'; rw [e'] at e; simp at e) e.2
  · simp at h

theorem fYear_head {w r : Str} {n : Nat} (hl : w.length = 4) (h : Num w n) : (fYear (w ++ r)).head? = some (n, r) := by
  have ht : (w ++ r).take 4 = w := by rw [← hl, List.take_left]
  have hd : (w ++ r).drop 4 = r := by rw [← hl, List.drop_left]
  simp only [fYear, ht, hd, hl, num_all h, num_val h]
  rfl

theorem fMonth_mem {s r : Str} {n : Nat} (h : (n, r) ∈ fMonth s) : ∃ w, s = w ++ r ∧ ClockField w 13 n := by
  simp only [fMonth, List.mem_append] at h
  rcases h with (h | h) | h
  · obtain ⟨a, b, rfl, ha, hb, rfl⟩ := twoAlt_mem h
    have ha : a.toNat = 49 := by have := of_decide_eq_true ha; subst this; rfl
    have hb : 48 ≤ b.toNat ∧ b.toNat ≤ 50 := inR_iff.1 hb
    exact ⟨[a, b], rfl, field_two (by omega) (by omega) (by omega)⟩
  · obtain ⟨a, b, rfl, ha, hb, rfl⟩ := twoAlt_mem h
    have ha : a.toNat = 48 := by have := of_decide_eq_true ha; subst this; rfl
    have hb : 49 ≤ b.toNat ∧ b.toNat ≤ 57 := inR_iff.1 hb
    exact ⟨[a, b], rfl, field_two (by omega) (by omega) (by omega)⟩
  · obtain ⟨a, rfl, ha, rfl⟩ := oneAlt_mem h
    have ha : 49 ≤ a.toNat ∧ a.toNat ≤ 57 := inR_iff.1 ha
    exact ⟨[a], rfl, field_one (by omega) (by omega)⟩

theorem fDay_mem {s r : Str} {n : Nat} (h : (n, r) ∈ fDay s) :
    ∃ w, s = w ++ r ∧ (ClockField w 32 n ∨ ∃ c, w = [' ', c] ∧ Num [c] n) := by
  simp only [fDay, List.mem_append] at h
  rcases h with (((h | h) | h) | h) | h
  · obtain ⟨a, b, rfl, ha, hb, rfl⟩ := twoAlt_mem h
    have ha : a.toNat = 51 := by have := of_decide_eq_true ha; subst this; rfl
    have hb : 48 ≤ b.toNat ∧ b.toNat ≤ 49 := inR_iff.1 hb
    exact ⟨[a, b], rfl, .inl (field_two (by omega) (by omega) (by omega))⟩
  · obtain ⟨a, b, rfl, ha, hb, rfl⟩ := twoAlt_mem h
    have ha : 49 ≤ a.toNat ∧ a.toNat ≤ 50 := inR_iff.1 ha
    have hb := isDig_nat.1 hb
    exact ⟨[a, b], rfl, .inl (field_two (by omega) (by omega) (by omega))⟩
  · obtain ⟨a, b, rfl, ha, hb, rfl⟩ := twoAlt_mem h
    have ha : a.toNat = 48 := by have := of_decide_eq_true ha; subst this; rfl
    have hb : 49 ≤ b.toNat ∧ b.toNat ≤ 57 := inR_iff.1 hb
    exact ⟨[a, b], rfl, .inl (field_two (by omega) (by omega) (by omega))⟩
  · obtain ⟨a, rfl, ha, rfl⟩ := oneAlt_mem h
    have ha : 49 ≤ a.toNat ∧ a.toNat ≤ 57 := inR_iff.1 ha
    exact ⟨[a], rfl, .inl (field_one (by omega) (by omega))⟩
  · split at h
    · obtain ⟨a, rfl, ha, rfl⟩ := oneAlt_mem h
      have ha : 49 ≤ a.toNat ∧ a.toNat ≤ 57 := inR_iff.1 ha
      exact ⟨[' ', a], rfl, .inr ⟨a, rfl, (field_num (field_one (lim := 10) (by omega) (by omega))).2⟩⟩
    · simp at h

/-- Two digits are the two digits of their number. -/
theorem two_of {w : Str} {n : Nat} (hl : w.length = 2) (h : Num w n) : w = two n ∧ n < 100 := by
  match w, hl with
  | [a, b], _ =>
    have ha := dig_range.1 (h.2.1 a (by simp))
    have hb := dig_range.1 (h.2.1 b (by simp))
    have hv : 10 * (a.toNat - 48) + (b.toNat - 48) = n := by
      rw [← h.2.2]; simp [decimal, show '0'.toNat = 48 from rfl]
    have hdig : ∀ k : Fin 10, (digChar k.1).toNat = 48 + k.1 := by decide
    have h1 : a = digChar (n / 10) := char_eq.2 (by have := hdig ⟨n / 10, by omega⟩; simp only at this; omega)
    have h2 : b = digChar (n % 10) := char_eq.2 (by have := hdig ⟨n % 10, by omega⟩; simp only at this; omega)
    exact ⟨by rw [two, h1, h2], by omega⟩

theorem short_cases {w : Str} {n : Nat} (h : Short w n) :
    (w = two n ∧ n < 100) ∨ ∃ a, w = [a] ∧ (48 ≤ a.toNat ∧ a.toNat ≤ 57) ∧ n = a.toNat - 48 := by
  obtain ⟨hl, hn⟩ := h
  match w, hl with
  | [], _ => exact absurd rfl hn.1
  | [a], _ =>
    refine .inr ⟨a, rfl, dig_range.1 (hn.2.1 a (by simp)), ?_⟩
    rw [← hn.2.2]; simp [decimal, show '0'.toNat = 48 from rfl]
  | [a, b], _ => exact .inl (two_of rfl hn)

theorem fMonth_head {w r : Str} {n : Nat} (h : Short w n) (h1 : 1 ≤ n) (h2 : n ≤ 12) (hr : NoDigit r) :
    (fMonth (w ++ r)).head? = some (n, r) := by
  rcases short_cases h with ⟨rfl, _⟩ | ⟨a, rfl, ha, rfl⟩
  · exact fMonth_two _ h1 h2 r
  · simp only [fMonth, List.cons_append, List.nil_append]
    rw [twoAlt_one (inR_range (by decide) (by decide)) hr, twoAlt_one (inR_range (by decide) (by decide)) hr,
      oneAlt_yes (p := inR '1' '9') (inR_iff.2 ⟨show 49 ≤ a.toNat by omega, show a.toNat ≤ 57 by omega⟩)]
    rfl

theorem fDay_head {w r : Str} {n : Nat} (h : DayField w n) (h1 : 1 ≤ n) (h2 : n ≤ 31) (hr : NoDigit r) :
    (fDay (w ++ r)).head? = some (n, r) := by
  cases h with
  | digits _ _ h =>
    rcases short_cases h with ⟨rfl, _⟩ | ⟨a, rfl, ha, rfl⟩
    · exact fDay_two _ h1 h2 r
    · simp only [fDay, List.cons_append, List.nil_append]
      rw [twoAlt_one (inR_range (by decide) (by decide)) hr, twoAlt_one isDig_range hr,
        twoAlt_one (inR_range (by decide) (by decide)) hr,
        oneAlt_yes (p := inR '1' '9') (inR_iff.2 ⟨show 49 ≤ a.toNat by omega, show a.toNat ≤ 57 by omega⟩)]
      rfl
  | blank c _ h =>
    have hc := dig_range.1 (h.2.1 c (by simp))
    have hv : c.toNat - 48 = n := by rw [← h.2.2]; simp [decimal, show '0'.toNat = 48 from rfl]
    simp only [fDay, List.cons_append, List.nil_append]
    rw [twoAlt_no (fun e => absurd e.1 (by decide)), twoAlt_no (fun e => absurd e.1 (by decide)), twoAlt_no (fun e => absurd e.1 (by decide)),
      oneAlt_yes (p := inR '1' '9') (inR_iff.2 ⟨show 49 ≤ c.toNat by omega, show c.toNat ≤ 57 by omega⟩), hv]
    rfl

theorem fSpace_mem {s r : Str} {u : Unit} (h : (u, r) ∈ fSpace s) : ∃ sp, s = sp ++ r ∧ sp ≠ [] ∧ ∀ c ∈ sp, isSpace c = true := by
  induction s with
  | nil => simp [fSpace] at h
  | cons a t ih =>
    simp only [fSpace] at h
    split at h
    · rename_i ha
      simp only [List.mem_append, List.mem_singleton, Prod.mk.injEq] at h
      rcases h with h | h
      · obtain ⟨sp, e, _, hs⟩ := ih h
        exact ⟨a :: sp, by rw [e]; rfl, by simp, by simpa [ha] using hs⟩
      · exact ⟨[a], by rw [h.2]; rfl, by simp, by simpa using ha⟩
    · simp at h

theorem fSpace_none {c : Char} {r : Str} (h : isSpace c = false) : fSpace (c :: r) = [] := by simp [fSpace, h]

theorem fSpace_head {sp r : Str} (h0 : sp ≠ []) (hs : ∀ c ∈ sp, isSpace c = true) (hr : fSpace r = []) :
    (fSpace (sp ++ r)).head? = some ((), r) := by
  induction sp with
  | nil => exact absurd rfl h0
  | cons a t ih =>
    simp only [List.cons_append, fSpace, hs a (by simp), if_true]
    by_cases ht : t = []
    · subst ht; simp [hr]
    · rw [List.head?_append, ih ht (fun c hc => hs c (by simp [hc]))]
      rfl

theorem fMicro_mem {s r : Str} {n : Nat} (h : (n, r) ∈ fMicro s) :
    ∃ ds m, s = ds ++ r ∧ ds.length ≤ 6 ∧ Num ds m ∧ n = m * 10 ^ (6 - ds.length) := by
  simp only [fMicro, List.mem_filterMap] at h
  obtain ⟨k, hk, h⟩ := h
  split at h
  · rename_i e
    simp only [Bool.and_eq_true, decide_eq_true_eq] at e
    simp only [Option.some.injEq, Prod.mk.injEq] at h
    have hk' : 1 ≤ k ∧ k ≤ 6 := by
      simp only [List.mem_cons, List.not_mem_nil, or_false] at hk
      omega
    refine ⟨s.take k, natOfDigits (s.take k), ?_, by omega, num_of ?_ e.2, ?_⟩
    · rw [← h.2, List.take_append_drop]
    · intro e'; rw [e'] at e; simp at e; omega
    · rw [e.1, h.1]
  · cases h

end Jq
