import Verif.Spec.Show
import Verif.Spec.Account
import Verif.Lemmas.Str
import Verif.Lemmas.NatStr
import Verif.Lemmas.Time
/-! Lemmas about the texts of numbers and times. -/
namespace Jq
variable {ν : Type}

theorem digChar_lt : ∀ m, m < 10 → ∀ n, n < 10 → (digChar m < digChar n ↔ m < n) := by decide
theorem digChar_inj : ∀ m, m < 10 → ∀ n, n < 10 → (digChar m = digChar n ↔ m = n) := by decide

/-- Two-digit texts compare as their numbers, whatever follows. -/
theorem two_lt {m n : Nat} (hm : m < 100) (hn : n < 100) (a b : Str) : two m ++ a < two n ++ b ↔ m < n ∨ (m = n ∧ a < b) := by
  have e1 := digChar_lt (m / 10) (by omega) (n / 10) (by omega)
  have e2 := digChar_lt (m % 10) (by omega) (n % 10) (by omega)
  have e3 := digChar_inj (m / 10) (by omega) (n / 10) (by omega)
  have e4 := digChar_inj (m % 10) (by omega) (n % 10) (by omega)
  simp only [two, List.cons_append, List.nil_append, List.cons_lt_cons_iff, e1, e2, e3, e4]
  constructor
  · rintro (h | ⟨h, h' | ⟨h', h''⟩⟩)
    · left; omega
    · left; omega
    · right; exact ⟨by omega, h''⟩
  · rintro (h | ⟨rfl, h⟩)
    · by_cases h' : m / 10 < n / 10
      · exact .inl h'
      · exact .inr ⟨by omega, .inl (by omega)⟩
    · exact .inr ⟨rfl, .inr ⟨rfl, h⟩⟩

theorem two_inj {m n : Nat} (hm : m < 100) (hn : n < 100) {a b : Str} (h : two m ++ a = two n ++ b) : m = n ∧ a = b := by
  have e3 := digChar_inj (m / 10) (by omega) (n / 10) (by omega)
  have e4 := digChar_inj (m % 10) (by omega) (n % 10) (by omega)
  simp only [two, List.cons_append, List.nil_append, List.cons.injEq, e3, e4] at h
  exact ⟨by omega, h.2.2⟩

theorem natStr_four (y : Nat) (h1 : 1000 ≤ y) (h2 : y ≤ 9999) : natStr y = two (y / 100) ++ two (y % 100) := by
  rw [natStr_eq, if_neg (by omega), natStr_eq, if_neg (by omega), natStr_eq, if_neg (by omega), natStr_eq, if_pos (by omega)]
  simp only [two, List.cons_append, List.nil_append]
  have e1 : y / 10 / 10 / 10 = y / 100 / 10 := by omega
  have e2 : y / 10 / 10 % 10 = y / 100 % 10 := by omega
  have e3 : y / 10 % 10 = y % 100 / 10 := by omega
  have e4 : y % 10 = y % 100 % 10 := by omega
  rw [e1, e2, e3, e4]

theorem cons_lt_same (c : Char) (a b : Str) : c :: a < c :: b ↔ a < b := by
  simp

theorem six_lt {m n : Nat} (hm : m < 1000000) (hn : n < 1000000) (a b : Str) : six m ++ a < six n ++ b ↔ m < n ∨ (m = n ∧ a < b) := by
  simp only [six, List.append_assoc]
  rw [two_lt (by omega) (by omega), two_lt (by omega) (by omega), two_lt (by omega) (by omega)]
  constructor
  · rintro (h | ⟨h, h' | ⟨h', h'' | ⟨h'', h3⟩⟩⟩)
    · left; omega
    · left; omega
    · left; omega
    · right; exact ⟨by omega, h3⟩
  · rintro (h | ⟨rfl, h⟩)
    · by_cases h1 : m / 10000 < n / 10000
      · exact .inl h1
      · refine .inr ⟨by omega, ?_⟩
        by_cases h2 : m / 100 % 100 < n / 100 % 100
        · exact .inl h2
        · exact .inr ⟨by omega, .inl (by omega)⟩
    · exact .inr ⟨rfl, .inr ⟨rfl, .inr ⟨rfl, h⟩⟩⟩

/-- Formatted times compare as the times. -/
theorem full_lt {d e : DT} (hd : d.ok) (he : e.ok) (a b : Str) : d.full ++ a < e.full ++ b ↔ d.Before e ∨ (d = e ∧ a < b) := by
  obtain ⟨hv, hy⟩ := hd
  obtain ⟨hv', hy'⟩ := he
  have f := valid_fields hv
  have f' := valid_fields hv'
  have m1 := daysInMonth_le d.year d.month
  have m2 := daysInMonth_le e.year e.month
  rw [DT.full, DT.full, natStr_four _ hy (by omega), natStr_four _ hy' (by omega)]
  simp only [List.append_assoc, List.cons_append]
  rw [two_lt (by omega) (by omega), two_lt (by omega) (by omega), cons_lt_same, two_lt (by omega) (by omega), cons_lt_same,
    two_lt (by omega) (by omega), cons_lt_same, two_lt (by omega) (by omega), cons_lt_same, two_lt (by omega) (by omega), cons_lt_same,
    two_lt (by omega) (by omega), cons_lt_same, six_lt (by omega) (by omega)]
  constructor
  · rintro (h | ⟨h0, h | ⟨h1, h | ⟨h2, h | ⟨h3, h | ⟨h4, h | ⟨h5, h | ⟨h6, h | ⟨h7, h⟩⟩⟩⟩⟩⟩⟩⟩)
    · exact .inl (.year (by omega))
    · exact .inl (.year (by omega))
    · exact .inl (.month (by omega) h)
    · exact .inl (.day (by omega) h2 h)
    · exact .inl (.hour (by omega) h2 h3 h)
    · exact .inl (.minute (by omega) h2 h3 h4 h)
    · exact .inl (.second (by omega) h2 h3 h4 h5 h)
    · exact .inl (.us (by omega) h2 h3 h4 h5 h6 h)
    · refine .inr ⟨?_, h⟩
      cases d; cases e
      simp only [DT.mk.injEq]
      simp only at *
      exact ⟨by omega, h2, h3, h4, h5, h6, h7⟩
  · rintro (h | ⟨rfl, h⟩)
    · cases h with
      | year h =>
        by_cases h' : d.year / 100 < e.year / 100
        · exact .inl h'
        · exact .inr ⟨by omega, .inl (by omega)⟩
      | month h0 h => exact .inr ⟨by omega, .inr ⟨by omega, .inl h⟩⟩
      | day h0 h1 h => exact .inr ⟨by omega, .inr ⟨by omega, .inr ⟨h1, .inl h⟩⟩⟩
      | hour h0 h1 h2 h => exact .inr ⟨by omega, .inr ⟨by omega, .inr ⟨h1, .inr ⟨h2, .inl h⟩⟩⟩⟩
      | minute h0 h1 h2 h3 h => exact .inr ⟨by omega, .inr ⟨by omega, .inr ⟨h1, .inr ⟨h2, .inr ⟨h3, .inl h⟩⟩⟩⟩⟩
      | second h0 h1 h2 h3 h4 h => exact .inr ⟨by omega, .inr ⟨by omega, .inr ⟨h1, .inr ⟨h2, .inr ⟨h3, .inr ⟨h4, .inl h⟩⟩⟩⟩⟩⟩
      | us h0 h1 h2 h3 h4 h5 h =>
        exact .inr ⟨by omega, .inr ⟨by omega, .inr ⟨h1, .inr ⟨h2, .inr ⟨h3, .inr ⟨h4, .inr ⟨h5, .inl h⟩⟩⟩⟩⟩⟩⟩
    · exact .inr ⟨rfl, .inr ⟨rfl, .inr ⟨rfl, .inr ⟨rfl, .inr ⟨rfl, .inr ⟨rfl, .inr ⟨rfl, .inr ⟨rfl, h⟩⟩⟩⟩⟩⟩⟩⟩

theorem two_not_mem {n : Nat} (hn : n < 100) {c : Char} (hc : isDig c = false) : c ∉ two n := by
  intro h
  have := List.all_eq_true.1 (two_all n hn) c h
  rw [hc] at this; cases this

theorem six_not_mem {n : Nat} (hn : n < 1000000) {c : Char} (hc : isDig c = false) : c ∉ six n := by
  intro h
  have := List.all_eq_true.1 (six_all n hn) c h
  rw [hc] at this; cases this

theorem iso_no_comma {d : DT} (hv : d.valid = true) : ',' ∉ d.iso := by
  have f := valid_fields hv
  have m1 := daysInMonth_le d.year d.month
  have t := fun n (hn : n < 100) => two_not_mem (c := ',') hn (by decide)
  have s := six_not_mem (n := d.us) (c := ',') (by omega) (by decide)
  simp only [DT.iso, List.mem_append, List.mem_cons, not_or]
  refine ⟨t _ (by omega), t _ (by omega), by decide, t _ (by omega), by decide, t _ (by omega), by decide, t _ (by omega), by decide,
    t _ (by omega), by decide, t _ (by omega), ?_⟩
  split
  · simp
  · simp only [List.mem_cons, not_or]; exact ⟨by decide, s⟩

theorem iso_inj {d e : DT} (hv : d.valid = true) (hv' : e.valid = true) (h : d.iso = e.iso) : d = e := by
  have f := valid_fields hv
  have f' := valid_fields hv'
  have m1 := daysInMonth_le d.year d.month
  have m2 := daysInMonth_le e.year e.month
  simp only [DT.iso] at h
  obtain ⟨h0, h⟩ := two_inj (by omega) (by omega) h
  obtain ⟨h1, h⟩ := two_inj (by omega) (by omega) h
  obtain ⟨h2, h⟩ := two_inj (by omega) (by omega) (List.cons.inj h).2
  obtain ⟨h3, h⟩ := two_inj (by omega) (by omega) (List.cons.inj h).2
  obtain ⟨h4, h⟩ := two_inj (by omega) (by omega) (List.cons.inj h).2
  obtain ⟨h5, h⟩ := two_inj (by omega) (by omega) (List.cons.inj h).2
  obtain ⟨h6, h⟩ := two_inj (by omega) (by omega) (List.cons.inj h).2
  have h7 : d.us = e.us := by
    split at h <;> split at h
    · omega
    · cases h
    · cases h
    · have := (List.cons.inj h).2
      have a := natOfDigits_six d.us (by omega)
      have b := natOfDigits_six e.us (by omega)
      rw [this] at a
      omega
  cases d; cases e
  simp only [DT.mk.injEq]
  simp only at *
  exact ⟨by omega, h2, h3, h4, h5, h6, h7⟩

theorem iso_ne_none {d : DT} (hv : d.valid = true) : d.iso ≠ c!"None" := by
  have f := valid_fields hv
  intro h
  have : digChar (d.year / 100 / 10) = 'N' := by
    simp only [DT.iso, two, List.cons_append] at h
    exact (List.cons.inj h).1
  have h2 := (digChar_spec (d.year / 100 / 10) (by omega)).1
  rw [this] at h2
  exact absurd h2 (by decide)

theorem intStr_no_comma (n : Int) : ',' ∉ intStr n := by
  unfold intStr
  split
  · simp only [List.mem_cons, not_or]
    exact ⟨by decide, natStr_not_mem _ (by decide)⟩
  · exact natStr_not_mem _ (by decide)

theorem intStr_inj {m n : Int} (h : intStr m = intStr n) : m = n := by
  unfold intStr at h
  have key : ∀ k : Nat, ∀ t, natStr k ≠ '-' :: t := fun k t e =>
    natStr_not_mem k (c := '-') (by decide) (by rw [e]; exact List.mem_cons_self ..)
  split at h <;> split at h
  · have := natStr_inj (List.cons.inj h).2; omega
  · exact absurd h.symm (key _ _)
  · exact absurd h (key _ _)
  · have := natStr_inj h; omega

theorem status_no_comma (s : Status) : ',' ∉ s.name := by cases s <;> decide
theorem status_inj {s t : Status} (h : s.name = t.name) : s = t := by cases s <;> cases t <;> first | rfl | (revert h; decide)
theorem side_no_comma (s : Side) : ',' ∉ s.name := by cases s <;> decide
theorem side_inj {s t : Side} (h : s.name = t.name) : s = t := by cases s <;> cases t <;> first | rfl | (revert h; decide)
theorem action_no_comma (s : Action) : ',' ∉ s.name := by cases s <;> decide
theorem action_inj {s t : Action} (h : s.name = t.name) : s = t := by cases s <;> cases t <;> first | rfl | (revert h; decide)

theorem orNone_inj {α : Type} {f : α → Str} {x y : Option α} (hf : ∀ a b, x = some a → y = some b → f a = f b → a = b)
    (hx : ∀ a, x = some a → f a ≠ c!"None") (hy : ∀ a, y = some a → f a ≠ c!"None") (h : orNone f x = orNone f y) : x = y := by
  cases x with
  | none => cases y with
    | none => rfl
    | some b => exact absurd h.symm (hy b rfl)
  | some a => cases y with
    | none => exact absurd h (hx a rfl)
    | some b => rw [hf a b rfl rfl h]

theorem orNone_no_comma {α : Type} {f : α → Str} {x : Option α} (h : ∀ a, x = some a → ',' ∉ f a) : ',' ∉ orNone f x := by
  cases x with
  | none => simp [orNone]
  | some a => exact h a rfl

theorem style_no_comma {num : ν → Str} (hn : NumText num) (s : Style ν) : ',' ∉ s.text num := by
  cases s <;> simp only [Style.text, List.mem_append, not_or] <;> exact ⟨⟨by decide, hn.comma _⟩, by decide⟩

theorem style_ne_none {num : ν → Str} (s : Style ν) : s.text num ≠ c!"None" := by
  cases s <;> intro h <;> exact absurd (List.cons.inj h).1 (by decide)

theorem style_inj {num : ν → Str} (hn : NumText num) {s t : Style ν} (h : s.text num = t.text num) : s = t := by
  cases s <;> cases t <;> simp only [Style.text] at h
  · rw [hn.inj _ _ (List.append_cancel_left (List.append_cancel_right h))]
  · exact absurd (List.cons.inj h).1 (by decide)
  · exact absurd (List.cons.inj h).1 (by decide)
  · rw [hn.inj _ _ (List.append_cancel_left (List.append_cancel_right h))]

end Jq
