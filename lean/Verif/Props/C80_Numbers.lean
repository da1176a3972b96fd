import Verif.Lemmas.Numbers
import Verif.Props.C36_OrderSync
/-! # C80: quantities are read as exactly the whole numbers they write -/
namespace Jq
variable {ν : Type} [GateNum ν]

private theorem last_append {a b : Str} (hb : b ≠ []) : (a ++ b).getLast? = b.getLast? := by
  rw [List.getLast?_append]
  cases h : b.getLast? with
  | none => exact absurd (List.getLast?_eq_none_iff.1 h) hb
  | some x => rfl

private theorem last_digit {g : Str} {gs : List Str} (h : ∀ w ∈ g :: gs, Group w) :
    ∀ c ∈ (g ++ gs.flatMap ('_' :: ·)).getLast?, isIntSpace c = false := by
  intro c hc
  have key : ∃ w ∈ g :: gs, c ∈ w := by
    rcases List.eq_nil_or_concat gs with rfl | ⟨ws, w, rfl⟩
    · exact ⟨g, by simp, List.mem_of_getLast? (by simpa using hc)⟩
    · refine ⟨w, by simp, ?_⟩
      have hw := (h w (by simp)).1
      have e : g ++ (ws.concat w).flatMap ('_' :: ·) = (g ++ ws.flatMap ('_' :: ·) ++ ['_']) ++ w := by simp
      rw [e, last_append hw] at hc
      exact List.mem_of_getLast? hc
  obtain ⟨w, hw, hcw⟩ := key
  exact isIntSpace_of_isDig (isDig_iff.2 ((h w hw).2 c hcw))

private theorem strip_plain {l r g : Str} {gs : List Str} (hl : ∀ c ∈ l, isIntSpace c = true) (hr : ∀ c ∈ r, isIntSpace c = true)
    (h : ∀ w ∈ g :: gs, Group w) : stripBy isIntSpace (l ++ (g ++ gs.flatMap ('_' :: ·)) ++ r) = g ++ gs.flatMap ('_' :: ·) := by
  obtain ⟨h0, hd⟩ := h g (by simp)
  refine stripBy_pad hl hr (by simp [h0]) ?_ (last_digit h)
  cases g with
  | nil => exact absurd rfl h0
  | cons a t =>
    intro c hc
    simp only [List.cons_append, List.head?_cons, Option.mem_def, Option.some.injEq] at hc
    subst hc
    exact isIntSpace_of_isDig (isDig_iff.2 (hd a (by simp)))

private theorem strip_sign {l r g : Str} {gs : List Str} {sg : Char} (hsg : isIntSpace sg = false) (hl : ∀ c ∈ l, isIntSpace c = true)
    (hr : ∀ c ∈ r, isIntSpace c = true) (h : ∀ w ∈ g :: gs, Group w) :
    stripBy isIntSpace (l ++ sg :: (g ++ gs.flatMap ('_' :: ·)) ++ r) = sg :: (g ++ gs.flatMap ('_' :: ·)) := by
  obtain ⟨h0, hd⟩ := h g (by simp)
  refine stripBy_pad hl hr (by simp) ?_ ?_
  · intro c hc
    simp only [List.head?_cons, Option.mem_def, Option.some.injEq] at hc
    rwa [← hc]
  · intro c hc
    have hne : g ++ gs.flatMap ('_' :: ·) ≠ [] := by simp [h0]
    rw [show sg :: (g ++ gs.flatMap ('_' :: ·)) = [sg] ++ (g ++ gs.flatMap ('_' :: ·)) from rfl, last_append hne] at hc
    exact last_digit h c hc

private theorem digits_read {g : Str} {gs : List Str} (h : ∀ w ∈ g :: gs, Group w) :
    digitsUnderscore false (g ++ gs.flatMap ('_' :: ·)) = some (g ++ gs.flatten) :=
  (digits_iff _ _ _).2 ⟨g, gs, fun _ => (h g (by simp)).1, (h g (by simp)).2, fun w hw => h w (by simp [hw]), rfl, rfl⟩

/-- `int(s)` is `n` exactly when `s` writes `n`. -/
theorem c80_int (s : Str) (n : Int) : pyInt s = some n ↔ IntText s n := by
  constructor
  · intro h
    obtain ⟨l, r, hs, hl, hr⟩ := stripBy_split isIntSpace s
    rw [hs]
    simp only [pyInt] at h
    split at h
    · rename_i ds e
      obtain ⟨d, h1, rfl⟩ := Option.map_eq_some_iff.1 h
      obtain ⟨g, gs, h0, hd, hg, rfl, rfl⟩ := (digits_iff _ _ _).1 h1
      rw [e]
      refine .minus l r g gs hl hr fun w hw => ?_
      rcases List.mem_cons.1 hw with rfl | hw
      · exact ⟨h0 rfl, hd⟩
      · exact hg w hw
    · rename_i ds e
      obtain ⟨d, h1, rfl⟩ := Option.map_eq_some_iff.1 h
      obtain ⟨g, gs, h0, hd, hg, rfl, rfl⟩ := (digits_iff _ _ _).1 h1
      rw [e]
      refine .plus l r g gs hl hr fun w hw => ?_
      rcases List.mem_cons.1 hw with rfl | hw
      · exact ⟨h0 rfl, hd⟩
      · exact hg w hw
    · obtain ⟨d, h1, rfl⟩ := Option.map_eq_some_iff.1 h
      obtain ⟨g, gs, h0, hd, hg, e, rfl⟩ := (digits_iff _ _ _).1 h1
      rw [e]
      refine .plain l r g gs hl hr fun w hw => ?_
      rcases List.mem_cons.1 hw with rfl | hw
      · exact ⟨h0 rfl, hd⟩
      · exact hg w hw
  · intro h
    cases h with
    | plain l r g gs hl hr hg =>
      have hr := digits_read hg
      simp only [pyInt]
      rw [strip_plain hl ‹_› hg]
      have h1 := (hg g (by simp))
      cases g with
      | nil => exact absurd rfl h1.1
      | cons a t =>
        have ha := h1.2 a (by simp)
        simp only [List.cons_append] at hr ⊢
        split
        · rename_i e; injection e with e _; subst e; exact absurd ha (by decide)
        · rename_i e; injection e with e _; subst e; exact absurd ha (by decide)
        · rw [hr]; rfl
    | plus l r g gs hl hr hg =>
      simp only [pyInt]
      rw [strip_sign (by decide) hl hr hg]
      simp only [digits_read hg]; rfl
    | minus l r g gs hl hr hg =>
      simp only [pyInt]
      rw [strip_sign (by decide) hl hr hg]
      simp only [digits_read hg]; rfl

example : IntText c!" -1_000\t" (-1000) := (c80_int _ _).1 (by decide)
example : ∀ n, ¬ IntText c!"1__0" n ∧ ¬ IntText c!"_1" n ∧ ¬ IntText c!"1_" n ∧ ¬ IntText c!"- 1" n ∧ ¬ IntText c!"1.0" n ∧ ¬ IntText [] n := by
  intro n
  simp only [← c80_int]
  have h1 : pyInt c!"1__0" = none := by decide
  have h2 : pyInt c!"_1" = none := by decide
  have h3 : pyInt c!"1_" = none := by decide
  have h4 : pyInt c!"- 1" = none := by decide
  have h5 : pyInt c!"1.0" = none := by decide
  have h6 : pyInt [] = none := by decide
  simp [h1, h2, h3, h4, h5, h6]

/-- The blanks around a number are Unicode's, but not the separators of ASCII. -/
example : IntText c!"\u3000100\u00a0" 100 := (c80_int _ _).1 (by decide)
example : ∀ n, ¬ IntText c!"100\x1f" n := by
  intro n
  rw [← c80_int, show pyInt c!"100\x1f" = none by decide]
  simp

/-- The quantities of an order after an accepted report line are the whole numbers the line writes. -/
theorem c80_report (o : OrderInfo ν) (l : OrderLine) (hok : (updateOrder o l).2 = .ok ()) :
    ∃ f c : Int, IntText l.filledQty f ∧ IntText l.cancelQty c ∧ (updateOrder o l).1.filled = some f ∧ (updateOrder o l).1.canceled = some c := by
  revert hok
  simp only [updateOrder]
  repeat' split
  all_goals intro hok
  all_goals first | cases hok | skip
  rename_i f hf _ _ _ _ c hc _ _ _
  exact ⟨f, c, (c80_int _ _).1 hf, (c80_int _ _).1 hc, rfl, rfl⟩

/-- Non-vacuity: a quantity with an underscore and one with blanks around it. -/
example : (updateOrder (ν := Int) {} ⟨c!"20240102", c!"093001", c!"2", c!"1_000", c!"0", c!"0", c!" 50 ", c!"77", c!"7", []⟩).2 = .ok () ∧
    (updateOrder (ν := Int) {} ⟨c!"20240102", c!"093001", c!"2", c!"1_000", c!"0", c!"0", c!" 50 ", c!"77", c!"7", []⟩).1.filled = some 1000 ∧
    (updateOrder (ν := Int) {} ⟨c!"20240102", c!"093001", c!"2", c!"1_000", c!"0", c!"0", c!" 50 ", c!"77", c!"7", []⟩).1.canceled = some 50 := by decide +kernel

end Jq
