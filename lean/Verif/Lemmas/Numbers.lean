import Verif.Spec.Numbers
import Verif.Lemmas.Times
import Verif.Lemmas.Lines
/-! Lemmas for C80. -/
namespace Jq

/-- What is left out by `strip()` is blank. -/
theorem stripBy_split (p : Char → Bool) (s : Str) : ∃ l r, s = l ++ stripBy p s ++ r ∧ (∀ c ∈ l, p c = true) ∧ ∀ c ∈ r, p c = true := by
  refine ⟨s.takeWhile p, ((s.dropWhile p).reverse.takeWhile p).reverse, ?_, fun c hc => ?_, fun c hc => ?_⟩
  · simp only [stripBy, rstripBy, lstripBy]
    rw [List.append_assoc, ← List.reverse_append, List.takeWhile_append_dropWhile,
      List.reverse_reverse, List.takeWhile_append_dropWhile]
  · exact List.all_eq_true.1 List.all_takeWhile c hc
  · exact List.all_eq_true.1 (List.all_takeWhile (p := p) (l := (s.dropWhile p).reverse)) c (by simpa using hc)

theorem lstrip_blank {p : Char → Bool} {l s : Str} (hl : ∀ c ∈ l, p c = true) (hs : ∀ c ∈ s.head?, p c = false) : lstripBy p (l ++ s) = s := by
  induction l with
  | nil => exact lstripBy_self hs
  | cons a l ih =>
    rw [lstripBy, List.cons_append, List.dropWhile_cons_of_pos (hl a (by simp))]
    exact ih fun c hc => hl c (by simp [hc])

theorem stripBy_pad {p : Char → Bool} {l s r : Str} (hl : ∀ c ∈ l, p c = true) (hr : ∀ c ∈ r, p c = true) (h0 : s ≠ [])
    (h1 : ∀ c ∈ s.head?, p c = false) (h2 : ∀ c ∈ s.getLast?, p c = false) : stripBy p (l ++ s ++ r) = s := by
  have hh : ∀ c ∈ (s ++ r).head?, p c = false := by
    cases s with
    | nil => exact absurd rfl h0
    | cons a t => simpa using h1
  rw [stripBy, List.append_assoc, lstrip_blank hl hh, rstripBy, List.reverse_append, lstrip_blank (by simpa using hr) (by simpa using h2),
    List.reverse_reverse]

theorem pyStrip_split (s : Str) : ∃ l r, s = l ++ pyStrip s ++ r ∧ (∀ c ∈ l, isSpace c = true) ∧ ∀ c ∈ r, isSpace c = true :=
  stripBy_split isSpace s

theorem pyStrip_pad {l s r : Str} (hl : ∀ c ∈ l, isSpace c = true) (hr : ∀ c ∈ r, isSpace c = true) (h0 : s ≠ [])
    (h1 : ∀ c ∈ s.head?, isSpace c = false) (h2 : ∀ c ∈ s.getLast?, isSpace c = false) : pyStrip (l ++ s ++ r) = s :=
  stripBy_pad hl hr h0 h1 h2

/-- Groups of digits. -/
def Group (w : Str) : Prop := w ≠ [] ∧ ∀ c ∈ w, '0' ≤ c ∧ c ≤ '9'

theorem digits_iff (s ds : Str) (prev : Bool) : digitsUnderscore prev s = some ds ↔
    ∃ (g : Str) (gs : List Str), (prev = false → g ≠ []) ∧ (∀ c ∈ g, '0' ≤ c ∧ c ≤ '9') ∧ (∀ w ∈ gs, Group w) ∧ s = g ++ gs.flatMap ('_' :: ·) ∧ ds = g ++ gs.flatten := by
  induction s generalizing prev ds with
  | nil =>
    constructor
    · intro h
      simp only [digitsUnderscore] at h
      split at h
      · rename_i hp
        injection h with h
        exact ⟨[], [], by simp [hp], by simp, by simp, rfl, h.symm⟩
      · cases h
    · rintro ⟨g, gs, h1, _, _, h4, rfl⟩
      have hg : g = [] := by
        cases g with
        | nil => rfl
        | cons a t => simp at h4
      subst hg
      have hgs : gs = [] := by
        cases gs with
        | nil => rfl
        | cons w ws => simp at h4
      subst hgs
      have hp : prev = true := by
        cases prev with
        | true => rfl
        | false => exact absurd rfl (h1 rfl)
      simp [digitsUnderscore, hp]
  | cons c cs ih =>
    simp only [digitsUnderscore]
    constructor
    · intro h
      split at h
      · rename_i hc
        obtain ⟨ds', h', rfl⟩ := Option.map_eq_some_iff.1 h
        obtain ⟨g, gs, h1, h2, h3, rfl, rfl⟩ := (ih ds' true).1 h'
        refine ⟨c :: g, gs, by simp, ?_, h3, by simp, by simp⟩
        intro x hx
        rcases List.mem_cons.1 hx with rfl | hx
        · exact isDig_iff.1 hc
        · exact h2 x hx
      · split at h
        · rename_i hc hu
          simp only [Bool.and_eq_true, decide_eq_true_eq] at hu
          obtain ⟨g, gs, h1, h2, h3, rfl, rfl⟩ := (ih ds false).1 h
          refine ⟨[], g :: gs, by simp [hu.2], by simp, ?_, by simp [hu.1], by simp⟩
          intro w hw
          rcases List.mem_cons.1 hw with rfl | hw
          · exact ⟨h1 rfl, h2⟩
          · exact h3 w hw
        · cases h
    · rintro ⟨g, gs, h1, h2, h3, h4, rfl⟩
      cases g with
      | nil =>
        cases gs with
        | nil => simp at h4
        | cons w ws =>
          simp only [List.nil_append, List.flatMap_cons, List.cons_append, List.cons.injEq] at h4
          obtain ⟨rfl, rfl⟩ := h4
          have hp : prev = true := by
            cases prev with
            | true => rfl
            | false => exact absurd rfl (h1 rfl)
          obtain ⟨w0, wd⟩ := h3 w (by simp)
          rw [if_neg (by decide), if_pos (by simp [hp]), ih]
          exact ⟨w, ws, fun _ => w0, wd, fun x hx => h3 x (by simp [hx]), rfl, by simp⟩
      | cons a g =>
        simp only [List.cons_append, List.cons.injEq] at h4
        obtain ⟨rfl, rfl⟩ := h4
        rw [if_pos (isDig_iff.2 (h2 c (by simp))), (ih (g ++ gs.flatten) true).2 ⟨g, gs, by simp, fun x hx => h2 x (by simp [hx]), h3, rfl, rfl⟩]
        rfl

end Jq
