import Verif.Spec.JsonText
import Verif.Lemmas.Str
/-! Numbers in JSON texts. -/
namespace Jq

theorem mem_digits (c : Char) : c ∈ c!"0123456789" ↔ isDig c = true := by
  constructor
  · have : ∀ c ∈ c!"0123456789", isDig c = true := by decide
    exact this c
  · intro h
    obtain ⟨h1, h2⟩ := isDig_toNat.1 h
    have key : ∀ k, k < 58 → 48 ≤ k → Char.ofNat k ∈ c!"0123456789" := by decide
    have := key c.toNat (by omega) h1
    rwa [Char.ofNat_toNat] at this

theorem digitsText_iff (s : Str) : DigitsText s ↔ s ≠ [] ∧ ∀ c ∈ s, isDig c = true := by
  simp only [DigitsText, mem_digits]

/-- What follows does not go on with a number. -/
def NumStop (r : Str) : Prop := ∀ c ∈ r.head?, isDig c = false ∧ c ≠ '.' ∧ c ≠ 'e' ∧ c ≠ 'E'

theorem takeWhile_append_head {p : Char → Bool} {l r : Str} (hl : ∀ c ∈ l, p c = true) (hr : ∀ c ∈ r.head?, p c = false) :
    (l ++ r).takeWhile p = l ∧ (l ++ r).dropWhile p = r := by
  induction l with
  | nil =>
    cases r with
    | nil => exact ⟨rfl, rfl⟩
    | cons c r =>
      have := hr c rfl
      simp [this]
  | cons a l ih =>
    have h1 := hl a (by simp)
    have h2 := ih fun c hc => hl c (by simp [hc])
    simp [h1, h2]

theorem takeWhile_digits (s : Str) : s = s.takeWhile isDig ++ s.dropWhile isDig ∧ ∀ c ∈ s.takeWhile isDig, isDig c = true := by
  refine ⟨List.takeWhile_append_dropWhile.symm, ?_⟩
  have := List.all_takeWhile (p := isDig) (l := s)
  rwa [List.all_eq_true] at this

theorem scanWhole_sound {s w r : Str} (h : scanWhole s = some (w, r)) : s = w ++ r ∧ WholeText w := by
  cases s with
  | nil => cases h
  | cons c s =>
    simp only [scanWhole] at h
    split at h
    · rename_i hc
      simp only [Option.some.injEq, Prod.mk.injEq] at h
      obtain ⟨rfl, rfl⟩ := h
      subst hc
      exact ⟨rfl, ⟨by simp, by decide⟩, fun _ => rfl⟩
    · rename_i hc
      split at h
      · rename_i hd
        simp only [Option.some.injEq, Prod.mk.injEq] at h
        obtain ⟨rfl, rfl⟩ := h
        obtain ⟨h1, h2⟩ := takeWhile_digits s
        refine ⟨by rw [List.cons_append, ← h1], (digitsText_iff _).2 ⟨by simp, ?_⟩, ?_⟩
        · intro x hx
          rcases List.mem_cons.1 hx with rfl | hx
          · exact hd
          · exact h2 x hx
        · intro h0; simp only [List.head?_cons, Option.some.injEq] at h0; exact absurd h0 hc
      · cases h

theorem scanWhole_complete {w r : Str} (h : WholeText w) (hr : ∀ c ∈ r.head?, isDig c = false) : scanWhole (w ++ r) = some (w, r) := by
  obtain ⟨h1, h2⟩ := h
  obtain ⟨h3, h4⟩ := (digitsText_iff w).1 h1
  cases w with
  | nil => exact absurd rfl h3
  | cons c w =>
    simp only [List.cons_append, scanWhole]
    split
    · rename_i hc
      subst hc
      have := h2 rfl
      simp only [List.cons.injEq, true_and] at this
      subst this
      rfl
    · obtain ⟨e1, e2⟩ := takeWhile_append_head (p := isDig) (l := w) (r := r) (fun c hc => h4 c (by simp [hc])) hr
      rw [if_pos (h4 c (by simp)), e1, e2]

theorem scanFrac_sound (s : Str) : s = (scanFrac s).1 ++ (scanFrac s).2 ∧ ((scanFrac s).1 = [] ∨ ∃ ds, (scanFrac s).1 = '.' :: ds ∧ DigitsText ds) := by
  cases s with
  | nil => exact ⟨rfl, .inl rfl⟩
  | cons c s =>
    simp only [scanFrac]
    split
    · rename_i h
      obtain ⟨h1, h2⟩ := takeWhile_digits s
      refine ⟨by rw [h.1, List.cons_append, ← h1], .inr ⟨_, rfl, (digitsText_iff _).2 ⟨h.2, h2⟩⟩⟩
    · exact ⟨rfl, .inl rfl⟩

theorem scanFrac_complete {f r : Str} (h : f = [] ∨ ∃ ds, f = '.' :: ds ∧ DigitsText ds) (hr : ∀ c ∈ r.head?, isDig c = false ∧ c ≠ '.') :
    scanFrac (f ++ r) = (f, r) := by
  rcases h with rfl | ⟨ds, rfl, hd⟩
  · cases r with
    | nil => rfl
    | cons c r =>
      simp only [List.nil_append, scanFrac]
      rw [if_neg (fun h => (hr c rfl).2 h.1)]
  · obtain ⟨h1, h2⟩ := (digitsText_iff ds).1 hd
    obtain ⟨e1, e2⟩ := takeWhile_append_head (p := isDig) (l := ds) (r := r) h2 (fun c hc => (hr c hc).1)
    simp only [List.cons_append, scanFrac, e1, e2]
    rw [if_pos ⟨trivial, h1⟩]

theorem scanSign_sound (s : Str) : s = (scanSign s).1 ++ (scanSign s).2 ∧ ((scanSign s).1 = [] ∨ (scanSign s).1 = ['+'] ∨ (scanSign s).1 = ['-']) := by
  cases s with
  | nil => exact ⟨rfl, .inl rfl⟩
  | cons c s =>
    simp only [scanSign]
    split
    · rename_i h
      refine ⟨rfl, ?_⟩
      rcases h with rfl | rfl
      · exact .inr (.inl rfl)
      · exact .inr (.inr rfl)
    · exact ⟨rfl, .inl rfl⟩

theorem scanExp_sound (s : Str) : s = (scanExp s).1 ++ (scanExp s).2 ∧ ExpText (scanExp s).1 := by
  cases s with
  | nil => exact ⟨rfl, .inl rfl⟩
  | cons c s =>
    simp only [scanExp]
    split
    · rename_i h
      obtain ⟨h1, h2⟩ := scanSign_sound s
      obtain ⟨h3, h4⟩ := takeWhile_digits (scanSign s).2
      refine ⟨?_, .inr ⟨c, _, _, rfl, h.1, h2, (digitsText_iff _).2 ⟨h.2, h4⟩⟩⟩
      rw [List.cons_append, List.append_assoc, ← h3, ← h1]
    · exact ⟨rfl, .inl rfl⟩

theorem scanExp_complete {e r : Str} (h : ExpText e) (hr : NumStop r) : scanExp (e ++ r) = (e, r) := by
  rcases h with rfl | ⟨c, sign, ds, rfl, hc, hs, hd⟩
  · cases r with
    | nil => rfl
    | cons c r =>
      simp only [List.nil_append, scanExp]
      rw [if_neg (fun h => h.1.elim (hr c rfl).2.2.1 (hr c rfl).2.2.2)]
  · obtain ⟨h1, h2⟩ := (digitsText_iff ds).1 hd
    obtain ⟨e1, e2⟩ := takeWhile_append_head (p := isDig) (l := ds) (r := r) h2 (fun c hc => (hr c hc).1)
    have es : scanSign (sign ++ (ds ++ r)) = (sign, ds ++ r) := by
      rcases hs with rfl | rfl | rfl
      · cases ds with
        | nil => exact absurd rfl h1
        | cons d ds =>
          have hd := h2 d (by simp)
          simp only [List.nil_append, List.cons_append, scanSign]
          rw [if_neg]
          rintro (rfl | rfl)
          · revert hd; decide
          · revert hd; decide
      · rfl
      · rfl
    rw [List.cons_append, List.append_assoc]
    simp only [scanExp, es, e1, e2]
    rw [if_pos ⟨hc, h1⟩]

theorem scanMinus_sound (s : Str) : s = (scanMinus s).1 ++ (scanMinus s).2 ∧ ((scanMinus s).1 = [] ∨ (scanMinus s).1 = ['-']) := by
  cases s with
  | nil => exact ⟨rfl, .inl rfl⟩
  | cons c s =>
    simp only [scanMinus]
    split
    · rename_i h; subst h; exact ⟨rfl, .inr rfl⟩
    · exact ⟨rfl, .inl rfl⟩

theorem prefix_drop {p s : Str} (h : p.isPrefixOf s = true) : s = p ++ s.drop p.length := by
  rw [List.isPrefixOf_iff_prefix] at h
  obtain ⟨t, rfl⟩ := h
  rw [List.drop_left]

theorem scanNum_sound {s r : Str} {v : JV} (h : scanNum s = some (v, r)) : ∃ l, v = .num l ∧ s = l ++ r ∧ NumberText l := by
  simp only [scanNum] at h
  split at h
  · rename_i hp
    simp only [Option.some.injEq, Prod.mk.injEq] at h
    obtain ⟨rfl, rfl⟩ := h
    exact ⟨_, rfl, prefix_drop hp, .inl rfl⟩
  split at h
  · rename_i hp
    simp only [Option.some.injEq, Prod.mk.injEq] at h
    obtain ⟨rfl, rfl⟩ := h
    exact ⟨_, rfl, prefix_drop hp, .inr (.inl rfl)⟩
  split at h
  · rename_i hp
    simp only [Option.some.injEq, Prod.mk.injEq] at h
    obtain ⟨rfl, rfl⟩ := h
    exact ⟨_, rfl, prefix_drop hp, .inr (.inr (.inl rfl))⟩
  simp only [scanDecimal] at h
  split at h
  · cases h
  · rename_i w s1 hw
    simp only [Option.some.injEq, Prod.mk.injEq] at h
    obtain ⟨rfl, rfl⟩ := h
    obtain ⟨m1, m2⟩ := scanMinus_sound s
    obtain ⟨w1, w2⟩ := scanWhole_sound hw
    obtain ⟨f1, f2⟩ := scanFrac_sound s1
    obtain ⟨x1, x2⟩ := scanExp_sound (scanFrac s1).2
    refine ⟨_, rfl, ?_, .inr (.inr (.inr ⟨_, _, _, _, rfl, m2, w2, f2, x2⟩))⟩
    simp only [List.append_assoc]
    rw [← x1, ← f1, ← w1, ← m1]

theorem whole_head {w : Str} (h : WholeText w) : ∃ c w', w = c :: w' ∧ isDig c = true := by
  obtain ⟨h1, h2⟩ := (digitsText_iff w).1 h.1
  cases w with
  | nil => exact absurd rfl h1
  | cons c w => exact ⟨c, w, rfl, h2 c (by simp)⟩

/-- How a number begins. -/
theorem number_head {l : Str} (h : NumberText l) : ∃ c l', l = c :: l' ∧ (isDig c = true ∨ c = '-' ∨ c = 'N' ∨ c = 'I') := by
  rcases h with rfl | rfl | rfl | ⟨m, w, f, e, rfl, hm, hw, -, -⟩
  · exact ⟨_, _, rfl, by decide⟩
  · exact ⟨_, _, rfl, by decide⟩
  · exact ⟨_, _, rfl, by decide⟩
  · obtain ⟨c, w', rfl, hc⟩ := whole_head hw
    rcases hm with rfl | rfl
    · exact ⟨c, _, rfl, .inl hc⟩
    · exact ⟨'-', _, rfl, by decide⟩

theorem scanNum_complete {l r : Str} (h : NumberText l) (hr : NumStop r) : scanNum (l ++ r) = some (.num l, r) := by
  rcases h with rfl | rfl | rfl | ⟨m, w, f, e, rfl, hm, hw, hf, he⟩
  · rfl
  · rfl
  · rfl
  · have s1 : ∀ c ∈ (e ++ r).head?, isDig c = false ∧ c ≠ '.' := by
      rcases he with rfl | ⟨c, _, _, rfl, hc, -, -⟩
      · exact fun c hc => ⟨(hr c hc).1, (hr c hc).2.1⟩
      · intro d hd
        simp only [List.cons_append, List.head?_cons, Option.mem_def, Option.some.injEq] at hd
        subst hd
        rcases hc with rfl | rfl <;> decide
    have s2 : ∀ c ∈ (f ++ (e ++ r)).head?, isDig c = false := by
      rcases hf with rfl | ⟨_, rfl, -⟩
      · exact fun c hc => (s1 c hc).1
      · intro d hd
        simp only [List.cons_append, List.head?_cons, Option.mem_def, Option.some.injEq] at hd
        subst hd
        decide
    obtain ⟨c, w', hw', hc⟩ := whole_head hw
    have em : scanMinus (m ++ (w ++ (f ++ (e ++ r)))) = (m, w ++ (f ++ (e ++ r))) := by
      rcases hm with rfl | rfl
      · rw [hw']
        simp only [List.nil_append, List.cons_append, scanMinus]
        rw [if_neg]
        rintro rfl
        revert hc; decide
      · rfl
    have hdec : scanDecimal (m ++ (w ++ (f ++ (e ++ r)))) = some (.num (m ++ (w ++ (f ++ e))), r) := by
      simp only [scanDecimal, em, scanWhole_complete hw s2, scanFrac_complete hf s1, scanExp_complete he hr]
    have hne : ∀ d : Char, isDig d = false → ∀ p : Str, (d :: p).isPrefixOf (w ++ (f ++ (e ++ r))) = false := by
      intro d hd p
      rw [Bool.eq_false_iff]
      intro hp
      rw [List.isPrefixOf_iff_prefix, hw'] at hp
      obtain ⟨t, ht⟩ := hp
      simp only [List.cons_append, List.cons.injEq] at ht
      rw [ht.1, hc] at hd
      cases hd
    have assoc : m ++ (w ++ (f ++ e)) ++ r = m ++ (w ++ (f ++ (e ++ r))) := by simp only [List.append_assoc]
    rw [assoc, scanNum, ← hdec]
    rcases hm with rfl | rfl
    · simp only [List.nil_append, hne 'N' rfl, hne 'I' rfl, hne '-' rfl, Bool.false_eq_true, if_false]
    · have h9 : c!"-Infinity".isPrefixOf (['-'] ++ (w ++ (f ++ (e ++ r)))) = false := hne 'I' rfl c!"nfinity"
      simp only [h9, Bool.false_eq_true, if_false]
      rfl

end Jq
