import Verif.Lemmas.Str
import Verif.Spec.TimeExpr

namespace Jq

/-- `a` matches exactly the strings satisfying `P`. -/
def Pat.Exact (a : Pat) (P : Str → Prop) : Prop :=
  ∀ s x r, (x, r) ∈ a s ↔ P x ∧ s = x ++ r

theorem pChar_exact (p : Char → Bool) :
    Pat.Exact (pChar p) (fun x => ∃ c, x = [c] ∧ p c = true) := by
  intro s x r
  cases s with
  | nil => simp only [pChar, List.not_mem_nil, false_iff]; rintro ⟨⟨c, rfl, _⟩, h⟩; simp at h
  | cons c cs =>
    simp only [pChar]
    by_cases hp : p c = true
    · simp only [hp, if_true, List.mem_singleton, Prod.mk.injEq]
      constructor
      · rintro ⟨rfl, rfl⟩; exact ⟨⟨c, rfl, hp⟩, rfl⟩
      · rintro ⟨⟨c', rfl, _⟩, h⟩
        simp at h; exact ⟨by rw [h.1], h.2.symm⟩
    · simp only [if_neg hp, List.not_mem_nil, false_iff]
      rintro ⟨⟨c', rfl, hc⟩, h⟩
      simp at h; rw [h.1] at hp; exact hp hc

theorem pSeq_exact {a b : Pat} {P Q : Str → Prop} (ha : a.Exact P) (hb : b.Exact Q) :
    Pat.Exact (pSeq a b) (fun x => ∃ y z, x = y ++ z ∧ P y ∧ Q z) := by
  intro s x r
  simp only [pSeq, List.mem_flatMap, List.mem_map]
  constructor
  · rintro ⟨⟨y, r1⟩, h1, ⟨z, r2⟩, h2, e⟩
    simp at e
    obtain ⟨rfl, rfl⟩ := e
    have h1 := (ha _ _ _).1 h1
    have h2 : Q z ∧ r1 = z ++ r2 := (hb _ _ _).1 h2
    refine ⟨⟨y, z, rfl, h1.1, h2.1⟩, ?_⟩
    rw [h1.2, h2.2, List.append_assoc]
  · rintro ⟨⟨y, z, rfl, hP, hQ⟩, rfl⟩
    exact ⟨(y, z ++ r), (ha _ _ _).2 ⟨hP, by simp⟩, (z, r), (hb _ _ _).2 ⟨hQ, rfl⟩, rfl⟩

theorem pRep_exact {a : Pat} {P : Str → Prop} (ha : a.Exact P) (k : Nat) :
    Pat.Exact (pRep a k)
      (fun x => ∃ xs : List Str, 1 ≤ xs.length ∧ xs.length ≤ k + 1 ∧ (∀ y ∈ xs, P y) ∧ x = xs.flatten) := by
  induction k with
  | zero =>
    intro s x r
    simp only [pRep]
    rw [ha]
    constructor
    · rintro ⟨h, rfl⟩; exact ⟨⟨[x], by simp, by simp, by simpa using h, by simp⟩, rfl⟩
    · rintro ⟨⟨xs, h1, h2, h3, rfl⟩, rfl⟩
      match xs, h1, h2 with
      | [y], _, _ => exact ⟨by simpa using h3, rfl⟩
  | succ k ih =>
    intro s x r
    simp only [pRep, List.mem_flatMap, List.mem_append, List.mem_map, List.mem_singleton]
    constructor
    · rintro ⟨⟨y, r1⟩, h1, h⟩
      have h1 := (ha _ _ _).1 h1
      rcases h with ⟨⟨z, r2⟩, h2, e⟩ | e
      · simp at e
        obtain ⟨rfl, rfl⟩ := e
        obtain ⟨⟨xs, hl, hu, hall, rfl⟩, rfl⟩ := (ih _ _ _).1 h2
        refine ⟨⟨y :: xs, by simp, by simpa using hu, ?_, by simp⟩, ?_⟩
        · intro w hw
          rcases List.mem_cons.1 hw with rfl | hw
          · exact h1.1
          · exact hall w hw
        · rw [h1.2, List.append_assoc]
      · simp at e
        obtain ⟨rfl, rfl⟩ := e
        exact ⟨⟨[x], by simp, by simp, by simpa using h1.1, by simp⟩, h1.2⟩
    · rintro ⟨⟨xs, hl, hu, hall, rfl⟩, rfl⟩
      match xs, hl with
      | y :: ys, _ =>
        refine ⟨(y, ys.flatten ++ r), (ha _ _ _).2 ⟨hall y (by simp), by simp⟩, ?_⟩
        cases ys with
        | nil => right; simp
        | cons z zs =>
          left
          refine ⟨((z :: zs).flatten, r), (ih _ _ _).2 ⟨⟨z :: zs, by simp, by simpa using hu,
            fun w hw => hall w (List.mem_cons_of_mem _ hw), rfl⟩, rfl⟩, by simp⟩

theorem isUnit_iff {c : Char} : isUnit c = true ↔ c = 'h' ∨ c = 'm' ∨ c = 's' := by
  simp [isUnit, or_assoc]

theorem isDig_of_isUnit {c : Char} (h : isUnit c = true) : isDig c = false := by
  rcases isUnit_iff.1 h with rfl | rfl | rfl <;> decide

theorem pChunk_exact :
    Pat.Exact pChunk (fun x => ∃ c : Chunk, c.Valid ∧ x = c.digits ++ [c.unit]) := by
  intro s x r
  rw [show pChunk = pSeq (pRep (pChar isDig) 1) (pChar isUnit) from rfl,
    pSeq_exact (pRep_exact (pChar_exact isDig) 1) (pChar_exact isUnit)]
  refine and_congr_left fun _ => ?_
  constructor
  · rintro ⟨y, z, rfl, ⟨xs, h1, h2, hall, rfl⟩, ⟨u, rfl, hu⟩⟩
    refine ⟨⟨xs.flatten, u⟩, ⟨?_, ?_, isUnit_iff.1 hu⟩, rfl⟩
    · have : ∀ xs : List Str, (∀ y ∈ xs, ∃ c, y = [c] ∧ isDig c = true) → xs.flatten.length = xs.length := by
        intro xs
        induction xs with
        | nil => simp
        | cons a as ih =>
          intro h
          obtain ⟨c, rfl, _⟩ := h a (by simp)
          simp [ih (fun y hy => h y (List.mem_cons_of_mem _ hy))]
      simp only [this xs hall]; omega
    · intro d hd
      simp only [List.mem_flatten] at hd
      obtain ⟨y, hy, hd⟩ := hd
      obtain ⟨c, rfl, hc⟩ := hall y hy
      simp at hd; rw [hd]; exact hc
  · rintro ⟨c, ⟨hl, hd, hu⟩, rfl⟩
    refine ⟨c.digits, [c.unit], rfl, ⟨c.digits.map (fun d => [d]), ?_, ?_, ?_, ?_⟩, ⟨_, rfl, isUnit_iff.2 hu⟩⟩
    · simp; omega
    · simp; omega
    · intro y hy
      simp only [List.mem_map] at hy
      obtain ⟨d, hd', rfl⟩ := hy
      exact ⟨d, rfl, hd d hd'⟩
    · induction c.digits with
      | nil => rfl
      | cons a as ih => simpa using ih

theorem atDollar_iff {s : Str} : atDollar s = true ↔ s = [] ∨ s = ['\n'] := by
  simp [atDollar]

/-- What the offset pattern accepts. -/
theorem offsetMatches_iff (s : Str) :
    offsetMatches s = true ↔ ∃ (cs : List Chunk) (tail : Str), 1 ≤ cs.length ∧ cs.length ≤ 3 ∧
      (∀ c ∈ cs, c.Valid) ∧ (tail = [] ∨ tail = ['\n']) ∧ s = renderChunks cs ++ tail := by
  simp only [offsetMatches, List.any_eq_true]
  constructor
  · rintro ⟨⟨x, r⟩, hm, hd⟩
    obtain ⟨⟨xs, h1, h2, hall, rfl⟩, rfl⟩ := (pRep_exact pChunk_exact 2 _ _ _).1 hm
    have : ∀ xs : List Str, (∀ y ∈ xs, ∃ c : Chunk, c.Valid ∧ y = c.digits ++ [c.unit]) →
        ∃ cs : List Chunk, cs.length = xs.length ∧ (∀ c ∈ cs, c.Valid) ∧ xs.flatten = renderChunks cs := by
      intro xs
      induction xs with
      | nil => intro _; exact ⟨[], rfl, by simp, rfl⟩
      | cons y ys ih =>
        intro h
        obtain ⟨c, hc, rfl⟩ := h y (by simp)
        obtain ⟨cs, hl, hv, he⟩ := ih (fun z hz => h z (List.mem_cons_of_mem _ hz))
        refine ⟨c :: cs, by simp [hl], ?_, by simp [renderChunks, he]⟩
        intro c' hc'
        rcases List.mem_cons.1 hc' with rfl | hc'
        · exact hc
        · exact hv c' hc'
    obtain ⟨cs, hl, hv, he⟩ := this xs hall
    exact ⟨cs, r, by omega, by omega, hv, atDollar_iff.1 hd, by rw [he]⟩
  · rintro ⟨cs, tail, h1, h2, hv, ht, rfl⟩
    refine ⟨(renderChunks cs, tail), (pRep_exact pChunk_exact 2 _ _ _).2 ⟨⟨cs.map (fun c => c.digits ++ [c.unit]),
      by simpa using h1, by simpa using h2, ?_, ?_⟩, rfl⟩, atDollar_iff.2 ht⟩
    · intro y hy
      obtain ⟨c, hc, rfl⟩ := List.mem_map.1 hy
      exact ⟨c, hv c hc, rfl⟩
    · simp [renderChunks, List.flatMap]

theorem chunkAt_chunk {c : Chunk} (h : c.Valid) (r : Str) :
    chunkAt (c.digits ++ c.unit :: r) = some (c.digits, c.unit, r) := by
  obtain ⟨ds, u⟩ := c
  obtain ⟨hl, hd, hu'⟩ := h
  have hu : isUnit u = true := isUnit_iff.2 hu'
  clear hu'
  simp only at hl hd hu ⊢
  match ds, hl with
  | [d1], _ =>
    have h1 := hd d1 (by simp)
    cases r with
    | nil => simp [chunkAt, h1, hu]
    | cons c cs => simp [chunkAt, h1, hu, isDig_of_isUnit hu]
  | [d1, d2], _ => simp [chunkAt, hd d1 (by simp), hd d2 (by simp), hu]
  | [], h => simp at h
  | _ :: _ :: _ :: _, h => simp at h

theorem renderChunks_length (cs : List Chunk) : cs.length ≤ (renderChunks cs).length := by
  induction cs with
  | nil => simp
  | cons c cs ih =>
    simp only [renderChunks, List.flatMap_cons, List.length_append, List.length_cons, List.length_nil] at ih ⊢
    omega

theorem findChunksN_render (cs : List Chunk) (hv : ∀ c ∈ cs, c.Valid) (tail : Str)
    (ht : tail = [] ∨ tail = ['\n']) (n : Nat) (hn : cs.length ≤ n) :
    findChunksN n (renderChunks cs ++ tail) = cs.map fun c => (c.digits, c.unit) := by
  induction cs generalizing n with
  | nil =>
    have h0 : ∀ m, findChunksN m [] = [] := by
      intro m
      induction m with
      | zero => rfl
      | succ m ih => simp [findChunksN, chunkAt, ih]
    rcases ht with rfl | rfl
    · simpa [renderChunks] using h0 n
    · cases n with
      | zero => rfl
      | succ m => simp [findChunksN, chunkAt, renderChunks, h0]
  | cons c cs ih =>
    cases n with
    | zero => simp at hn
    | succ n =>
      have he : renderChunks (c :: cs) ++ tail = c.digits ++ c.unit :: (renderChunks cs ++ tail) := by
        simp [renderChunks]
      rw [he]
      simp only [findChunksN]
      rw [chunkAt_chunk (hv c (by simp))]
      simp only [List.map_cons]
      rw [ih (fun x hx => hv x (List.mem_cons_of_mem _ hx)) n (by simpa using hn)]

theorem findChunks_render (cs : List Chunk) (hv : ∀ c ∈ cs, c.Valid) (tail : Str)
    (ht : tail = [] ∨ tail = ['\n']) :
    findChunks (renderChunks cs ++ tail) = cs.map fun c => (c.digits, c.unit) := by
  apply findChunksN_render cs hv tail ht
  have := renderChunks_length cs
  simp; omega

theorem parseOffset_ok {s : Str} {d : Int} (h : parseOffset s = .ok d) :
    ∃ (cs : List Chunk) (tail : Str), 1 ≤ cs.length ∧ cs.length ≤ 3 ∧
      (∀ c ∈ cs, c.Valid) ∧ (tail = [] ∨ tail = ['\n']) ∧ s = renderChunks cs ++ tail ∧
      d = chunksDelta (cs.map fun c => (c.digits, c.unit)) := by
  simp only [parseOffset] at h
  split at h
  · rename_i hm
    obtain ⟨cs, tail, h1, h2, hv, ht, rfl⟩ := (offsetMatches_iff s).1 hm
    rw [findChunks_render cs hv tail ht] at h
    simp at h
    exact ⟨cs, tail, h1, h2, hv, ht, rfl, h.symm⟩
  · simp at h

theorem parseOffset_render {cs : List Chunk} {tail : Str} (h1 : 1 ≤ cs.length) (h2 : cs.length ≤ 3)
    (hv : ∀ c ∈ cs, c.Valid) (ht : tail = [] ∨ tail = ['\n']) :
    parseOffset (renderChunks cs ++ tail) = .ok (chunksDelta (cs.map fun c => (c.digits, c.unit))) := by
  simp only [parseOffset]
  rw [if_pos ((offsetMatches_iff _).2 ⟨cs, tail, h1, h2, hv, ht, rfl⟩), findChunks_render cs hv tail ht]

theorem unitCount_append (cs : List (Str × Char)) (d : Str) (v u : Char) :
    unitCount (cs ++ [(d, v)]) u = if v = u then natOfDigits d else unitCount cs u := by
  simp only [unitCount, List.reverse_append, List.reverse_cons, List.reverse_nil, List.nil_append,
    List.singleton_append, List.find?_cons]
  by_cases h : v = u <;> simp [h]

theorem unitCount_absent {cs : List (Str × Char)} {u : Char} (h : u ∉ cs.map (·.2)) :
    unitCount cs u = 0 := by
  simp only [unitCount]
  rw [List.find?_eq_none.2]
  intro c hc
  simp only [List.mem_reverse] at hc
  simp only [decide_eq_true_eq]
  intro e
  exact h (List.mem_map.2 ⟨c, hc, e⟩)

theorem unitCount_cons_other {cs : List (Str × Char)} {d : Str} {v u : Char} (h : v ≠ u) :
    unitCount ((d, v) :: cs) u = unitCount cs u := by
  simp only [unitCount, List.reverse_cons, List.find?_append]
  cases hf : List.find? (fun c : Str × Char => decide (c.2 = u)) cs.reverse with
  | some x => simp
  | none => simp [h]

theorem unitCount_cons_same {cs : List (Str × Char)} {d : Str} {u : Char} (h : u ∉ cs.map (·.2)) :
    unitCount ((d, u) :: cs) u = natOfDigits d := by
  have hn : List.find? (fun c : Str × Char => decide (c.2 = u)) cs.reverse = none := by
    rw [List.find?_eq_none]
    intro c hc
    simp only [List.mem_reverse] at hc
    simp only [decide_eq_true_eq]
    intro e
    exact h (List.mem_map.2 ⟨c, hc, e⟩)
  simp only [unitCount, List.reverse_cons, List.find?_append, hn]
  simp

/-- With distinct units the dictionary of counts is the sum of the stated offsets. -/
theorem chunksDelta_distinct {cs : List Chunk} (hv : ∀ c ∈ cs, c.Valid) (hn : (cs.map (·.unit)).Nodup) :
    chunksDelta (cs.map fun c => (c.digits, c.unit)) = totalSeconds cs * secUs := by
  have : ∀ cs : List Chunk, (∀ c ∈ cs, c.Valid) → (cs.map (·.unit)).Nodup →
      (unitCount (cs.map fun c => (c.digits, c.unit)) 'h' : Int) * 3600
      + (unitCount (cs.map fun c => (c.digits, c.unit)) 'm' : Int) * 60
      + (unitCount (cs.map fun c => (c.digits, c.unit)) 's' : Int) = totalSeconds cs := by
    intro cs
    induction cs with
    | nil => intro _ _; rfl
    | cons c cs ih =>
      intro hv hn
      simp only [List.map_cons, List.nodup_cons] at hn
      have ih := ih (fun x hx => hv x (List.mem_cons_of_mem _ hx)) hn.2
      have habs : c.unit ∉ ((cs.map fun c => (c.digits, c.unit)).map (·.2)) := by
        intro hm; apply hn.1
        simpa using hm
      obtain ⟨ds, u⟩ := c
      have hu : u = 'h' ∨ u = 'm' ∨ u = 's' := (hv _ (List.mem_cons_self ..)).2.2
      simp only [totalSeconds, List.map_cons, List.sum_cons] at ih ⊢
      simp only at habs
      have h0 := unitCount_absent habs
      rcases hu with rfl | rfl | rfl
      · rw [unitCount_cons_same habs, unitCount_cons_other (by decide), unitCount_cons_other (by decide), ← ih, h0]
        simp [unitSeconds]; omega
      · rw [unitCount_cons_same habs, unitCount_cons_other (by decide), unitCount_cons_other (by decide), ← ih, h0]
        simp [unitSeconds]; omega
      · rw [unitCount_cons_same habs, unitCount_cons_other (by decide), unitCount_cons_other (by decide), ← ih, h0]
        simp [unitSeconds]; omega
  simp only [chunksDelta]
  rw [this cs hv hn]

theorem splitSign_ne_nil (s : Str) : splitSign s ≠ [] := by
  cases s with
  | nil => simp [splitSign]
  | cons c cs =>
    simp only [splitSign]
    split
    · simp
    · split <;> simp

theorem splitSign_no {s : Str} (h1 : '+' ∉ s) (h2 : '-' ∉ s) : splitSign s = [s] := by
  induction s with
  | nil => rfl
  | cons c cs ih =>
    simp only [List.mem_cons, not_or] at h1 h2
    simp only [splitSign, ih h1.2 h2.2]
    simp [Ne.symm h1.1, Ne.symm h2.1]

theorem splitSign_append {b : Str} {sg : Char} (h1 : '+' ∉ b) (h2 : '-' ∉ b) (hs : sg = '+' ∨ sg = '-')
    (r : Str) : splitSign (b ++ sg :: r) = b :: [sg] :: splitSign r := by
  induction b with
  | nil => simp only [List.nil_append, splitSign]; simp [hs]
  | cons c cs ih =>
    simp only [List.mem_cons, not_or] at h1 h2
    simp only [List.cons_append, splitSign, ih h1.2 h2.2]
    simp [Ne.symm h1.1, Ne.symm h2.1]

theorem splitSign_flatten (s : Str) : (splitSign s).flatten = s := by
  induction s with
  | nil => rfl
  | cons c cs ih =>
    simp only [splitSign]
    split
    · simp [ih]
    · cases hs : splitSign cs with
      | nil => exact absurd hs (splitSign_ne_nil _)
      | cons p ps => rw [hs] at ih; simpa using ih

theorem splitSign_second {s p o : Str} {rest : List Str} (h : splitSign s = p :: o :: rest) :
    o = ['+'] ∨ o = ['-'] := by
  induction s generalizing p with
  | nil => simp [splitSign] at h
  | cons c cs ih =>
    simp only [splitSign] at h
    split at h
    · rename_i hc
      simp at h hc
      rcases hc with rfl | rfl <;> simp [h.2.1.symm]
    · cases hs : splitSign cs with
      | nil => exact absurd hs (splitSign_ne_nil _)
      | cons q qs =>
        rw [hs] at h
        simp at h
        cases qs with
        | nil => simp at h
        | cons q' qs' =>
          simp at h
          rw [h.2.1, h.2.2] at hs
          exact ih hs

theorem not_mem_render {cs : List Chunk} (hv : ∀ c ∈ cs, c.Valid) {x : Char} (hd : isDig x = false)
    (hu : isUnit x = false) : x ∉ renderChunks cs := by
  simp only [renderChunks, List.mem_flatMap, not_exists, not_and]
  intro c hc hm
  obtain ⟨_, h1, h2⟩ := hv c hc
  rcases List.mem_append.1 hm with hm | hm
  · rw [h1 x hm] at hd; cases hd
  · simp at hm
    rw [hm, isUnit_iff.2 h2] at hu; cases hu

end Jq
