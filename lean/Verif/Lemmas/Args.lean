import Verif.Spec.CommandLine
/-! Reading option words. -/
namespace Jq

private theorem digit_iff (c : Char) : c.isDigit = true ↔ '0' ≤ c ∧ c ≤ '9' := by
  simp [Char.isDigit, Char.le_def]

private theorem dropWhile_app {p : Char → Bool} {x y : Str} (hx : ∀ c ∈ x, p c = true) (hy : ∀ c ∈ y.head?, p c = false) :
    (x ++ y).dropWhile p = y := by
  induction x with
  | nil =>
    cases y with
    | nil => rfl
    | cons c y => simp [hy c (by simp)]
  | cons a x ih =>
    rw [List.cons_append, List.dropWhile_cons_of_pos (hx a (by simp))]
    exact ih fun c hc => hx c (by simp [hc])

private theorem takeWhile_app {p : Char → Bool} {x y : Str} (hx : ∀ c ∈ x, p c = true) (hy : ∀ c ∈ y.head?, p c = false) :
    (x ++ y).takeWhile p = x := by
  induction x with
  | nil =>
    cases y with
    | nil => rfl
    | cons c y => simp [hy c (by simp)]
  | cons a x ih =>
    rw [List.cons_append, List.takeWhile_cons_of_pos (hx a (by simp)), ih fun c hc => hx c (by simp [hc])]

/-- The words taken for negative numbers. -/
theorem looksNegative_iff (a : Str) : looksNegative a = true ↔ NegativeNumber a := by
  -- without the line end
  have core : ∀ t : Str, (match t with
      | '-' :: ds =>
        (match ds.dropWhile Char.isDigit with
        | [] => decide (ds.takeWhile Char.isDigit ≠ [])
        | '.' :: b => decide (b ≠ []) && b.all Char.isDigit
        | _ => false)
      | _ => false) = true ↔
      ∃ w, t = '-' :: w ∧ ((w ≠ [] ∧ ∀ c ∈ w, '0' ≤ c ∧ c ≤ '9') ∨
        ∃ x y : Str, w = x ++ '.' :: y ∧ y ≠ [] ∧ ∀ c ∈ x ++ y, '0' ≤ c ∧ c ≤ '9') := by
    intro t
    constructor
    · intro h
      split at h
      · rename_i ds
        refine ⟨ds, rfl, ?_⟩
        have hsplit := List.takeWhile_append_dropWhile (p := Char.isDigit) (l := ds)
        have hdig : ∀ c ∈ ds.takeWhile Char.isDigit, '0' ≤ c ∧ c ≤ '9' := fun c hc =>
          (digit_iff c).1 (List.all_eq_true.1 List.all_takeWhile c hc)
        split at h
        · rename_i e
          rw [e, List.append_nil] at hsplit
          rw [hsplit] at h hdig
          exact .inl ⟨by simpa using h, hdig⟩
        · rename_i b e
          simp only [Bool.and_eq_true, decide_eq_true_eq, List.all_eq_true] at h
          refine .inr ⟨ds.takeWhile Char.isDigit, b, ?_, h.1, ?_⟩
          · rw [← e, hsplit]
          · intro c hc
            rcases List.mem_append.1 hc with hc | hc
            · exact hdig c hc
            · exact (digit_iff c).1 (h.2 c hc)
        · cases h
      · cases h
    · rintro ⟨w, rfl, ⟨h0, hd⟩ | ⟨x, y, rfl, h0, hd⟩⟩
      · have h1 := dropWhile_app (p := Char.isDigit) (x := w) (y := []) (fun c hc => (digit_iff c).2 (hd c hc)) (by simp)
        have h2 := takeWhile_app (p := Char.isDigit) (x := w) (y := []) (fun c hc => (digit_iff c).2 (hd c hc)) (by simp)
        rw [List.append_nil] at h1 h2
        simp only [h1, h2]
        simpa using h0
      · have h1 := dropWhile_app (p := Char.isDigit) (x := x) (y := '.' :: y) (fun c hc => (digit_iff c).2 (hd c (by simp [hc])))
          (by simp)
        simp only [h1, Bool.and_eq_true, decide_eq_true_eq, List.all_eq_true]
        exact ⟨h0, fun c hc => (digit_iff c).2 (hd c (by simp [hc]))⟩
  have noEnd : ∀ w : Str, ((w ≠ [] ∧ ∀ c ∈ w, '0' ≤ c ∧ c ≤ '9') ∨
        ∃ x y : Str, w = x ++ '.' :: y ∧ y ≠ [] ∧ ∀ c ∈ x ++ y, '0' ≤ c ∧ c ≤ '9') → '\n' ∉ w := by
    rintro w (⟨_, hd⟩ | ⟨x, y, rfl, _, hd⟩) hm
    · exact absurd (hd _ hm) (by decide)
    · simp only [List.mem_append, List.mem_cons] at hm
      rcases hm with hm | hm | hm
      · exact absurd (hd '\n' (by simp [hm])) (by decide)
      · exact absurd hm (by decide)
      · exact absurd (hd '\n' (by simp [hm])) (by decide)
  have hl : looksNegative a = true ↔ ∃ w, (if a.getLast? = some '\n' then a.dropLast else a) = '-' :: w ∧ ((w ≠ [] ∧ ∀ c ∈ w, '0' ≤ c ∧ c ≤ '9') ∨
        ∃ x y : Str, w = x ++ '.' :: y ∧ y ≠ [] ∧ ∀ c ∈ x ++ y, '0' ≤ c ∧ c ≤ '9') := by
    rw [← core]
    rfl
  rw [hl]
  constructor
  · rintro ⟨w, e, hw⟩
    split at e
    · rename_i hn
      refine ⟨w, ['\n'], ?_, .inr rfl, hw⟩
      rw [← e]
      obtain ⟨l, rfl⟩ := List.getLast?_eq_some_iff.1 hn
      simp
    · exact ⟨w, [], by rw [e]; simp, .inl rfl, hw⟩
  · rintro ⟨w, e, rfl, rfl | rfl, hw⟩
    · refine ⟨w, ?_, hw⟩
      rw [List.append_nil, if_neg]
      intro h
      have := List.mem_of_getLast? h
      rcases List.mem_cons.1 this with h' | h'
      · exact absurd h' (by decide)
      · exact noEnd w hw h'
    · refine ⟨w, ?_, hw⟩
      have e : '-' :: w ++ ['\n'] = ('-' :: w) ++ ['\n'] := rfl
      rw [e, List.getLast?_append, if_pos (by rfl), List.dropLast_concat]


/-- The option words of the lines of a help text. -/
def tableOf (H : List HelpLine) : Parser :=
  H.flatMap fun l => (match l.letter with
    | some c => [(['-', c], l.dest)]
    | none => []) ++ [(l.long, l.dest)]

/-- What the parsers here have in common. -/
structure HelpOk (H : List HelpLine) : Prop where
  nodup : (tableOf H).Nodup
  long : ∀ l ∈ H, l.long.take 2 = c!"--" ∧ '=' ∉ l.long
  letter : ∀ l ∈ H, l.letter ≠ some '-' ∧ l.letter ≠ some '='
  letters : ∀ l ∈ H, ∀ l' ∈ H, l.letter.isSome = true → l.letter = l'.letter → l = l'
  longs : ∀ l ∈ H, ∀ l' ∈ H, l.long <+: l'.long → l = l'
  others : ∀ l ∈ H, ∃ l' ∈ H, l' ≠ l

theorem startHelp_ok : HelpOk startHelp :=
  ⟨by decide, by decide, by decide, by decide, by decide, by decide⟩
theorem stopHelp_ok : HelpOk stopHelp :=
  ⟨by decide, by decide, by decide, by decide, by decide, by decide⟩
theorem startParser_table : startParser = tableOf startHelp := by decide
theorem stopParser_table : stopParser = tableOf stopHelp := by decide

theorem partitionEq_some (a w v : Str) : partitionEq a = some (w, v) ↔ a = w ++ '=' :: v ∧ '=' ∉ w := by
  induction a generalizing w with
  | nil => simp [partitionEq]
  | cons c a ih =>
    simp only [partitionEq]
    split
    · rename_i h; subst h
      constructor
      · intro h; cases h; simp
      · rintro ⟨h1, h2⟩
        cases w with
        | nil => simp at h1; simp [h1]
        | cons x w => simp at h1 h2; exact absurd h1.1 h2.1
    · rename_i h
      cases w with
      | nil => simp [h]
      | cons x w =>
        simp only [Option.map_eq_some_iff, Prod.mk.injEq, List.cons.injEq, List.cons_append, List.mem_cons, not_or]
        constructor
        · rintro ⟨⟨w', v'⟩, h1, ⟨rfl, rfl⟩, rfl⟩
          have := (ih _).1 h1
          exact ⟨⟨rfl, this.1⟩, fun e => h e.symm, this.2⟩
        · rintro ⟨⟨rfl, h1⟩, h2, h3⟩
          exact ⟨(w, v), (ih w).2 ⟨h1, h3⟩, ⟨rfl, rfl⟩, rfl⟩

theorem partitionEq_none (a : Str) : partitionEq a = none ↔ '=' ∉ a := by
  induction a with
  | nil => simp [partitionEq]
  | cons c a ih =>
    simp only [partitionEq]
    split
    · rename_i h; simp [h]
    · rename_i h
      simp only [Option.map_eq_none_iff, ih, List.mem_cons, not_or]
      exact ⟨fun h2 => ⟨fun e => h e.symm, h2⟩, fun h2 => h2.2⟩

theorem takeWhile_noEq {a : Str} (h : '=' ∉ a) : (a.takeWhile fun c => c != '=') = a := by
  induction a with
  | nil => rfl
  | cons c a ih =>
    simp only [List.mem_cons, not_or] at h
    rw [List.takeWhile_cons, if_pos (by simpa using fun e => h.1 e.symm), ih h.2]

theorem takeWhile_eq {w v : Str} (h : '=' ∉ w) : ((w ++ '=' :: v).takeWhile fun c => c != '=') = w := by
  induction w with
  | nil => rfl
  | cons c w ih =>
    simp only [List.mem_cons, not_or] at h
    rw [List.cons_append, List.takeWhile_cons, if_pos (by simpa using fun e => h.1 e.symm), ih h.2]

theorem filter_one {α : Type} {l : List α} (hn : l.Nodup) {P : α → Bool} {x : α} :
    l.filter P = [x] ↔ x ∈ l ∧ P x = true ∧ ∀ y ∈ l, P y = true → y = x := by
  constructor
  · intro h
    have hx : x ∈ l.filter P := by rw [h]; simp
    rw [List.mem_filter] at hx
    refine ⟨hx.1, hx.2, fun y hy hp => ?_⟩
    have : y ∈ l.filter P := List.mem_filter.2 ⟨hy, hp⟩
    rw [h] at this
    simpa using this
  · rintro ⟨h1, h2, h3⟩
    have hm : x ∈ l.filter P := List.mem_filter.2 ⟨h1, h2⟩
    have hn' : (l.filter P).Nodup := hn.filter _
    have h4 : ∀ y ∈ l.filter P, y = x := fun y hy => h3 y (List.mem_filter.1 hy).1 (List.mem_filter.1 hy).2
    generalize l.filter P = m at hm hn' h4
    cases m with
    | nil => cases hm
    | cons y m =>
      have := h4 y (by simp); subst this
      cases m with
      | nil => rfl
      | cons z m =>
        have := h4 z (by simp); subst this
        simp at hn'

theorem mem_tableOf {H : List HelpLine} {w : Str} {d : Dest} :
    (w, d) ∈ tableOf H ↔ ∃ l ∈ H, l.dest = d ∧ (w = l.long ∨ ∃ c, l.letter = some c ∧ w = ['-', c]) := by
  simp only [tableOf, List.mem_flatMap, List.mem_append, List.mem_singleton, Prod.mk.injEq]
  constructor
  · rintro ⟨l, hl, h | ⟨h1, h2⟩⟩
    · cases hc : l.letter with
      | none => rw [hc] at h; cases h
      | some c =>
        rw [hc] at h
        simp only [List.mem_singleton, Prod.mk.injEq] at h
        exact ⟨l, hl, h.2.symm, .inr ⟨c, hc, h.1⟩⟩
    · exact ⟨l, hl, h2.symm, .inl h1⟩
  · rintro ⟨l, hl, rfl, rfl | ⟨c, hc, rfl⟩⟩
    · exact ⟨l, hl, .inr ⟨rfl, rfl⟩⟩
    · exact ⟨l, hl, .inl (by rw [hc]; simp)⟩

section
variable {H : List HelpLine} (ok : HelpOk H)
include ok

theorem long_shape {l : HelpLine} (hl : l ∈ H) : ∃ s, l.long = '-' :: '-' :: s ∧ '=' ∉ s := by
  have := ok.long l hl
  match h : l.long with
  | [] => rw [h] at this; simp at this
  | [c] => rw [h] at this; simp at this
  | a :: b :: s =>
    rw [h] at this
    simp only [List.take_succ_cons, List.take_zero, List.mem_cons, not_or] at this
    obtain ⟨h1, _, _, h2⟩ := this
    simp at h1
    obtain ⟨rfl, rfl⟩ := h1
    exact ⟨s, rfl, h2⟩

theorem letter_ne {l : HelpLine} (hl : l ∈ H) {c : Char} (h : l.letter = some c) : c ≠ '-' ∧ c ≠ '=' := by
  have := ok.letter l hl
  rw [h] at this
  exact ⟨fun e => this.1 (by rw [e]), fun e => this.2 (by rw [e])⟩

theorem table_fun {w : Str} {d d' : Dest} (h : (w, d) ∈ tableOf H) (h' : (w, d') ∈ tableOf H) : d = d' := by
  obtain ⟨l, hl, rfl, hw⟩ := mem_tableOf.1 h
  obtain ⟨l', hl', rfl, hw'⟩ := mem_tableOf.1 h'
  rcases hw with hw | ⟨c, hc, hw⟩ <;> rcases hw' with hw' | ⟨c', hc', hw'⟩
  · rw [ok.longs l hl l' hl' (by rw [← hw, ← hw']; exact List.prefix_refl _)]
  · obtain ⟨s, hs, _⟩ := long_shape ok hl
    rw [← hw, hw'] at hs
    simp at hs
    exact absurd hs.1 (letter_ne ok hl' hc').1
  · obtain ⟨s, hs, _⟩ := long_shape ok hl'
    rw [← hw', hw] at hs
    simp at hs
    exact absurd hs.1 (letter_ne ok hl hc).1
  · rw [hw] at hw'
    simp at hw'
    subst hw'
    rw [ok.letters l hl l' hl' (by rw [hc]; rfl) (by rw [hc, hc'])]

theorem dget_table {w : Str} {d : Dest} : dget (tableOf H) w = some d ↔ (w, d) ∈ tableOf H := by
  have hf : ∀ d d', (w, d) ∈ tableOf H → (w, d') ∈ tableOf H → d = d' := fun d d' => table_fun ok
  generalize tableOf H = t at hf
  induction t with
  | nil => simp [dget]
  | cons e t ih =>
    obtain ⟨k, v⟩ := e
    simp only [dget, List.mem_cons, Prod.mk.injEq]
    split
    · rename_i h; subst h
      simp only [Option.some.injEq, true_and]
      constructor
      · intro h; exact .inl h.symm
      · rintro (h | h)
        · exact h.symm
        · exact hf v d (by simp) (by simp [h])
    · rename_i h
      have ih' := ih fun d d' h1 h2 => hf d d' (List.mem_cons_of_mem _ h1) (List.mem_cons_of_mem _ h2)
      refine ih'.trans ?_
      constructor
      · exact .inr
      · rintro (⟨h1, _⟩ | h1)
        · exact absurd h1.symm h
        · exact h1

theorem dget_table_none {w : Str} : dget (tableOf H) w = none ↔ ∀ d, (w, d) ∉ tableOf H := by
  constructor
  · intro h d hd
    rw [(dget_table ok).2 hd] at h
    cases h
  · intro h
    cases hd : dget (tableOf H) w with
    | none => rfl
    | some d => exact absurd ((dget_table ok).1 hd) (h d)

theorem table_noEq {w : Str} {d : Dest} (h : (w, d) ∈ tableOf H) : '=' ∉ w := by
  obtain ⟨l, hl, _, rfl | ⟨c, hc, rfl⟩⟩ := mem_tableOf.1 h
  · exact (ok.long l hl).2
  · have := (letter_ne ok hl hc).2
    simp only [List.mem_cons, List.not_mem_nil, or_false, not_or]
    exact ⟨by decide, fun e => this e.symm⟩

theorem abbrev_shape {l : HelpLine} (hl : l ∈ H) {w : Str} (h : Abbrev H w l) : ∃ s, w = '-' :: '-' :: s ∧ '=' ∉ s := by
  obtain ⟨s, hs, hq⟩ := long_shape ok hl
  obtain ⟨l', hl', hne⟩ := ok.others l hl
  obtain ⟨s', hs', hq'⟩ := long_shape ok hl'
  have h1 := h.1
  rw [hs] at h1
  match w, h with
  | [], h => exact absurd (h.2 l' hl' List.nil_prefix) hne
  | [c], h =>
    have : c = '-' := by simpa using h1
    subst this
    exact absurd (h.2 l' hl' (by rw [hs']; simp)) hne
  | c :: d :: t, h =>
    have : c = '-' ∧ d = '-' ∧ t <+: s := by
      rw [List.cons_prefix_cons, List.cons_prefix_cons] at h1
      exact h1
    obtain ⟨rfl, rfl, h2⟩ := this
    exact ⟨t, rfl, fun h => hq (h2.subset h)⟩

/-- The long words that begin with `--…`. -/
theorem filter_long {s : Str} {l : HelpLine} (hl : l ∈ H) (h : Abbrev H ('-' :: '-' :: s) l) :
    ((tableOf H).filter fun e => ('-' :: '-' :: s).isPrefixOf e.1) = [(l.long, l.dest)] := by
  rw [filter_one ok.nodup]
  refine ⟨mem_tableOf.2 ⟨l, hl, rfl, .inl rfl⟩, List.isPrefixOf_iff_prefix.2 h.1, ?_⟩
  rintro ⟨w, d⟩ hy hp
  have hp := List.isPrefixOf_iff_prefix.1 hp
  obtain ⟨l', hl', rfl, rfl | ⟨c, hc, rfl⟩⟩ := mem_tableOf.1 hy
  · rw [h.2 l' hl' hp]
  · simp only [List.cons_prefix_cons] at hp
    exact absurd hp.2.1.symm (letter_ne ok hl' hc).1

theorem filter_long_inv {s : Str} {e : Str × Dest}
    (h : ((tableOf H).filter fun e => ('-' :: '-' :: s).isPrefixOf e.1) = [e]) : ∃ l ∈ H, e = (l.long, l.dest) ∧ Abbrev H ('-' :: '-' :: s) l := by
  rw [filter_one ok.nodup] at h
  obtain ⟨h1, h2, h3⟩ := h
  obtain ⟨w, d⟩ := e
  have h2 := List.isPrefixOf_iff_prefix.1 h2
  obtain ⟨l, hl, rfl, rfl | ⟨c, hc, rfl⟩⟩ := mem_tableOf.1 h1
  · refine ⟨l, hl, rfl, h2, fun l' hl' hp => ?_⟩
    have := h3 (l'.long, l'.dest) (mem_tableOf.2 ⟨l', hl', rfl, .inl rfl⟩) (List.isPrefixOf_iff_prefix.2 hp)
    simp only [Prod.mk.injEq] at this
    exact ok.longs l' hl' l hl (by rw [this.1]; exact List.prefix_refl _)
  · simp only [List.cons_prefix_cons] at h2
    exact absurd h2.2.1.symm (letter_ne ok hl hc).1

omit ok in
theorem tuples_long (s : Str) :
    optionTuples (tableOf H) ('-' :: '-' :: s) =
      ((tableOf H).filter fun e => (('-' :: '-' :: s).takeWhile fun c => c != '=').isPrefixOf e.1).map
        fun e => (e.2, e.1, (partitionEq ('-' :: '-' :: s)).map (·.2)) := by
  unfold optionTuples
  rw [if_pos (by simp)]
  cases hp : partitionEq ('-' :: '-' :: s) with
  | none => rw [takeWhile_noEq ((partitionEq_none _).1 hp)]
  | some q =>
    obtain ⟨w, v⟩ := q
    obtain ⟨h1, h2⟩ := (partitionEq_some _ _ _).1 hp
    simp only [h1, takeWhile_eq h2]

/-- The short options that begin with the letter `x`. -/
theorem tuples_short {x : Char} {s : Str} (hx : x ≠ '-') :
    optionTuples (tableOf H) ('-' :: x :: s) =
      ((tableOf H).filter fun e => decide (e.1 = ['-', x])).map fun e => (e.2, e.1, some s) := by
  unfold optionTuples
  rw [if_neg (by simpa using hx)]
  have hm : ∀ e ∈ tableOf H, (if e.1 = ('-' :: x :: s).take 2 then some (e.2, e.1, some (('-' :: x :: s).drop 2))
      else if ('-' :: x :: s).isPrefixOf e.1 then some (e.2, e.1, none) else none) =
      if e.1 = ['-', x] then some (e.2, e.1, some s) else none := by
    rintro ⟨w, d⟩ he
    have e1 : ('-' :: x :: s).take 2 = ['-', x] := rfl
    have e2 : ('-' :: x :: s).drop 2 = s := rfl
    rw [e1, e2]
    split
    · rfl
    · rename_i hne
      rw [if_neg]
      intro hp
      have hp := List.isPrefixOf_iff_prefix.1 hp
      obtain ⟨l, hl, _, rfl | ⟨c, hc, rfl⟩⟩ := mem_tableOf.1 he
      · obtain ⟨t, ht, _⟩ := long_shape ok hl
        rw [ht] at hp
        simp only [List.cons_prefix_cons] at hp
        exact hx hp.2.1
      · simp only [List.cons_prefix_cons, List.prefix_nil] at hp
        exact hne (by rw [hp.2.1])
  generalize tableOf H = t at hm
  induction t with
  | nil => rfl
  | cons e t ih =>
    rw [List.filterMap_cons, hm e (by simp), List.filter_cons, ih fun e he => hm e (by simp [he])]
    by_cases h : e.1 = ['-', x]
    · simp [h]
    · simp [h]

theorem tuples_short_one {l : HelpLine} (hl : l ∈ H) {x : Char} {s : Str} (hc : l.letter = some x) :
    optionTuples (tableOf H) ('-' :: x :: s) = [(l.dest, ['-', x], some s)] := by
  rw [tuples_short ok (letter_ne ok hl hc).1]
  have : ((tableOf H).filter fun e => decide (e.1 = ['-', x])) = [(['-', x], l.dest)] := by
    have hm : (['-', x], l.dest) ∈ tableOf H := mem_tableOf.2 ⟨l, hl, rfl, .inr ⟨x, hc, rfl⟩⟩
    rw [filter_one ok.nodup]
    refine ⟨hm, by simp, ?_⟩
    rintro ⟨w, d⟩ hy hp
    simp only [decide_eq_true_eq] at hp
    subst hp
    rw [table_fun ok hy hm]
  rw [this]
  rfl

/-- The word that stands for an option in full. -/
inductive FullWord (l : HelpLine) : Str → Prop
  | short (c : Char) : l.letter = some c → FullWord l ['-', c]
  | long : FullWord l l.long

end

/-! ## Option words are taken for what they are -/
section
variable {H : List HelpLine} (ok : HelpOk H)
include ok

private theorem classify_exact {a : Str} {d : Dest} (h : (a, d) ∈ tableOf H) : classify (tableOf H) a = .option d a none := by
  unfold classify
  rw [if_neg, (dget_table ok).2 h]
  obtain ⟨l, hl, _, rfl | ⟨c, hc, rfl⟩⟩ := mem_tableOf.1 h
  · obtain ⟨s, hs, _⟩ := long_shape ok hl
    simp [hs]
  · simp

/-- A word that is not itself an option word, begins with `-` and is longer. -/
private theorem classify_rest {x : Char} {s : Str} (h : ∀ d, ('-' :: x :: s, d) ∉ tableOf H) :
    classify (tableOf H) ('-' :: x :: s) =
      match (partitionEq ('-' :: x :: s)).bind fun s => (dget (tableOf H) s.1).map fun d => (d, s.1, s.2) with
      | some (d, w, v) => .option d w (some v)
      | none =>
        match optionTuples (tableOf H) ('-' :: x :: s) with
        | [(d, w, v)] => .option d w v
        | _ :: _ :: _ => .ambiguous
        | [] => if looksNegative ('-' :: x :: s) || ('-' :: x :: s).contains ' ' then .value else .unknown := by
  unfold classify
  rw [if_neg (by simp), (dget_table_none ok).2 h]
  simp only []
  rw [if_neg (by simp)]
  rfl

theorem classify_short {l : HelpLine} (hl : l ∈ H) {c : Char} (hc : l.letter = some c) :
    classify (tableOf H) ['-', c] = .option l.dest ['-', c] none :=
  classify_exact ok (mem_tableOf.2 ⟨l, hl, rfl, .inr ⟨c, hc, rfl⟩⟩)

theorem classify_shortJoined {l : HelpLine} (hl : l ∈ H) {c : Char} (hc : l.letter = some c) {v : Str} (hv : v ≠ []) (he : v.head? ≠ some '=') :
    classify (tableOf H) ('-' :: c :: v) = .option l.dest ['-', c] (some v) := by
  have hc' := letter_ne ok hl hc
  rw [classify_rest ok]
  · rw [tuples_short_one ok hl hc]
    have : ((partitionEq ('-' :: c :: v)).bind fun s => (dget (tableOf H) s.1).map fun d => (d, s.1, s.2)) = none := by
      rw [Option.bind_eq_none_iff]
      rintro ⟨w, u⟩ hp
      obtain ⟨h1, _⟩ := (partitionEq_some _ _ _).1 hp
      rw [Option.map_eq_none_iff, dget_table_none ok]
      intro d hd
      obtain ⟨l', hl', _, rfl | ⟨c', _, rfl⟩⟩ := mem_tableOf.1 hd
      · obtain ⟨t, ht, _⟩ := long_shape ok hl'
        rw [ht] at h1
        simp at h1
        exact hc'.1 h1.1
      · simp at h1
        rw [h1.2] at he
        exact he rfl
    rw [this]
  · intro d hd
    obtain ⟨l', hl', _, h | ⟨c', _, h⟩⟩ := mem_tableOf.1 hd
    · obtain ⟨t, ht, _⟩ := long_shape ok hl'
      rw [ht] at h
      simp at h
      exact hc'.1 h.1
    · simp at h
      exact hv h.2

theorem classify_shortEq {l : HelpLine} (hl : l ∈ H) {c : Char} (hc : l.letter = some c) (v : Str) :
    classify (tableOf H) ('-' :: c :: '=' :: v) = .option l.dest ['-', c] (some v) := by
  have hc' := letter_ne ok hl hc
  rw [classify_rest ok]
  · have h1 : partitionEq ('-' :: c :: '=' :: v) = some (['-', c], v) := by
      rw [partitionEq_some]
      refine ⟨rfl, ?_⟩
      simp only [List.mem_cons, List.not_mem_nil, or_false, not_or]
      exact ⟨by decide, fun e => hc'.2 e.symm⟩
    rw [h1, Option.bind_some, (dget_table ok).2 (mem_tableOf.2 ⟨l, hl, rfl, .inr ⟨c, hc, rfl⟩⟩)]
    rfl
  · intro d hd
    exact table_noEq ok hd (by simp)

theorem classify_long {l : HelpLine} (hl : l ∈ H) {w : Str} (h : Abbrev H w l) :
    classify (tableOf H) w = .option l.dest l.long none := by
  by_cases hd : ∃ d, (w, d) ∈ tableOf H
  · obtain ⟨d, hd⟩ := hd
    rw [classify_exact ok hd]
    obtain ⟨l', hl', rfl, rfl | ⟨c, hc, rfl⟩⟩ := mem_tableOf.1 hd
    · rw [h.2 l' hl' (List.prefix_refl _)]
    · obtain ⟨t, ht, _⟩ := abbrev_shape ok hl h
      simp at ht
      exact absurd ht.1 (letter_ne ok hl' hc).1
  · obtain ⟨t, rfl, hq⟩ := abbrev_shape ok hl h
    have hq' : '=' ∉ '-' :: '-' :: t := by
      simp only [List.mem_cons, not_or]
      exact ⟨by decide, by decide, hq⟩
    rw [classify_rest ok fun d hd' => hd ⟨d, hd'⟩, tuples_long, (partitionEq_none _).2 hq', takeWhile_noEq hq', filter_long ok hl h]
    rfl

theorem classify_longEq {l : HelpLine} (hl : l ∈ H) {w : Str} (h : Abbrev H w l) (v : Str) :
    classify (tableOf H) (w ++ '=' :: v) = .option l.dest l.long (some v) := by
  obtain ⟨t, rfl, hq⟩ := abbrev_shape ok hl h
  have hq' : '=' ∉ '-' :: '-' :: t := by
    simp only [List.mem_cons, not_or]
    exact ⟨by decide, by decide, hq⟩
  have hp : partitionEq ('-' :: '-' :: t ++ '=' :: v) = some ('-' :: '-' :: t, v) := (partitionEq_some _ _ _).2 ⟨rfl, hq'⟩
  have ht := takeWhile_eq (v := v) hq'
  simp only [List.cons_append] at hp ht ⊢
  rw [classify_rest ok, hp, Option.bind_some]
  · cases hd : dget (tableOf H) ('-' :: '-' :: t) with
    | some d =>
      obtain ⟨l', hl', rfl, h1 | ⟨c, hc, h1⟩⟩ := mem_tableOf.1 ((dget_table ok).1 hd)
      · have := h.2 l' hl' (by rw [h1]; exact List.prefix_refl _)
        subst this
        rw [h1]
        rfl
      · simp at h1
        exact absurd h1.1.symm (letter_ne ok hl' hc).1
    | none =>
      rw [tuples_long, hp, ht, filter_long ok hl h]
      rfl
  · intro d hd
    exact table_noEq ok hd (by simp)

/-- Every way of writing an option is recognised. -/
theorem classify_optWord {l : HelpLine} (hl : l ∈ H) {a : Str} {e : Option Str} (h : OptWord H l a e) :
    ∃ w, FullWord l w ∧ classify (tableOf H) a = .option l.dest w e := by
  cases h with
  | short c hc => exact ⟨_, .short c hc, classify_short ok hl hc⟩
  | shortJoined c v hc hv he => exact ⟨_, .short c hc, classify_shortJoined ok hl hc hv he⟩
  | shortEq c v hc => exact ⟨_, .short c hc, classify_shortEq ok hl hc v⟩
  | long w h => exact ⟨_, .long, classify_long ok hl h⟩
  | longEq w v h => exact ⟨_, .long, classify_longEq ok hl h v⟩

/-- A word taken for an option is one of the ways of writing it. -/
theorem optWord_of_classify {a : Str} {d : Dest} {w : Str} {e : Option Str} (h : classify (tableOf H) a = .option d w e) :
    ∃ l ∈ H, l.dest = d ∧ FullWord l w ∧ OptWord H l a e := by
  by_cases hx : ∃ d, (a, d) ∈ tableOf H
  · obtain ⟨d', hd'⟩ := hx
    rw [classify_exact ok hd'] at h
    cases h
    obtain ⟨l, hl, rfl, rfl | ⟨c, hc, rfl⟩⟩ := mem_tableOf.1 hd'
    · exact ⟨l, hl, rfl, .long, .long _ ⟨List.prefix_refl _, fun l' hl' hp => (ok.longs l hl l' hl' hp).symm⟩⟩
    · exact ⟨l, hl, rfl, .short c hc, .short c hc⟩
  · have hx : ∀ d, (a, d) ∉ tableOf H := fun d hd => hx ⟨d, hd⟩
    match a, h, hx with
    | [], h, _ => simp [classify] at h
    | [x], h, hx =>
      unfold classify at h
      rw [(dget_table_none ok).2 hx] at h
      simp at h
    | y :: x :: s, h, hx =>
      by_cases hy : y = '-'
      · subst hy
        rw [classify_rest ok hx] at h
        split at h
        · rename_i d' w' v hb
          cases h
          rw [Option.bind_eq_some_iff] at hb
          obtain ⟨⟨w2, v2⟩, hp, hb⟩ := hb
          rw [Option.map_eq_some_iff] at hb
          obtain ⟨d2, hd2, hb⟩ := hb
          cases hb
          obtain ⟨h1, h2⟩ := (partitionEq_some _ _ _).1 hp
          rw [h1]
          obtain ⟨l, hl, rfl, h3 | ⟨c, hc, h3⟩⟩ := mem_tableOf.1 ((dget_table ok).1 hd2)
          · subst h3
            exact ⟨l, hl, rfl, .long, .longEq _ _ ⟨List.prefix_refl _, fun l' hl' hp => (ok.longs l hl l' hl' hp).symm⟩⟩
          · subst h3
            exact ⟨l, hl, rfl, .short c hc, .shortEq c _ hc⟩
        · rename_i hb
          by_cases hxd : x = '-'
          · subst hxd
            rw [tuples_long] at h
            generalize hf : ((tableOf H).filter fun e => (('-' :: '-' :: s).takeWhile fun c => c != '=').isPrefixOf e.1) = fl at h
            match fl, h with
            | [], h => simp at h; split at h <;> cases h
            | _ :: _ :: _, h => simp at h
            | [q], h =>
              simp only [List.map_cons, List.map_nil, ArgKind.option.injEq] at h
              cases hp : partitionEq ('-' :: '-' :: s) with
              | none =>
                rw [takeWhile_noEq ((partitionEq_none _).1 hp)] at hf
                obtain ⟨l, hl, rfl, hab⟩ := filter_long_inv ok hf
                rw [hp] at h
                obtain ⟨rfl, rfl, rfl⟩ := h
                exact ⟨l, hl, rfl, .long, .long _ hab⟩
              | some z =>
                obtain ⟨w', v⟩ := z
                obtain ⟨h1, h2⟩ := (partitionEq_some _ _ _).1 hp
                rw [h1, takeWhile_eq h2] at hf
                have hw : ∃ t, w' = '-' :: '-' :: t := by
                  match w', h1 with
                  | [], h1 => simp at h1
                  | [_], h1 => simp at h1
                  | _ :: _ :: t, h1 =>
                    simp at h1
                    obtain ⟨rfl, rfl, _⟩ := h1
                    exact ⟨t, rfl⟩
                obtain ⟨t, rfl⟩ := hw
                obtain ⟨l, hl, rfl, hab⟩ := filter_long_inv ok hf
                rw [hp] at h
                obtain ⟨rfl, rfl, rfl⟩ := h
                rw [h1]
                exact ⟨l, hl, rfl, .long, .longEq _ _ hab⟩
          · by_cases hl : ∃ l ∈ H, l.letter = some x
            · obtain ⟨l, hl, hc⟩ := hl
              rw [tuples_short_one ok hl hc] at h
              simp only [ArgKind.option.injEq] at h
              obtain ⟨rfl, rfl, rfl⟩ := h
              refine ⟨l, hl, rfl, .short x hc, .shortJoined x s hc ?_ ?_⟩
              · rintro rfl
                exact hx _ (mem_tableOf.2 ⟨l, hl, rfl, .inr ⟨x, hc, rfl⟩⟩)
              · intro he
                obtain ⟨v, rfl⟩ : ∃ v, s = '=' :: v := by
                  cases s with
                  | nil => cases he
                  | cons c v => simp at he; exact ⟨v, by rw [he]⟩
                have hp : partitionEq ('-' :: x :: '=' :: v) = some (['-', x], v) := by
                  rw [partitionEq_some]
                  refine ⟨rfl, ?_⟩
                  simp only [List.mem_cons, List.not_mem_nil, or_false, not_or]
                  exact ⟨by decide, fun e => (letter_ne ok hl hc).2 e.symm⟩
                rw [hp, Option.bind_some, (dget_table ok).2 (mem_tableOf.2 ⟨l, hl, rfl, .inr ⟨x, hc, rfl⟩⟩)] at hb
                cases hb
            · rw [tuples_short ok hxd] at h
              have : ((tableOf H).filter fun e => decide (e.1 = ['-', x])) = [] := by
                rw [List.filter_eq_nil_iff]
                rintro ⟨w', d'⟩ he hw
                simp only [decide_eq_true_eq] at hw
                subst hw
                obtain ⟨l, hl', _, h1 | ⟨c, hc, h1⟩⟩ := mem_tableOf.1 he
                · obtain ⟨t, ht, _⟩ := long_shape ok hl'
                  rw [← h1] at ht
                  simp at ht
                  exact hxd ht.1
                · simp at h1
                  exact hl ⟨l, hl', by rw [h1, hc]⟩
              rw [this] at h
              simp at h
              split at h <;> cases h
      · unfold classify at h
        rw [if_pos (by simpa using hy)] at h
        cases h

omit ok in
private theorem prefix_letter {c x : Char} {s : Str} (h : ['-', c] <+: '-' :: x :: s) : c = x := by
  simp only [List.cons_prefix_cons] at h
  exact h.2.1

private theorem like_of_word {a : Str} {d : Dest} (h : (a, d) ∈ tableOf H) : LikeOption H a := by
  obtain ⟨l, hl, _, rfl | ⟨c, hc, rfl⟩⟩ := mem_tableOf.1 h
  · obtain ⟨s, hs, _⟩ := long_shape ok hl
    exact .inr ⟨by rw [hs]; simp, l, hl, List.takeWhile_prefix _⟩
  · exact .inl ⟨l, hl, c, hc, List.prefix_refl _⟩

private theorem tuples_nil {x : Char} {s : Str} (h : ¬ LikeOption H ('-' :: x :: s)) : optionTuples (tableOf H) ('-' :: x :: s) = [] := by
  by_cases hx : x = '-'
  · subst hx
    rw [tuples_long, List.map_eq_nil_iff, List.filter_eq_nil_iff]
    rintro ⟨w, d⟩ hm hp
    have hp := List.isPrefixOf_iff_prefix.1 hp
    obtain ⟨l, hl, _, rfl | ⟨c, hc, rfl⟩⟩ := mem_tableOf.1 hm
    · exact h (.inr ⟨by simp, l, hl, hp⟩)
    · have e1 : (('-' :: '-' :: s).takeWhile fun c => c != '=') = '-' :: '-' :: (s.takeWhile fun c => c != '=') := rfl
      rw [e1] at hp
      simp only [List.cons_prefix_cons] at hp
      exact (letter_ne ok hl hc).1 hp.2.1.symm
  · rw [tuples_short ok hx, List.map_eq_nil_iff, List.filter_eq_nil_iff]
    rintro ⟨w, d⟩ hm hp
    simp only [decide_eq_true_eq] at hp
    subst hp
    obtain ⟨l, hl, _, h1 | ⟨c, hc, h1⟩⟩ := mem_tableOf.1 hm
    · obtain ⟨t, ht, _⟩ := long_shape ok hl
      rw [← h1] at ht
      simp at ht
      exact hx ht.1
    · simp at h1
      subst h1
      exact h (.inl ⟨l, hl, x, hc, by simp⟩)

private theorem like_tuples {x : Char} {s : Str} (h : LikeOption H ('-' :: x :: s)) : optionTuples (tableOf H) ('-' :: x :: s) ≠ [] := by
  rcases h with ⟨l, hl, c, hc, hp⟩ | ⟨h1, l, hl, hp⟩
  · have := prefix_letter hp
    subst this
    rw [tuples_short_one ok hl hc]
    simp
  · simp only [List.cons_prefix_cons] at h1
    obtain ⟨_, rfl, _⟩ := h1
    rw [tuples_long]
    intro h
    rw [List.map_eq_nil_iff, List.filter_eq_nil_iff] at h
    exact h (l.long, l.dest) (mem_tableOf.2 ⟨l, hl, rfl, .inl rfl⟩) (List.isPrefixOf_iff_prefix.2 hp)

private theorem bind_none {x : Char} {s : Str} (h : ¬ LikeOption H ('-' :: x :: s)) :
    ((partitionEq ('-' :: x :: s)).bind fun s => (dget (tableOf H) s.1).map fun d => (d, s.1, s.2)) = none := by
  rw [Option.bind_eq_none_iff]
  rintro ⟨w, v⟩ hp
  rw [Option.map_eq_none_iff, dget_table_none ok]
  intro d hd
  obtain ⟨h1, h2⟩ := (partitionEq_some _ _ _).1 hp
  simp only at hd
  obtain ⟨l, hl, _, rfl | ⟨c, hc, rfl⟩⟩ := mem_tableOf.1 hd
  · refine h (.inr ⟨?_, l, hl, ?_⟩)
    · obtain ⟨t, ht, _⟩ := long_shape ok hl
      rw [h1, ht]; simp
    · rw [h1, takeWhile_eq h2]
      exact List.prefix_refl _
  · refine h (.inl ⟨l, hl, c, hc, ?_⟩)
    rw [h1]
    simp

/-- The words that can be the value of an option. -/
theorem classify_value (a : Str) : classify (tableOf H) a = .value ↔ IsValue H a := by
  match a with
  | [] => simp [classify, IsValue]
  | [y] =>
    by_cases hy : y = '-'
    · subst hy
      refine ⟨fun _ => .inr (.inl rfl), fun _ => ?_⟩
      unfold classify
      rw [if_neg (by simp), (dget_table_none ok).2]
      · rfl
      · intro d hd
        obtain ⟨l, hl, _, h1 | ⟨c, hc, h1⟩⟩ := mem_tableOf.1 hd
        · obtain ⟨t, ht, _⟩ := long_shape ok hl
          rw [← h1] at ht
          cases ht
        · cases h1
    · refine ⟨fun _ => .inl (by simpa using hy), fun _ => ?_⟩
      unfold classify
      rw [if_pos (by simpa using hy)]
  | y :: x :: s =>
    by_cases hy : y = '-'
    · subst hy
      constructor
      · intro h
        by_cases hx : ∃ d, ('-' :: x :: s, d) ∈ tableOf H
        · obtain ⟨d, hd⟩ := hx
          rw [classify_exact ok hd] at h
          cases h
        · have hx : ∀ d, ('-' :: x :: s, d) ∉ tableOf H := fun d hd => hx ⟨d, hd⟩
          rw [classify_rest ok hx] at h
          split at h
          · cases h
          · split at h
            · cases h
            · cases h
            · rename_i ht
              split at h
              · rename_i hc
                refine .inr (.inr ⟨fun hl => like_tuples ok hl ht, ?_⟩)
                rw [← looksNegative_iff]
                simpa using hc
              · cases h
      · rintro (h | h | ⟨h1, h2⟩)
        · simp at h
        · simp at h
        · rw [classify_rest ok fun d hd => h1 (like_of_word ok hd), bind_none ok h1, tuples_nil ok h1]
          simp only []
          rw [if_pos]
          rw [← looksNegative_iff] at h2
          simpa using h2
    · refine ⟨fun _ => .inl (by simpa using hy), fun _ => ?_⟩
      unfold classify
      rw [if_pos (by simpa using hy)]

/-! ## Command lines -/

/-- Every line of written options is read as they were written. -/
theorem readArgs_written (gs : List Written) (h : ∀ g ∈ gs, Writes H g) :
    readArgs (tableOf H) (gs.flatMap (·.words)) = some (gs.map fun g => (g.dest, g.value)) := by
  induction gs with
  | nil => rfl
  | cons g gs ih =>
    have ih := ih fun g hg => h g (by simp [hg])
    have hg := h g (by simp)
    rw [List.flatMap_cons, List.map_cons]
    cases hg with
    | flag l a hl ht ho =>
      obtain ⟨w, _, hc⟩ := classify_optWord ok hl ho
      simp only [List.cons_append, List.nil_append, readArgs, hc, wordOptions, shortOptions, ht, ih]
      rfl
    | apart l a v hl ht ho hv =>
      obtain ⟨w, _, hc⟩ := classify_optWord ok hl ho
      simp only [List.cons_append, List.nil_append, readArgs, hc, wordOptions, shortOptions, ht, if_true, (classify_value ok v).2 hv, ih]
      rfl
    | joined l a v hl ht ho =>
      obtain ⟨w, _, hc⟩ := classify_optWord ok hl ho
      simp only [List.cons_append, List.nil_append, readArgs, hc, wordOptions, ht, if_true, ih]
      rfl

omit ok in
private theorem shortOptions_head {p : Parser} {d : Dest} {v : Str} {r : List OptAct × Option Dest} (ht : d.takes = false)
    (h : shortOptions p d v = some r) : (d, none) ∈ r.1 := by
  cases v with
  | nil => simp [shortOptions, ht] at h; simp [← h]
  | cons c v =>
    simp only [shortOptions, ht] at h
    simp only [Bool.false_eq_true, if_false] at h
    split at h
    · cases h
    · rw [Option.map_eq_some_iff] at h
      obtain ⟨q, _, rfl⟩ := h
      simp

/-- A line that is read is a line of written options, where the only option without value that has a letter is the one for help. -/
theorem written_of_read (hf : ∀ l ∈ H, l.letter.isSome = true → l.dest.takes = false → l.dest = .help) (n : Nat) (args : List Str)
    (hn : args.length ≤ n) (acts : List OptAct) (h : readArgs (tableOf H) args = some acts) (hh : flagged acts .help = false) :
    ∃ gs : List Written, (∀ g ∈ gs, Writes H g) ∧ args = gs.flatMap (·.words) ∧ acts = gs.map fun g => (g.dest, g.value) := by
  induction n generalizing args acts with
  | zero =>
    cases args with
    | nil => simp [readArgs] at h; subst h; exact ⟨[], by simp, rfl, rfl⟩
    | cons a args => simp at hn
  | succ n ih =>
    cases args with
    | nil => simp [readArgs] at h; subst h; exact ⟨[], by simp, rfl, rfl⟩
    | cons a args =>
      simp only [List.length_cons, Nat.add_le_add_iff_right] at hn
      unfold readArgs at h
      split at h
      · rename_i d w e hc
        obtain ⟨l, hl, rfl, hw, ho⟩ := optWord_of_classify ok hc
        split at h
        · cases h
        · rename_i as has
          rw [Option.map_eq_some_iff] at h
          obtain ⟨acts', hr, rfl⟩ := h
          have hh' : flagged acts' .help = false := by
            simp only [flagged, List.any_append, Bool.or_eq_false_iff] at hh ⊢
            exact hh.2
          have hh0 : flagged as .help = false := by
            simp only [flagged, List.any_append, Bool.or_eq_false_iff] at hh ⊢
            exact hh.1
          obtain ⟨gs, h1, h2, h3⟩ := ih args hn acts' hr hh'
          cases ht : l.dest.takes with
          | true =>
            cases e with
            | none => simp [wordOptions, shortOptions, ht] at has
            | some v =>
              simp [wordOptions, ht] at has
              subst has
              refine ⟨⟨l.dest, some v, [a], false⟩ :: gs, ?_, ?_, ?_⟩
              · intro g hg
                rcases List.mem_cons.1 hg with rfl | hg
                · exact .joined l a v hl ht ho
                · exact h1 g hg
              · simp [h2]
              · simp [h3]
          | false =>
            cases e with
            | none =>
              simp [wordOptions, shortOptions, ht] at has
              subst has
              refine ⟨⟨l.dest, none, [a], decide (a = l.long) || decide (some a = l.letter.map fun c => ['-', c])⟩ :: gs, ?_, ?_, ?_⟩
              · intro g hg
                rcases List.mem_cons.1 hg with rfl | hg
                · exact .flag l a hl ht ho
                · exact h1 g hg
              · simp [h2]
              · simp [h3]
            | some v =>
              simp only [wordOptions, ht, Bool.false_eq_true, if_false] at has
              split at has
              · cases has
              · rename_i hw'
                cases hw with
                | short c hcl =>
                  have hd := hf l hl (by rw [hcl]; rfl) ht
                  have := shortOptions_head ht has
                  rw [hd] at this
                  simp only [flagged, List.any_eq_false] at hh0
                  exact absurd (decide_eq_true rfl) (hh0 _ this)
                | long =>
                  exact absurd (.inl (ok.long l hl).1) hw'
        · rename_i as d' has
          cases args with
          | nil => cases h
          | cons v args =>
            simp only at h
            split at h
            · rename_i hv
              rw [Option.map_eq_some_iff] at h
              obtain ⟨acts', hr, rfl⟩ := h
              have hh' : flagged acts' .help = false := by
                simp only [flagged, List.any_append, List.any_cons, Bool.or_eq_false_iff] at hh ⊢
                exact hh.2.2
              have hh0 : flagged as .help = false := by
                simp only [flagged, List.any_append, Bool.or_eq_false_iff] at hh ⊢
                exact hh.1
              obtain ⟨gs, h1, h2, h3⟩ := ih args (by simp at hn; omega) acts' hr hh'
              have hlt : as = [] ∧ d' = l.dest ∧ l.dest.takes = true ∧ e = none := by
                cases ht : l.dest.takes with
                | true =>
                  cases e with
                  | none => simp [wordOptions, shortOptions, ht] at has; exact ⟨has.1, has.2.symm, rfl, rfl⟩
                  | some v => simp [wordOptions, ht] at has
                | false =>
                  cases e with
                  | none => simp [wordOptions, shortOptions, ht] at has
                  | some u =>
                    simp only [wordOptions, ht, Bool.false_eq_true, if_false] at has
                    split at has
                    · cases has
                    · rename_i hw'
                      cases hw with
                      | short c hcl =>
                        have hd := hf l hl (by rw [hcl]; rfl) ht
                        have := shortOptions_head ht has
                        rw [hd] at this
                        simp only [flagged, List.any_eq_false] at hh0
                        exact absurd (decide_eq_true rfl) (hh0 _ this)
                      | long => exact absurd (.inl (ok.long l hl).1) hw'
              obtain ⟨rfl, rfl, ht, rfl⟩ := hlt
              refine ⟨⟨l.dest, some v, [a, v], decide (a = l.long) || decide (some a = l.letter.map fun c => ['-', c])⟩ :: gs, ?_, ?_, ?_⟩
              · intro g hg
                rcases List.mem_cons.1 hg with rfl | hg
                · exact .apart l a v hl ht ho ((classify_value ok v).1 hv)
                · exact h1 g hg
              · simp [h2]
              · simp [h3]
            · cases h
      · cases h

end
end Jq
