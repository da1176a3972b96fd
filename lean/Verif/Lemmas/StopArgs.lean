import Verif.Lemmas.Args
/-! Reading words of several letters. -/
namespace Jq
section
variable {H : List HelpLine} (ok : HelpOk H) (hlong : ∀ l ∈ H, 2 < l.long.length)
include ok hlong

theorem dget_letter {c : Char} {d : Dest} : dget (tableOf H) ['-', c] = some d ↔ ∃ l ∈ H, l.letter = some c ∧ l.dest = d := by
  rw [dget_table ok, mem_tableOf]
  constructor
  · rintro ⟨l, hl, rfl, h | ⟨c', hc, h⟩⟩
    · have := hlong l hl
      rw [← h] at this
      simp at this
    · injection h with _ h
      injection h with h
      exact ⟨l, hl, by rw [hc, h], rfl⟩
  · rintro ⟨l, hl, hc, rfl⟩
    exact ⟨l, hl, rfl, .inr ⟨c, hc, rfl⟩⟩

theorem short_iff (e : Str) (c : Char) (d : Dest) (ht : d.takes = false) (r : List OptAct × Option Dest) :
    shortOptions (tableOf H) d (c :: e) = some r ↔ ∃ os, r.1 = (d, none) :: os ∧ Letters H (c :: e) os r.2 := by
  induction e generalizing c d r with
  | nil =>
    simp only [shortOptions, ht, Bool.false_eq_true, if_false]
    constructor
    · intro h
      split at h
      · cases h
      · rename_i d' hd
        obtain ⟨l, hl, hc, rfl⟩ := (dget_letter ok hlong).1 hd
        rw [Option.map_some, Option.some.injEq] at h
        subst h
        cases ht' : l.dest.takes with
        | true => exact ⟨_, rfl, .waits l c hl hc ht'⟩
        | false => exact ⟨_, rfl, .flag l c hl hc ht'⟩
    · rintro ⟨os, h1, h2⟩
      cases r with
      | mk r1 r2 =>
        simp only at h1 h2
        subst h1
        cases h2 with
        | flag l _ hl hc ht' => rw [(dget_letter ok hlong).2 ⟨l, hl, hc, rfl⟩]; simp [ht']
        | waits l _ hl hc ht' => rw [(dget_letter ok hlong).2 ⟨l, hl, hc, rfl⟩]; simp [ht']
        | value l _ _ hl hc ht' h0 => exact absurd rfl h0
        | more l _ _ os w hl hc ht' h => cases h
  | cons x e ih =>
    rw [shortOptions]
    simp only [ht, Bool.false_eq_true, if_false]
    constructor
    · intro h
      split at h
      · cases h
      · rename_i d' hd
        obtain ⟨l, hl, hc, rfl⟩ := (dget_letter ok hlong).1 hd
        obtain ⟨q, hq, rfl⟩ := Option.map_eq_some_iff.1 h
        cases ht' : l.dest.takes with
        | true =>
          simp only [shortOptions, ht', if_true, Option.some.injEq] at hq
          subst hq
          exact ⟨_, rfl, .value l c _ hl hc ht' (by simp)⟩
        | false =>
          obtain ⟨os, h1, h2⟩ := (ih x l.dest ht' q).1 hq
          refine ⟨q.1, rfl, ?_⟩
          rw [h1]
          exact .more l c _ os _ hl hc ht' h2
    · rintro ⟨os, h1, h2⟩
      cases r with
      | mk r1 r2 =>
        simp only at h1 h2
        subst h1
        cases h2 with
        | value l _ _ hl hc ht' h0 => rw [(dget_letter ok hlong).2 ⟨l, hl, hc, rfl⟩]; simp [shortOptions, ht']
        | more l _ _ os w hl hc ht' h =>
          rw [(dget_letter ok hlong).2 ⟨l, hl, hc, rfl⟩]
          simp only [(ih x l.dest ht' ((l.dest, none) :: os, r2)).2 ⟨os, rfl, h⟩, Option.map_some]

omit hlong in
theorem letters_head {s : Str} {os : List (Dest × Option Str)} {w : Option Dest} (h : Letters H s os w) :
    ∃ c e, s = c :: e ∧ c ≠ '=' := by
  cases h with
  | flag l c hl hc _ => exact ⟨c, _, rfl, (letter_ne ok hl hc).2⟩
  | waits l c hl hc _ => exact ⟨c, _, rfl, (letter_ne ok hl hc).2⟩
  | value l c _ hl hc _ _ => exact ⟨c, _, rfl, (letter_ne ok hl hc).2⟩
  | more l c _ _ _ hl hc _ _ => exact ⟨c, _, rfl, (letter_ne ok hl hc).2⟩

omit hlong in
theorem cluster_word {l : HelpLine} (hl : l ∈ H) {c : Char} (hc : l.letter = some c) {a s : Str} (ha : a = '-' :: c :: s ∨ a = '-' :: c :: '=' :: s)
    {os : List (Dest × Option Str)} {w : Option Dest} (h : Letters H s os w) :
    classify (tableOf H) a = .option l.dest ['-', c] (some s) := by
  obtain ⟨x, e, rfl, hx⟩ := letters_head ok h
  rcases ha with rfl | rfl
  · exact classify_shortJoined ok hl hc (by simp) (by simpa using hx)
  · exact classify_shortEq ok hl hc _

theorem word_cluster {l : HelpLine} {c : Char} (hcd : c ≠ '-') (ht : l.dest.takes = false)
    {s : Str} {os : List (Dest × Option Str)} {w : Option Dest} (h : Letters H s os w) :
    wordOptions (tableOf H) l.dest ['-', c] (some s) = some ((l.dest, none) :: os, w) := by
  obtain ⟨x, e, rfl, hx⟩ := letters_head ok h
  simp only [wordOptions, ht, Bool.false_eq_true, if_false]
  rw [if_neg (by simp [hcd]), short_iff ok hlong e x l.dest ht]
  exact ⟨os, rfl, h⟩

/-- What a line of words is read as. -/
theorem readArgs_iff (args : List Str) (acts : List OptAct) : readArgs (tableOf H) args = some acts ↔
    ∃ items : List (List (Dest × Option Str) × List Str), (∀ i ∈ items, WritesItem H i.1 i.2) ∧ args = items.flatMap (·.2) ∧
      acts = items.flatMap (·.1) := by
  constructor
  · have key : ∀ n : Nat, ∀ (args : List Str) (acts : List OptAct), args.length ≤ n → readArgs (tableOf H) args = some acts →
        ∃ items : List (List (Dest × Option Str) × List Str), (∀ i ∈ items, WritesItem H i.1 i.2) ∧ args = items.flatMap (·.2) ∧
          acts = items.flatMap (·.1) := by
      intro n
      induction n with
      | zero =>
        intro args acts hn h
        cases args with
        | nil => simp [readArgs] at h; subst h; exact ⟨[], by simp, rfl, rfl⟩
        | cons a args => simp at hn
      | succ n ih =>
        intro args acts hn h
        cases args with
        | nil => simp [readArgs] at h; subst h; exact ⟨[], by simp, rfl, rfl⟩
        | cons a args =>
          simp only [List.length_cons, Nat.add_le_add_iff_right] at hn
          unfold readArgs at h
          split at h
          · rename_i d w e hc
            obtain ⟨l, hl, rfl, hw, ho⟩ := optWord_of_classify ok hc
            -- the options of the word
            have hword : ∀ as w', wordOptions (tableOf H) l.dest w e = some (as, w') →
                (l.dest.takes = true ∧ ((e = none ∧ as = [] ∧ w' = some l.dest) ∨ ∃ v, e = some v ∧ as = [(l.dest, some v)] ∧ w' = none)) ∨
                (l.dest.takes = false ∧ ((e = none ∧ as = [(l.dest, none)] ∧ w' = none) ∨
                  ∃ c s os, l.letter = some c ∧ (a = '-' :: c :: s ∨ a = '-' :: c :: '=' :: s) ∧ as = (l.dest, none) :: os ∧ Letters H s os w')) := by
              intro as w' has
              cases ht : l.dest.takes with
              | true =>
                refine .inl ⟨rfl, ?_⟩
                cases e with
                | none => simp [wordOptions, shortOptions, ht] at has; exact .inl ⟨rfl, has.1, has.2.symm⟩
                | some v => simp [wordOptions, ht] at has; exact .inr ⟨v, rfl, has.1.symm, has.2.symm⟩
              | false =>
                refine .inr ⟨rfl, ?_⟩
                cases e with
                | none => simp [wordOptions, shortOptions, ht] at has; exact .inl ⟨rfl, has.1.symm, has.2.symm⟩
                | some v =>
                  simp only [wordOptions, ht, Bool.false_eq_true, if_false] at has
                  split at has
                  · cases has
                  · rename_i hw'
                    have hlw : w.take 2 ≠ c!"--" := fun e => hw' (.inl e)
                    have hv : v ≠ [] := fun e => hw' (.inr e)
                    cases v with
                    | nil => exact absurd rfl hv
                    | cons x s =>
                      obtain ⟨os, h1, h2⟩ := (short_iff ok hlong s x l.dest ht (as, w')).1 has
                      simp only at h1 h2
                      refine .inr ?_
                      cases ho with
                      | shortJoined c _ hcl _ _ => exact ⟨c, x :: s, os, hcl, .inl rfl, h1, h2⟩
                      | shortEq c _ hcl => exact ⟨c, x :: s, os, hcl, .inr rfl, h1, h2⟩
                      | longEq wd _ hab =>
                        rw [classify_longEq ok hl hab] at hc
                        injection hc with _ hc _
                        subst hc
                        exact absurd (ok.long l hl).1 hlw
            split at h
            · cases h
            · rename_i as has
              rw [Option.map_eq_some_iff] at h
              obtain ⟨acts', hr, rfl⟩ := h
              obtain ⟨items, h1, rfl, rfl⟩ := ih args acts' hn hr
              have add : WritesItem H as [a] → ∃ items' : List (List (Dest × Option Str) × List Str), (∀ i ∈ items', WritesItem H i.1 i.2) ∧
                  a :: items.flatMap (·.2) = items'.flatMap (·.2) ∧ as ++ items.flatMap (·.1) = items'.flatMap (·.1) := by
                intro hi
                refine ⟨(as, [a]) :: items, ?_, rfl, rfl⟩
                intro i hi'
                rcases List.mem_cons.1 hi' with rfl | hi'
                · exact hi
                · exact h1 i hi'
              apply add
              rcases hword as none has with ⟨ht, ⟨_, _, h⟩ | ⟨v, rfl, rfl, _⟩⟩ | ⟨ht, ⟨rfl, rfl, _⟩ | ⟨c, s, os, hcl, ha, rfl, hlet⟩⟩
              · cases h
              · exact .one _ (.joined l a v hl ht ho)
              · exact .one _ (.flag l a hl ht ho)
              · exact .cluster l c a s os hl hcl ht ha hlet
            · rename_i as d' has
              cases args with
              | nil => cases h
              | cons v args =>
                simp only at h
                split at h
                · rename_i hv
                  rw [Option.map_eq_some_iff] at h
                  obtain ⟨acts', hr, rfl⟩ := h
                  obtain ⟨items, h1, rfl, rfl⟩ := ih args acts' (by simp at hn; omega) hr
                  have add : WritesItem H (as ++ [(d', some v)]) [a, v] → ∃ items' : List (List (Dest × Option Str) × List Str),
                      (∀ i ∈ items', WritesItem H i.1 i.2) ∧
                      a :: v :: items.flatMap (·.2) = items'.flatMap (·.2) ∧ as ++ (d', some v) :: items.flatMap (·.1) = items'.flatMap (·.1) := by
                    intro hi
                    refine ⟨(as ++ [(d', some v)], [a, v]) :: items, ?_, rfl, by simp⟩
                    intro i hi'
                    rcases List.mem_cons.1 hi' with rfl | hi'
                    · exact hi
                    · exact h1 i hi'
                  apply add
                  have hv' := (classify_value ok v).1 hv
                  rcases hword as (some d') has with ⟨ht, ⟨rfl, rfl, h⟩ | ⟨v, _, _, h⟩⟩ | ⟨ht, ⟨_, _, h⟩ | ⟨c, s, os, hcl, ha, rfl, hlet⟩⟩
                  · injection h with h
                    subst h
                    exact .one _ (.apart l a v hl ht ho hv')
                  · cases h
                  · cases h
                  · exact .clusterApart l c a s os d' v hl hcl ht ha hlet hv'
                · cases h
          · cases h
    exact key args.length args acts (Nat.le_refl _)
  · rintro ⟨items, h1, rfl, rfl⟩
    induction items with
    | nil => rfl
    | cons i items ih =>
      have ih := ih fun j hj => h1 j (by simp [hj])
      have hi := h1 i (by simp)
      obtain ⟨os, ws⟩ := i
      simp only [List.flatMap_cons]
      simp only at hi
      cases hi with
      | one g hg =>
        cases hg with
        | flag l a hl ht ho =>
          obtain ⟨w, _, hc⟩ := classify_optWord ok hl ho
          simp only [List.cons_append, List.nil_append, readArgs, hc, wordOptions, shortOptions, ht, ih]
          rfl
        | apart l a v hl ht ho hv =>
          obtain ⟨w, _, hc⟩ := classify_optWord ok hl ho
          simp only [List.cons_append, List.nil_append, readArgs, hc, wordOptions, shortOptions, ht, if_true, (classify_value ok v).2 hv, ih]
          rfl
        | joined l a v hl ht ho =>
          obtain ⟨w, _, hc⟩ := classify_optWord ok hl ho
          simp only [List.cons_append, List.nil_append, readArgs, hc, wordOptions, ht, if_true, ih]
          rfl
      | cluster l c a s os hl hcl ht ha hlet =>
        simp only [List.cons_append, List.nil_append, readArgs, cluster_word ok hl hcl ha hlet,
          word_cluster ok hlong (letter_ne ok hl hcl).1 ht hlet, ih]
        rfl
      | clusterApart l c a s os d v hl hcl ht ha hlet hv =>
        simp only [List.cons_append, List.nil_append, readArgs, cluster_word ok hl hcl ha hlet,
          word_cluster ok hlong (letter_ne ok hl hcl).1 ht hlet, (classify_value ok v).2 hv, if_true, ih]
        simp

end
end Jq
