import Verif.Model.RuntimeDir
import Verif.Lemmas.Str
import Verif.Lemmas.Office
/-! Lemmas about paths. -/
namespace Jq

theorem splitOn_append_any (sep : Char) (a b : Str) : splitOn sep (a ++ sep :: b) = splitOn sep a ++ splitOn sep b := by
  induction a with
  | nil => simp [splitOn]
  | cons c a ih =>
    simp only [List.cons_append, splitOn, ih]
    split
    · rfl
    · cases h : splitOn sep a with
      | nil => exact absurd h (splitOn_ne_nil _ _)
      | cons x xs => rfl

/-- One component of a path. -/
def dirStep (d : List Str) (s : Str) : List Str :=
  if s = [] ∨ s = c!"." then d else if s = c!".." then d.dropLast else d ++ [s]

theorem resolveDirs_append (a b : List Str) : resolveDirs (a ++ b) = b.foldl dirStep (resolveDirs a) := List.foldl_append ..

theorem dirs_joinPath (d p : Str) (hd : d ≠ []) (hp : p.head? ≠ some '/') :
    resolveDirs (splitOn '/' (joinPath d p)) = (splitOn '/' p).foldl dirStep (resolveDirs (splitOn '/' d)) := by
  simp only [joinPath, if_neg hp]
  by_cases hl : d.getLast? = some '/'
  · rw [if_pos (.inr hl)]
    obtain ⟨d', rfl⟩ := List.getLast?_eq_some_iff.1 hl
    rw [List.append_assoc, List.singleton_append, splitOn_append_any, resolveDirs_append]
    rw [splitOn_append_any, resolveDirs_append]
    rfl
  · rw [if_neg (by simp [hd, hl]), splitOn_append_any, resolveDirs_append]

theorem joinPath_abs {d p : Str} (hp : p.head? = some '/') : joinPath d p = p := if_pos hp

theorem joinPath_head (d p : Str) (hd : d.head? = some '/') : (joinPath d p).head? = some '/' := by
  obtain ⟨c, s, rfl⟩ := List.ne_nil_iff_exists_cons.1 (show d ≠ [] from fun e => by simp [e] at hd)
  simp only [List.head?_cons, Option.some.injEq] at hd
  subst hd
  simp only [joinPath]
  split
  · assumption
  · split <;> rfl

/-- Components as a resolved path has them. -/
def Plain (s : Str) : Prop := s ≠ [] ∧ s ≠ c!"." ∧ s ≠ c!".." ∧ '/' ∉ s

theorem dirStep_plain {d : List Str} {s : Str} (h : Plain s) : dirStep d s = d ++ [s] := by
  simp [dirStep, h.1, h.2.1, h.2.2.1]

theorem dirStep_keeps {d : List Str} {s : Str} (hd : ∀ x ∈ d, Plain x) (hs : '/' ∉ s) : ∀ x ∈ dirStep d s, Plain x := by
  intro x hx
  simp only [dirStep] at hx
  split at hx
  · exact hd x hx
  · rename_i h1
    split at hx
    · exact hd x ((List.dropLast_sublist d).subset hx)
    · rename_i h2
      simp only [not_or] at h1
      rcases List.mem_append.1 hx with h | h
      · exact hd x h
      · simp only [List.mem_singleton] at h
        subst h
        exact ⟨h1.1, h1.2, h2, hs⟩

theorem foldl_dirStep_keeps : ∀ (ps : List Str) (d : List Str), (∀ x ∈ d, Plain x) → (∀ p ∈ ps, '/' ∉ p) → ∀ x ∈ ps.foldl dirStep d, Plain x
  | [], _, hd, _ => hd
  | p :: ps, _, hd, hp => foldl_dirStep_keeps ps _ (dirStep_keeps hd (hp p (by simp))) (fun q hq => hp q (by simp [hq]))

theorem resolveDirs_plain (p : Str) : ∀ x ∈ resolveDirs (splitOn '/' p), Plain x :=
  foldl_dirStep_keeps _ [] (by simp) fun _ hq => splitOn_part_not_mem hq

theorem foldl_dirStep_plain : ∀ (ps d : List Str), (∀ x ∈ ps, Plain x) → ps.foldl dirStep d = d ++ ps
  | [], d, _ => by simp
  | p :: ps, d, h => by
    rw [List.foldl_cons, dirStep_plain (h p (by simp)), foldl_dirStep_plain ps _ fun x hx => h x (by simp [hx])]
    simp

theorem normStep_abs {d : List Str} {s : Str} (hd : ∀ x ∈ d, Plain x) : normStep true d s = dirStep d s := by
  simp only [normStep, dirStep]
  split
  · rfl
  · have : d.getLast? ≠ some c!".." := by
      intro e
      exact (hd _ (List.mem_of_getLast? e)).2.2.1 rfl
    by_cases h : s = c!".."
    · rw [if_neg (by simp [h, this]), if_pos h]
    · rw [if_pos (.inl h), if_neg h]

theorem foldl_normStep_abs : ∀ (ps d : List Str), (∀ x ∈ d, Plain x) → (∀ p ∈ ps, '/' ∉ p) → ps.foldl (normStep true) d = ps.foldl dirStep d
  | [], _, _, _ => rfl
  | p :: ps, d, hd, hp => by
    rw [List.foldl_cons, List.foldl_cons, normStep_abs hd]
    exact foldl_normStep_abs ps _ (dirStep_keeps hd (hp p (by simp))) (fun q hq => hp q (by simp [hq]))

theorem dirs_joinWith (ps : List Str) (h : ∀ x ∈ ps, Plain x) (d : List Str) : (splitOn '/' (joinWith c!"/" ps)).foldl dirStep d = d ++ ps := by
  cases ps with
  | nil => simp [joinWith, splitOn, dirStep]
  | cons p ps =>
    rw [splitOn_joinWith (by simp) fun x hx => (h x hx).2.2.2, foldl_dirStep_plain _ _ h]

/-- A normalised absolute path leads to the same directory. -/
theorem dirs_normPath (p : Str) (hp : p.head? = some '/') :
    resolveDirs (splitOn '/' (normPath p)) = resolveDirs (splitOn '/' p) ∧ (normPath p).head? = some '/' := by
  have hc : (splitOn '/' p).foldl (normStep (decide (p.head? = some '/'))) [] = resolveDirs (splitOn '/' p) := by
    rw [decide_eq_true hp]
    exact foldl_normStep_abs _ [] (by simp) fun _ hq => splitOn_part_not_mem hq
  have hpl := resolveDirs_plain p
  have key : ∀ lead : Str, lead = c!"/" ∨ lead = c!"//" →
      resolveDirs (splitOn '/' (lead ++ joinWith c!"/" (resolveDirs (splitOn '/' p)))) = resolveDirs (splitOn '/' p) := by
    rintro lead (rfl | rfl)
    · show resolveDirs (splitOn '/' (([] : Str) ++ '/' :: joinWith c!"/" _)) = _
      rw [splitOn_append_any, resolveDirs_append, dirs_joinWith _ hpl]
      rfl
    · show resolveDirs (splitOn '/' (c!"/" ++ '/' :: joinWith c!"/" _)) = _
      rw [splitOn_append_any, resolveDirs_append, dirs_joinWith _ hpl]
      rfl
  simp only [normPath, hc]
  generalize hlead : (if (!decide (p.head? = some '/')) = true then ([] : Str)
    else if (c!"//".isPrefixOf p) = true ∧ ¬ (c!"///".isPrefixOf p) = true then c!"//" else c!"/") = lead
  have hl : lead = c!"/" ∨ lead = c!"//" := by
    rw [← hlead, decide_eq_true hp]
    simp only [Bool.not_true, Bool.false_eq_true, if_false]
    split
    · exact .inr rfl
    · exact .inl rfl
  rw [if_neg (by rcases hl with rfl | rfl <;> simp)]
  refine ⟨key lead hl, ?_⟩
  rcases hl with rfl | rfl <;> rfl

theorem joinPath_nil_right (d : Str) : joinPath d [] = if d = [] ∨ d.getLast? = some '/' then d else d ++ c!"/" := by
  simp [joinPath]

/-- The directory of a path below another. -/
theorem dirAt_join (E : PathEnv) (hc : E.cwd.head? = some '/') (p q : Str) (hq : Plain q) : dirAt E (joinPath p q) = dirAt E p ++ [q] := by
  have hq0 : q.head? ≠ some '/' := by
    intro e
    cases q with
    | nil => simp at e
    | cons c q => simp only [List.head?_cons, Option.some.injEq] at e; subst e; exact hq.2.2.2 (by simp)
  have hcw : E.cwd ≠ [] := fun e => by simp [e] at hc
  have hs : splitOn '/' q = [q] := splitOn_not_mem hq.2.2.2
  by_cases hp : p.head? = some '/'
  · have hpn : p ≠ [] := fun e => by simp [e] at hp
    rw [dirAt, dirAt, joinPath_abs (joinPath_head _ _ hp), joinPath_abs hp, dirs_joinPath _ _ hpn hq0, hs]
    exact dirStep_plain hq
  · by_cases hpn : p = []
    · subst hpn
      have : joinPath [] q = q := by simp [joinPath, hq0]
      rw [this, dirAt, dirAt, dirs_joinPath _ _ hcw hq0, dirs_joinPath _ _ hcw (by simp), hs]
      exact dirStep_plain hq
    · have hh : (joinPath p q).head? ≠ some '/' := by
        obtain ⟨c, s, rfl⟩ := List.ne_nil_iff_exists_cons.1 hpn
        simp only [joinPath, if_neg hq0]
        split <;> simpa using hp
      rw [dirAt, dirAt, dirs_joinPath _ _ hcw hh, dirs_joinPath _ _ hcw hp]
      simp only [joinPath, if_neg hq0]
      by_cases hl : p.getLast? = some '/'
      · rw [if_pos (.inr hl)]
        obtain ⟨d', rfl⟩ := List.getLast?_eq_some_iff.1 hl
        rw [List.append_assoc, List.singleton_append, splitOn_append_any, List.foldl_append, hs, splitOn_append_any, List.foldl_append]
        show dirStep _ q = (splitOn '/' []).foldl dirStep _ ++ [q]
        rw [dirStep_plain hq]
        rfl
      · rw [if_neg (by simp [hpn, hl]), splitOn_append_any, List.foldl_append, hs]
        exact dirStep_plain hq

theorem dirAt_absPath (E : PathEnv) (hc : E.cwd.head? = some '/') (p : Str) : dirAt E (absPath E p) = dirAt E p ∧ (absPath E p).head? = some '/' := by
  have h := dirs_normPath (joinPath E.cwd p) (joinPath_head _ _ hc)
  refine ⟨?_, h.2⟩
  rw [dirAt, absPath, joinPath_abs h.2]
  exact h.1

theorem expandUser_plain (E : PathEnv) (p : Str) (hp : p.head? ≠ some '~') : expandUser E p = p := by
  unfold expandUser
  split
  · simp at hp
  · rfl

theorem rstrip_prefix (s : Str) : ∃ t : Str, (s.reverse.dropWhile (· = '/')).reverse ++ t = s ∧ ∀ c ∈ t, c = '/' := by
  refine ⟨(s.reverse.takeWhile (· = '/')).reverse, ?_, ?_⟩
  · rw [← List.reverse_append, List.takeWhile_append_dropWhile, List.reverse_reverse]
  · intro c hc
    have : ∀ c ∈ s.reverse.takeWhile (fun x => decide (x = '/')), decide (c = '/') = true := List.all_eq_true.1 List.all_takeWhile
    simpa using this c (List.mem_reverse.1 hc)

/-- `~/…` is below `HOME`. -/
theorem expandUser_home (E : PathEnv) (p : Str) (hh : E.home.head? = some '/') :
    (expandUser E ('~' :: '/' :: p)).head? = some '/' ∧
    resolveDirs (splitOn '/' (expandUser E ('~' :: '/' :: p))) = (splitOn '/' p).foldl dirStep (resolveDirs (splitOn '/' E.home)) := by
  obtain ⟨t, ht, hc⟩ := rstrip_prefix E.home
  have he : expandUser E ('~' :: '/' :: p) = (E.home.reverse.dropWhile (· = '/')).reverse ++ '/' :: p := by
    simp [expandUser]
  rw [he]
  generalize (E.home.reverse.dropWhile (· = '/')).reverse = r at ht
  constructor
  · cases r with
    | nil => rfl
    | cons c r => rw [← ht] at hh; simpa using hh
  · rw [splitOn_append_any, resolveDirs_append]
    have : resolveDirs (splitOn '/' E.home) = resolveDirs (splitOn '/' r) := by
      rw [← ht]
      clear ht he hh
      have hslash : ∀ t : Str, (∀ c ∈ t, c = '/') → ∀ d, (splitOn '/' t).foldl dirStep d = d := by
        intro t
        induction t with
        | nil => intro _ d; simp [splitOn, dirStep]
        | cons c t ih =>
          intro hc d
          have := hc c (by simp)
          subst this
          show (splitOn '/' (([] : Str) ++ '/' :: t)).foldl dirStep d = d
          rw [splitOn_append_any, List.foldl_append]
          show (splitOn '/' t).foldl dirStep (dirStep d []) = d
          rw [show dirStep d [] = d from by simp [dirStep], ih (fun x hx => hc x (by simp [hx]))]
      cases t with
      | nil => simp
      | cons c t =>
        have := hc c (by simp)
        subst this
        rw [splitOn_append_any, resolveDirs_append, hslash t fun x hx => hc x (by simp [hx])]
    rw [this]

/-- The data file is in the directory, when names have no slash. -/
theorem dataFile_dir (d name day : Str) (hd : d ≠ []) (hn : '/' ∉ name) (hy : '/' ∉ day) :
    dataFile d name day = (resolveDirs (splitOn '/' d), name ++ c!"_" ++ day ++ c!".json") := by
  have hp : '/' ∉ name ++ c!"_" ++ day ++ c!".json" := by simp [hn, hy]
  have hh : (name ++ c!"_" ++ day ++ c!".json").head? ≠ some '/' := by
    intro e
    exact hp (List.mem_of_mem_head? e)
  generalize he : name ++ c!"_" ++ day ++ c!".json" = w at hp hh
  simp only [dataFile, dataPath, he, fileAt, joinPath, if_neg hh]
  by_cases hl : d.getLast? = some '/'
  · rw [if_pos (.inr hl)]
    obtain ⟨d', rfl⟩ := List.getLast?_eq_some_iff.1 hl
    rw [List.append_assoc, List.singleton_append, splitOn_append_any, splitOn_not_mem hp, splitOn_append_any]
    rw [List.dropLast_concat, List.getLast?_concat, resolveDirs_append]
    rfl
  · rw [if_neg (by simp [hd, hl]), splitOn_append_any, splitOn_not_mem hp, List.dropLast_concat, List.getLast?_concat]
    rfl

end Jq
