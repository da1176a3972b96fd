import Verif.Lemmas.StopArgs
import Verif.Props.C73_CommandLine
import Verif.Props.C80_Numbers
/-! # C75: which command lines list and stop tasks, and which show the version -/
namespace Jq

/-- The options a line gives, in order. -/
abbrev GivenOpts := List (Dest × Option Str)

/-- The value given last for an option. -/
def lastGivenValue (d : Dest) (os : GivenOpts) : Option Str := (os.filterMap fun o => if o.1 = d then o.2 else none).getLast?

/-- The tasks to be stopped, as the options of a line describe them. -/
structure DescribesStop (os : GivenOpts) (o : StopOpts) : Prop where
  noHelp : ∀ g ∈ os, g.1 ≠ .help
  name : o.name = lastGivenValue .name os
  /-- every pid that is given is a whole number, the last one counts -/
  pids : ∀ g ∈ os, g.1 = .pid → ∃ v n, g.2 = some v ∧ IntText v n
  pid : (o.pid = none ∧ lastGivenValue .pid os = none) ∨ ∃ v n, lastGivenValue .pid os = some v ∧ IntText v n ∧ o.pid = some n
  all : o.all = true ↔ ∃ g ∈ os, g.1 = .all
  force : o.force = true ↔ ∃ g ∈ os, g.1 = .force

private theorem readCommand_word (a : Str) (args : List Str) (h : a.head? ≠ some '-') : readCommand (a :: args) = subCommand a args := by
  unfold readCommand readMain
  have : classify mainParser a = .value := by unfold classify; rw [if_pos h]
  rw [this]
  simp only []
  cases subCommand a args <;> rfl

private theorem last_mem {d : Dest} {os : GivenOpts} {v : Str} (h : lastGivenValue d os = some v) : (d, some v) ∈ os := by
  obtain ⟨g, hg, h'⟩ := List.mem_filterMap.1 (List.mem_of_getLast? h)
  split at h'
  · rename_i e
    obtain ⟨d', v'⟩ := g
    simp only at e h'
    subst e h'
    exact hg
  · cases h'

/-- Tasks are stopped exactly by the lines `stop_task …` of its options, in any order and any way of writing, without asking for help,
each pid a whole number; what is stopped is what the options describe. -/
theorem c75_stops_iff (argv : List Str) (o : StopOpts) : readCommand argv = .stop o ↔
    ∃ items : List (GivenOpts × List Str), (∀ i ∈ items, WritesItem stopHelp i.1 i.2) ∧ argv = c!"stop_task" :: items.flatMap (·.2) ∧
      DescribesStop (items.flatMap (·.1)) o := by
  have hread : ∀ args, stopCommand args = .stop o ↔ ∃ acts, readArgs stopParser args = some acts ∧ DescribesStop acts o := by
    intro args
    unfold stopCommand
    cases hr : readArgs stopParser args with
    | none => simp
    | some acts =>
      simp only [Option.some.injEq, exists_eq_left']
      constructor
      · intro h
        split at h
        · cases h
        · rename_i hc
          rw [Bool.not_eq_true, Bool.or_eq_false_iff, List.any_eq_false] at hc
          injection h with h
          subst h
          have hp : ∀ g ∈ acts, g.1 = .pid → ∃ v n, g.2 = some v ∧ IntText v n := by
            intro g hg e
            have := hc.2 g hg
            simp only [e, decide_true, Bool.true_and, Bool.not_eq_true, Option.isNone_eq_false_iff, Option.isSome_iff_exists] at this
            obtain ⟨n, hn⟩ := this
            obtain ⟨v, hv, hn⟩ := Option.bind_eq_some_iff.1 hn
            exact ⟨v, n, hv, (c80_int v n).1 hn⟩
          refine ⟨?_, rfl, hp, ?_, ?_, ?_⟩
          · intro g hg e
            have := hc.1
            simp only [flagged, List.any_eq_false] at this
            exact this g hg (decide_eq_true e)
          · show ((stored acts .pid).bind pyInt = none ∧ stored acts .pid = none) ∨ _
            cases hs : stored acts .pid with
            | none => exact .inl ⟨rfl, rfl⟩
            | some v =>
              right
              obtain ⟨v', n, hv, hn⟩ := hp _ (last_mem (d := .pid) (os := acts) hs) rfl
              cases hv
              exact ⟨v, n, hs, hn, (c80_int v n).2 hn⟩
          · simp [flagged]
          · simp [flagged]
      · intro h
        rw [if_neg]
        · obtain ⟨name, pid, all, force⟩ := o
          have h1 : stored acts .name = name := h.name.symm
          have h2 : (stored acts .pid).bind pyInt = pid := by
            rcases h.pid with ⟨h1, h2⟩ | ⟨v, n, h1, h2, h3⟩
            · rw [show stored acts .pid = none from h2]; exact h1.symm
            · rw [show stored acts .pid = some v from h1]
              exact ((c80_int v n).2 h2).trans h3.symm
          have h3 : flagged acts .all = all := by
            have := h.all
            rw [Bool.eq_iff_iff]
            simpa [flagged] using this.symm
          have h4 : flagged acts .force = force := by
            have := h.force
            rw [Bool.eq_iff_iff]
            simpa [flagged] using this.symm
          rw [h1, h2, h3, h4]
        · rw [Bool.not_eq_true, Bool.or_eq_false_iff, List.any_eq_false]
          constructor
          · rw [flagged, List.any_eq_false]
            intro g hg e
            exact h.noHelp g hg (of_decide_eq_true e)
          · intro g hg e
            simp only [Bool.and_eq_true, decide_eq_true_eq] at e
            obtain ⟨v, n, h1, h2⟩ := h.pids g hg e.1
            rw [h1, Option.bind_some, (c80_int v n).2 h2] at e
            simp at e
  have hargs := readArgs_iff stopHelp_ok (by decide)
  constructor
  · intro h
    have hw := (c75_first_word argv).2.2 o h
    cases argv with
    | nil => cases hw
    | cons a args =>
      simp only [List.head?_cons, Option.some.injEq] at hw
      subst hw
      rw [readCommand_word _ _ (by decide)] at h
      obtain ⟨acts, h1, h2⟩ := (hread args).1 h
      rw [stopParser_table] at h1
      obtain ⟨items, g1, g2, g3⟩ := (hargs args acts).1 h1
      exact ⟨items, g1, by rw [g2], by rw [← g3]; exact h2⟩
  · rintro ⟨items, h1, rfl, h2⟩
    rw [readCommand_word _ _ (by decide)]
    refine (hread _).2 ⟨_, ?_, h2⟩
    rw [stopParser_table]
    exact (hargs _ _).2 ⟨items, h1, rfl, rfl⟩

-- Several letters in a word: `-fp 7` is `-f -p 7`.
example : WritesItem stopHelp [(.force, none), (.pid, some c!"7")] [c!"-fp", c!"7"] ∧
    DescribesStop [(.force, none), (.pid, some c!"7")] { pid := some 7, force := true } ∧
    readCommand [c!"stop_task", c!"-fp", c!"7"] = .stop { pid := some 7, force := true } := by
  have hi : IntText c!"7" 7 := (c80_int _ _).1 (by decide)
  refine ⟨.clusterApart ⟨.force, some 'f', c!"--force"⟩ 'f' _ c!"p" [] .pid c!"7" (by decide) rfl rfl (.inl rfl)
    (.waits ⟨.pid, some 'p', c!"--pid"⟩ 'p' (by decide) rfl rfl) (.inl (by decide)), ?_, by decide +kernel⟩
  refine ⟨by simp, by decide, ?_, .inr ⟨c!"7", 7, by decide, hi, rfl⟩, by simp, by simp⟩
  intro g hg e
  simp only [List.mem_cons, List.not_mem_nil, or_false] at hg
  rcases hg with rfl | rfl
  · cases e
  · exact ⟨_, _, rfl, hi⟩

private theorem list_help (args : List Str) (acts : List OptAct) (h : readArgs listParser args = some acts) (hne : args ≠ []) :
    flagged acts .help = true := by
  have hd : ∀ a d w e, classify listParser a = .option d w e → d = .help := by
    intro a d w e h
    have hval : ∀ x d, dget listParser x = some d → d = .help := by
      intro x d hx
      have hm : (x, d) ∈ listParser := mem_of_dget hx
      simp only [listParser, helpOptions, List.mem_cons, List.not_mem_nil, or_false, Prod.mk.injEq] at hm
      rcases hm with ⟨_, rfl⟩ | ⟨_, rfl⟩ <;> rfl
    unfold classify at h
    split at h
    · cases h
    · split at h
      · rename_i d' hx
        cases h
        exact hval _ _ hx
      · split at h
        · cases h
        · split at h
          · rename_i d' w' v' hb
            cases h
            obtain ⟨p, _, hp⟩ := Option.bind_eq_some_iff.1 hb
            obtain ⟨d'', hx, e'⟩ := Option.map_eq_some_iff.1 hp
            cases e'
            exact hval _ _ hx
          · split at h
            · rename_i d' w' v' ht
              cases h
              have hm : (d, w, e) ∈ optionTuples listParser a := by rw [ht]; simp
              unfold optionTuples at hm
              split at hm
              · obtain ⟨x, hx, e'⟩ := List.mem_map.1 hm
                have hm' := (List.mem_filter.1 hx).1
                simp only [listParser, helpOptions, List.mem_cons, List.not_mem_nil, or_false] at hm'
                injection e' with e1 _
                rw [← e1]
                rcases hm' with rfl | rfl <;> rfl
              · obtain ⟨x, hx, e'⟩ := List.mem_filterMap.1 hm
                simp only [listParser, helpOptions, List.mem_cons, List.not_mem_nil, or_false] at hx
                split at e'
                · cases e'; rcases hx with rfl | rfl <;> rfl
                · split at e'
                  · cases e'; rcases hx with rfl | rfl <;> rfl
                  · cases e'
            · cases h
            · split at h <;> cases h
  cases args with
  | nil => exact absurd rfl hne
  | cons a rest =>
    unfold readArgs at h
    split at h
    · rename_i d w e hc
      have := hd _ _ _ _ hc
      subst this
      have hhead : ∀ as w', wordOptions listParser .help w e = some (as, w') → (Dest.help, none) ∈ as := by
        intro as w' hw
        have hs : ∀ v r, shortOptions listParser .help v = some r → (Dest.help, none) ∈ r.1 := by
          intro v r hv
          cases v with
          | nil => simp [shortOptions, Dest.takes] at hv; simp [← hv]
          | cons c v =>
            simp only [shortOptions, Dest.takes, Bool.false_eq_true, if_false] at hv
            split at hv
            · cases hv
            · obtain ⟨q, _, rfl⟩ := Option.map_eq_some_iff.1 hv
              simp
        cases e with
        | none => exact hs _ _ hw
        | some v =>
          simp only [wordOptions, Dest.takes, Bool.false_eq_true, if_false] at hw
          split at hw
          · cases hw
          · exact hs _ _ hw
      split at h
      · cases h
      · rename_i as hw
        obtain ⟨l, _, rfl⟩ := Option.map_eq_some_iff.1 h
        have := hhead _ _ hw
        simp only [flagged, List.any_append, Bool.or_eq_true, List.any_eq_true, decide_eq_true_eq]
        exact .inl ⟨_, this, rfl⟩
      · rename_i as d' hw
        have := hhead _ _ hw
        split at h
        · cases h
        · split at h
          · obtain ⟨l, _, rfl⟩ := Option.map_eq_some_iff.1 h
            simp only [flagged, List.any_append, Bool.or_eq_true, List.any_eq_true, decide_eq_true_eq]
            exact .inl ⟨_, this, rfl⟩
          · cases h
    · cases h

/-- The tasks are listed exactly by the line `get_tasks`. -/
theorem c75_lists_iff (argv : List Str) : readCommand argv = .list ↔ argv = [c!"get_tasks"] := by
  constructor
  · intro h
    have hw := (c75_first_word argv).2.1 h
    cases argv with
    | nil => cases hw
    | cons a args =>
      simp only [List.head?_cons, Option.some.injEq] at hw
      subst hw
      rw [readCommand_word _ _ (by decide)] at h
      have h : listCommand args = .list := h
      unfold listCommand at h
      split at h
      · cases h
      · rename_i acts hr
        by_cases hne : args = []
        · rw [hne]
        · rw [list_help args acts hr hne] at h
          cases h
  · rintro rfl
    decide +kernel

private theorem main_true (args : List Str) : readMain true args = if readMain false args = .exit then .exit else .version := by
  have hv : ∀ args, readMain true args = .version ∨ readMain true args = .exit := fun args => c75_version_first args c!"-V" (.inl rfl)
  cases args with
  | nil => rfl
  | cons a args =>
    by_cases hc : classify mainParser a = .value
    · unfold readMain
      rw [hc]
      simp only []
      cases subCommand a args <;> rfl
    · have e : readMain true (a :: args) = readMain false (a :: args) := by
        unfold readMain
        split
        · exact absurd (by assumption) hc
        · rfl
        · rfl
      rcases hv (a :: args) with h | h <;> rw [← e, h] <;> rfl

/-- With `-V` or `--version` in front, the version is shown if the rest of the line is in order, and a message about the usage if not. -/
theorem c75_version (args : List Str) (w : Str) (hw : w = c!"-V" ∨ w = c!"--version") :
    readCommand (w :: args) = if readCommand args = .exit then .exit else .version := by
  rcases hw with rfl | rfl <;> exact main_true args

example : readCommand [c!"--version"] = .version ∧ readCommand [c!"-V", c!"get_tasks"] = .version ∧
    readCommand [c!"-V", c!"get_tasks", c!"x"] = .exit := by decide +kernel

private theorem mainHelp_ok : HelpOk mainHelp := ⟨by decide, by decide, by decide, by decide, by decide, by decide⟩

private theorem main_word (w : Str) (os : List OptAct) :
    (∃ d x e, classify mainParser w = .option d x e ∧ wordOptions mainParser d x e = some (os, none)) ↔ WritesItem mainHelp os [w] := by
  have ht : mainParser = tableOf mainHelp := by decide
  have hr : readArgs mainParser [w] = some os ↔
      ∃ d x e, classify mainParser w = .option d x e ∧ wordOptions mainParser d x e = some (os, none) := by
    unfold readArgs
    split
    · rename_i d x e hc
      constructor
      · intro h
        refine ⟨d, x, e, hc, ?_⟩
        split at h
        · cases h
        · rename_i acts hw
          simp [readArgs] at h
          rw [hw, h]
        · cases h
      · rintro ⟨_, _, _, h', h⟩
        rw [hc] at h'
        cases h'
        rw [h]
        simp [readArgs]
    · rename_i hn
      constructor
      · intro h; cases h
      · rintro ⟨d, x, e, h, _⟩; exact absurd h (hn d x e)
  rw [← hr, ht, readArgs_iff mainHelp_ok (by decide)]
  constructor
  · rintro ⟨items, h1, h2, rfl⟩
    have len : ∀ i ∈ items, i.2 ≠ [] := by
      intro i hi
      have := h1 i hi
      generalize i.1 = o at this
      generalize i.2 = s at this ⊢
      cases this with
      | one g hg => cases hg <;> simp
      | cluster => simp
      | clusterApart => simp
    match items, h1, h2, len with
    | [], _, h2, _ => cases h2
    | [i], h1, h2, _ =>
      simp only [List.flatMap_cons, List.flatMap_nil, List.append_nil] at h2 ⊢
      rw [h2]
      exact h1 i (.head _)
    | i :: j :: l, _, h2, len =>
      exfalso
      have hl := congrArg List.length h2
      have a := List.length_pos_iff.2 (len i (.head _))
      have b := List.length_pos_iff.2 (len j (.tail _ (.head _)))
      simp only [List.flatMap_cons, List.length_append, List.length_cons, List.length_nil] at hl
      omega
  · intro h
    exact ⟨[(os, [w])], by simpa using h, by simp, by simp⟩

/-- The version is shown exactly by the lines whose first word writes the option for it, however abbreviated or repeated and not
together with the one for help, if the rest of the line is in order. -/
theorem c75_shows_version_iff (argv : List Str) : readCommand argv = .version ↔
    ∃ w rest os, argv = w :: rest ∧ WritesItem mainHelp os [w] ∧ (∀ g ∈ os, g.1 ≠ .help) ∧ readCommand rest ≠ .exit := by
  cases argv with
  | nil => simp [readCommand, readMain]
  | cons a rest =>
    simp only [List.cons.injEq]
    have hne : ∀ b, subCommand a b ≠ .version := by
      intro b
      simp only [subCommand, startCommand, listCommand, stopCommand]
      split
      · split
        · simp
        · split
          · simp
          · split <;> simp
      · split
        · split
          · simp
          · split <;> simp
        · split
          · split
            · simp
            · split <;> simp
          · simp
    have key : readCommand (a :: rest) = .version ↔ ∃ os, (∃ d x e, classify mainParser a = .option d x e ∧
        wordOptions mainParser d x e = some (os, none)) ∧ (∀ g ∈ os, g.1 ≠ .help) ∧ readCommand rest ≠ .exit := by
      unfold readCommand
      rw [readMain]
      split
      · rename_i hc
        constructor
        · intro h
          exfalso
          split at h
          · cases h
          · simp only [Bool.false_eq_true, if_false] at h
            exact hne _ h
        · rintro ⟨os, ⟨d, x, e, h, _⟩, _⟩
          rw [hc] at h; cases h
      · rename_i d x e hc
        split
        · rename_i acts hw
          have hf : flagged acts .help = true ↔ ¬ ∀ g ∈ acts, g.1 ≠ .help := by
            simp [flagged]
          constructor
          · intro h
            split at h
            · cases h
            · rename_i hh
              rw [main_true] at h
              refine ⟨acts, ⟨d, x, e, hc, hw⟩, ?_, ?_⟩
              · rw [hf] at hh; exact Classical.not_not.1 hh
              · intro he; rw [if_pos he] at h; cases h
          · rintro ⟨os, ⟨_, _, _, h1, h2⟩, h3, h4⟩
            rw [hc] at h1; cases h1
            rw [hw] at h2
            injection h2 with h2
            injection h2 with h2
            subst h2
            rw [if_neg (fun h => hf.1 h h3), main_true, if_neg h4]
        · rename_i hno
          constructor
          · intro h; cases h
          · rintro ⟨os, ⟨_, _, _, h1, h2⟩, _⟩
            rw [hc] at h1; cases h1
            exact absurd h2 (hno _)
      · rename_i h1 h2
        constructor
        · intro h; cases h
        · rintro ⟨os, ⟨d, x, e, h, _⟩, _⟩
          exact absurd h (h2 d x e)
    rw [key]
    constructor
    · rintro ⟨os, h, h3⟩
      exact ⟨a, rest, os, ⟨rfl, rfl⟩, (main_word a os).1 h, h3⟩
    · rintro ⟨_, _, os, ⟨rfl, rfl⟩, h, h3⟩
      exact ⟨os, (main_word _ os).2 h, h3⟩

/-- Both sides occur; with the option for help nothing is shown of the version. -/
example : readCommand [c!"-VV"] = .version ∧ readCommand [c!"--ver", c!"get_tasks"] = .version ∧ readCommand [c!"-Vh"] = .exit ∧
    readCommand [c!"-h", c!"-V"] = .exit := by decide +kernel

private theorem readArgs_dash (p : Parser) (hp : classify p c!"--" = .ambiguous) : ∀ n args, args.length ≤ n → c!"--" ∈ args → readArgs p args = none := by
  intro n
  induction n with
  | zero => intro args hn hm; cases args with
    | nil => cases hm
    | cons a l => simp at hn
  | succ n ih =>
    intro args hn hm
    cases args with
    | nil => cases hm
    | cons a rest =>
      simp only [List.length_cons] at hn
      unfold readArgs
      split
      · rename_i d w e hc
        have hne : a ≠ c!"--" := by intro h; rw [h, hp] at hc; cases hc
        have hr : c!"--" ∈ rest := by
          rcases List.mem_cons.1 hm with h | h
          · exact absurd h.symm hne
          · exact h
        split
        · rfl
        · rw [ih rest (by omega) hr]; rfl
        · split
          · rfl
          · rename_i v rest' 
            simp only [List.length_cons] at hn
            split
            · rename_i hv
              have hv' : v ≠ c!"--" := by intro h; rw [h, hp] at hv; cases hv
              have : c!"--" ∈ rest' := by
                rcases List.mem_cons.1 hr with h | h
                · exact absurd h.symm hv'
                · exact h
              rw [ih rest' (by omega) this]; rfl
            · rfl
      · rfl

/-- A line with the word `--` never runs a command and does not show the version. -/
theorem c75_double_dash (argv : List Str) (h : c!"--" ∈ argv) : readCommand argv = .exit := by
  have hsub : ∀ a args, c!"--" ∈ args → subCommand a args = .exit := by
    intro a args hm
    unfold subCommand
    split
    · unfold startCommand
      rw [readArgs_dash startParser (by decide +kernel) _ args (Nat.le_refl _) hm]
    · split
      · have h1 := c75_lists_iff (c!"get_tasks" :: args)
        rw [readCommand_word _ _ (by decide)] at h1
        have h2 : listCommand args ≠ .list := fun h => by
          have := h1.1 h
          simp only [List.cons.injEq, true_and] at this
          rw [this] at hm; cases hm
        unfold listCommand at h2 ⊢
        split
        · rfl
        · split
          · rfl
          · rename_i hr hf; rw [hr] at h2; simp only [hf] at h2; exact absurd rfl h2
      · split
        · unfold stopCommand
          rw [readArgs_dash stopParser (by decide +kernel) _ args (Nat.le_refl _) hm]
        · rfl
  have hmain : ∀ args v, c!"--" ∈ args → readMain v args = .exit := by
    intro args
    induction args with
    | nil => intro v hm; cases hm
    | cons a args ih =>
      intro v hm
      unfold readMain
      have hd : classify mainParser c!"--" = .ambiguous := by decide +kernel
      by_cases ha : a = c!"--"
      · rw [ha, hd]
      · have hr : c!"--" ∈ args := by
          rcases List.mem_cons.1 hm with h | h
          · exact absurd h.symm ha
          · exact h
        split
        · rw [hsub a args hr]
        · split
          · split
            · rfl
            · exact ih true hr
          · rfl
        · rfl
  exact hmain argv false h

example : readCommand [c!"start_task", c!"-n", c!"a", c!"-c", c!"--", c!"b.py"] = .exit ∧
    readCommand [c!"start_task", c!"-n", c!"a", c!"-c", c!"b.py"] ≠ .exit := by decide +kernel

end Jq
