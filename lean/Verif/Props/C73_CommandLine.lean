import Verif.Lemmas.Args
import Verif.Props.C48_Cli
/-!
# C73–C75: the command line

C73 a command line starts exactly the task that it describes; C74 what is read from the process list is what the task runs with;
C75 a command runs only if it was asked for.
-/
namespace Jq

/-! ## C73 -/

private theorem readMain_true (args : List Str) : readMain true args = .version ∨ readMain true args = .exit := by
  induction args with
  | nil => exact .inl rfl
  | cons a args ih =>
    unfold readMain
    split
    · split
      · exact .inr rfl
      · exact .inl rfl
    · split
      · split
        · exact .inr rfl
        · exact ih
      · exact .inr rfl
    · exact .inr rfl

private theorem classify_ne_option {a : Str} (h : a.head? ≠ some '-') : classify mainParser a = .value := by
  unfold classify
  rw [if_pos h]

/-- Without `-V` and a leading option, the first word is the command. -/
private theorem readCommand_cases (argv : List Str) :
    (argv = [] ∧ readCommand argv = .nothing) ∨ (readCommand argv = .version ∨ readCommand argv = .exit) ∨
    ∃ a args, argv = a :: args ∧ readCommand argv = subCommand a args := by
  cases argv with
  | nil => exact .inl ⟨rfl, rfl⟩
  | cons a args =>
    refine .inr ?_
    unfold readCommand readMain
    split
    · split
      · exact .inl (.inr rfl)
      · exact .inr ⟨a, args, rfl, rfl⟩
    · split
      · split
        · exact .inl (.inr rfl)
        · exact .inl (readMain_true args)
      · exact .inl (.inr rfl)
    · exact .inl (.inr rfl)

private theorem readCommand_sub (a : Str) (args : List Str) (h : a.head? ≠ some '-') : readCommand (a :: args) = subCommand a args := by
  unfold readCommand readMain
  rw [classify_ne_option h]
  simp only []
  cases subCommand a args <;> rfl

private theorem stored_map (gs : List Written) (d : Dest) : stored (gs.map fun g => (g.dest, g.value)) d = lastGiven d gs := by
  unfold stored lastGiven
  rw [List.filterMap_map]
  rfl

private theorem flagged_map (gs : List Written) (d : Dest) :
    flagged (gs.map fun g => (g.dest, g.value)) d = gs.any fun g => decide (g.dest = d) := by
  unfold flagged
  rw [List.any_map]
  rfl

/-- The description of a task by the options of a command line. -/
structure Describes (gs : List Written) (o : StartOpts) : Prop where
  written : ∀ g ∈ gs, Writes startHelp g ∧ g.dest ≠ .help
  name : lastGiven .name gs = some o.name
  code : lastGiven .code gs = some o.code
  out : o.out = lastGiven .out gs
  env : o.env = lastGiven .env gs
  config : o.config = lastGiven .config gs
  debug : o.debug = true ↔ ∃ g ∈ gs, g.dest = .debug

private theorem startCommand_iff (args : List Str) (o : StartOpts) :
    startCommand args = .start o ↔ ∃ gs, args = gs.flatMap (·.words) ∧ Describes gs o := by
  constructor
  · intro h
    unfold startCommand at h
    split at h
    · cases h
    · rename_i acts hr
      split at h
      · cases h
      · rename_i hh
        rw [Bool.not_eq_true] at hh
        rw [startParser_table] at hr
        obtain ⟨gs, h1, h2, h3⟩ := written_of_read startHelp_ok (by decide) args.length args (Nat.le_refl _) acts hr hh
        subst h3
        simp only [stored_map, flagged_map] at h hh
        split at h
        · rename_i name code hn hc
          cases h
          refine ⟨gs, h2, ⟨fun g hg => ⟨h1 g hg, fun e => ?_⟩, hn, hc, rfl, rfl, rfl, by simp⟩⟩
          rw [List.any_eq_false] at hh
          exact hh g hg (decide_eq_true e)
        · cases h
  · rintro ⟨gs, rfl, h⟩
    unfold startCommand
    rw [startParser_table, readArgs_written startHelp_ok gs fun g hg => (h.written g hg).1]
    simp only [stored_map, flagged_map, h.name, h.code]
    have hh : (gs.any fun g => decide (g.dest = .help)) = false := by
      rw [List.any_eq_false]
      intro g hg e
      exact (h.written g hg).2 (of_decide_eq_true e)
    rw [hh]
    simp only [Bool.false_eq_true, if_false, Command.start.injEq]
    obtain ⟨n, c, ou, en, cf, db⟩ := o
    have hd : (gs.any fun g => decide (g.dest = .debug)) = db := by
      have := h.debug
      cases db with
      | true => simpa using this
      | false => simpa using this
    rw [hd, ← h.out, ← h.env, ← h.config]

/-- A task is started exactly by the lines `start_task …` of its options, in any order and in any way of writing them; of an option
given more than once the last value counts; the name and the code are needed; help must not be asked for. -/
theorem c73_starts_iff (argv : List Str) (o : StartOpts) :
    readCommand argv = .start o ↔ ∃ gs : List Written, argv = c!"start_task" :: gs.flatMap (·.words) ∧ Describes gs o := by
  constructor
  · intro h
    rcases readCommand_cases argv with ⟨_, h'⟩ | (h' | h') | ⟨a, args, rfl, h'⟩
    · rw [h'] at h; cases h
    · rw [h'] at h; cases h
    · rw [h'] at h; cases h
    · rw [h'] at h
      unfold subCommand at h
      split at h
      · rename_i ha
        obtain ⟨gs, rfl, hd⟩ := (startCommand_iff args o).1 h
        exact ⟨gs, by rw [ha], hd⟩
      · split at h
        · unfold listCommand at h
          split at h
          · cases h
          · split at h <;> cases h
        · split at h
          · unfold stopCommand at h
            split at h
            · cases h
            · split at h <;> cases h
          · cases h
  · rintro ⟨gs, rfl, hd⟩
    rw [readCommand_sub _ _ (by decide)]
    exact (startCommand_iff _ o).2 ⟨gs, rfl, hd⟩

/-- Non-vacuity: all the ways of writing, a name given twice, a value with a blank and a negative number. -/
example :
    readCommand [c!"start_task", c!"-n", c!"a", c!"--cod=s.py", c!"--na", c!"b c", c!"-oout.log", c!"-e=A=1", c!"--con", c!"-5", c!"--d"] =
      .start { name := c!"b c", code := c!"s.py", out := some c!"out.log", env := some c!"A=1", config := some c!"-5", debug := true } := by
  decide +kernel

/-- Refused: no code, an ambiguous abbreviation, a value that is an option, an unknown option, a word too many, help. -/
example :
    readCommand [c!"start_task", c!"-n", c!"a"] = .exit ∧ readCommand [c!"start_task", c!"-n", c!"a", c!"--co", c!"s.py"] = .exit ∧
    readCommand [c!"start_task", c!"-n", c!"-c", c!"s.py"] = .exit ∧ readCommand [c!"start_task", c!"-n", c!"a", c!"-c", c!"s.py", c!"-x"] = .exit ∧
    readCommand [c!"start_task", c!"-n", c!"a", c!"-c", c!"s.py", c!"b"] = .exit ∧
    readCommand [c!"start_task", c!"-n", c!"a", c!"-c", c!"s.py", c!"-h"] = .exit := by decide +kernel

/-- A value that begins with `-` and has a blank, like no option of the command; with an option's whole word before `=` it is refused. -/
example :
    readCommand [c!"start_task", c!"-n", c!"--helpx=a b", c!"-c", c!"s.py"] = .start { name := c!"--helpx=a b", code := c!"s.py" } ∧
    readCommand [c!"start_task", c!"-n", c!"--help=a b", c!"-c", c!"s.py"] = .exit := by decide +kernel

/-- The documented ways of writing (`CmdOpt`, C48), with values that do not begin with `-`: the task has the values given last. -/
theorem c73_documented (opts : List CmdOpt) (name code : Str) (hv : ∀ o ∈ opts, ∀ v, o.value = some v → v.head? ≠ some '-')
    (hn : CmdOpt.last CmdOpt.name? opts = some name) (hc : CmdOpt.last CmdOpt.code? opts = some code) :
    readCommand (c!"start_task" :: opts.flatMap CmdOpt.words) = .start
      { name := name, code := code, out := CmdOpt.last CmdOpt.out? opts, env := CmdOpt.last CmdOpt.env? opts
        config := CmdOpt.last (fun | .config v => some v | _ => none) opts, debug := opts.contains .debug } := by
  rw [c73_starts_iff]
  let w : CmdOpt → Written := fun o =>
    { dest := match o with | .name .. => .name | .code .. => .code | .out .. => .out | .env .. => .env | .config _ => .config | .debug => .debug
      value := o.value, words := o.words, plain := true }
  have hl : ∀ d sel, (∀ o, (if (w o).dest = d then (w o).value else none) = sel o) → lastGiven d (opts.map w) = CmdOpt.last sel opts := by
    intro d sel h
    unfold lastGiven CmdOpt.last
    rw [List.filterMap_map]
    have : ((fun w : Written => if w.dest = d then w.value else none) ∘ w) = sel := funext h
    rw [this]
  refine ⟨opts.map w, ?_, ⟨?_, ?_, ?_, ?_, ?_, ?_, ?_⟩⟩
  · rw [List.flatMap_map]
  · intro g hg
    obtain ⟨o, ho, rfl⟩ := List.mem_map.1 hg
    have hval : ∀ v, o.value = some v → IsValue startHelp v := fun v h => .inl (hv o ho v h)
    have hlong : ∀ l ∈ startHelp, Abbrev startHelp l.long l := by
      intro l hl
      exact ⟨List.prefix_refl _, fun l' hl' hp => (startHelp_ok.longs l hl l' hl' hp).symm⟩
    cases o with
    | debug => exact ⟨.flag ⟨.debug, none, c!"--debug"⟩ c!"--debug" (by decide) rfl (.long _ (hlong ⟨.debug, none, c!"--debug"⟩ (by decide))), by simp [w]⟩
    | config v => exact ⟨.apart ⟨.config, none, c!"--config"⟩ c!"--config" v (by decide) rfl (.long _ (hlong ⟨.config, none, c!"--config"⟩ (by decide))) (hval v rfl), by simp [w]⟩
    | name l v =>
      refine ⟨?_, by simp [w]⟩
      cases l
      · exact .apart ⟨.name, some 'n', c!"--name"⟩ c!"-n" v (by decide) rfl (.short 'n' rfl) (hval v rfl)
      · exact .apart ⟨.name, some 'n', c!"--name"⟩ c!"--name" v (by decide) rfl (.long _ (hlong ⟨.name, some 'n', c!"--name"⟩ (by decide))) (hval v rfl)
    | code l v =>
      refine ⟨?_, by simp [w]⟩
      cases l
      · exact .apart ⟨.code, some 'c', c!"--code"⟩ c!"-c" v (by decide) rfl (.short 'c' rfl) (hval v rfl)
      · exact .apart ⟨.code, some 'c', c!"--code"⟩ c!"--code" v (by decide) rfl (.long _ (hlong ⟨.code, some 'c', c!"--code"⟩ (by decide))) (hval v rfl)
    | out l v =>
      refine ⟨?_, by simp [w]⟩
      cases l
      · exact .apart ⟨.out, some 'o', c!"--out"⟩ c!"-o" v (by decide) rfl (.short 'o' rfl) (hval v rfl)
      · exact .apart ⟨.out, some 'o', c!"--out"⟩ c!"--out" v (by decide) rfl (.long _ (hlong ⟨.out, some 'o', c!"--out"⟩ (by decide))) (hval v rfl)
    | env l v =>
      refine ⟨?_, by simp [w]⟩
      cases l
      · exact .apart ⟨.env, some 'e', c!"--env"⟩ c!"-e" v (by decide) rfl (.short 'e' rfl) (hval v rfl)
      · exact .apart ⟨.env, some 'e', c!"--env"⟩ c!"--env" v (by decide) rfl (.long _ (hlong ⟨.env, some 'e', c!"--env"⟩ (by decide))) (hval v rfl)
  · rw [← hn]; exact hl _ _ fun o => by cases o <;> rfl
  · rw [← hc]; exact hl _ _ fun o => by cases o <;> rfl
  · exact (hl _ _ fun o => by cases o <;> rfl).symm
  · exact (hl _ _ fun o => by cases o <;> rfl).symm
  · exact (hl _ _ fun o => by cases o <;> rfl).symm
  · simp only [List.contains_iff_mem, List.mem_map]
    constructor
    · intro h; exact ⟨w .debug, ⟨.debug, h, rfl⟩, rfl⟩
    · rintro ⟨g, ⟨o, ho, rfl⟩, hd⟩
      cases o with
      | debug => exact ho
      | _ => simp [w] at hd

/-- Non-vacuity. -/
example :
    let opts := [CmdOpt.debug, .name false c!"a", .config c!"x.py", .code true c!"s.py", .name true c!"b", .env false c!"A=1"]
    (∀ o ∈ opts, ∀ v, o.value = some v → v.head? ≠ some '-') ∧ CmdOpt.last CmdOpt.name? opts = some c!"b" ∧
    CmdOpt.last CmdOpt.code? opts = some c!"s.py" := by
  refine ⟨?_, by decide, by decide⟩
  intro o ho v hv
  simp only [List.mem_cons, List.not_mem_nil, or_false] at ho
  rcases ho with rfl | rfl | rfl | rfl | rfl | rfl <;> simp only [CmdOpt.value, Option.some.injEq, reduceCtorEq] at hv <;> subst hv <;> decide

/-! ## C74: what is read from the process list is what the task runs with -/

private theorem skip_item (info : TaskInfo) (w : Str) (rest : List Str) (h : w ∉ optionWords) : parseItems info (w :: rest) = parseItems info rest := by
  simp only [optionWords, List.mem_cons, List.not_mem_nil, or_false, not_or] at h
  obtain ⟨h1, h2, h3, h4, h5, h6, h7, h8, h9⟩ := h
  simp only [parseItems, h1, h2, h3, h4, h5, h6, h7, h8, h9, or_self, if_false]

private theorem word_exact : ∀ w ∈ optionWords, ∃ d, classify startParser w = .option d w none := by
  intro w hw
  simp only [optionWords, List.mem_cons, List.not_mem_nil, or_false] at hw
  rcases hw with rfl | rfl | rfl | rfl | rfl | rfl | rfl | rfl | rfl <;> exact ⟨_, rfl⟩

private theorem value_no_word {v : Str} (h : IsValue startHelp v) : v ∉ optionWords := by
  intro hw
  obtain ⟨d, hd⟩ := word_exact v hw
  rw [startParser_table, (classify_value startHelp_ok v).2 h] at hd
  cases hd

private theorem joined_no_word {l : HelpLine} (hl : l ∈ startHelp) {a v : Str} (h : OptWord startHelp l a (some v)) : a ∉ optionWords := by
  intro hw
  obtain ⟨d, hd⟩ := word_exact a hw
  obtain ⟨w, _, hc⟩ := classify_optWord startHelp_ok hl h
  rw [startParser_table, hc] at hd
  cases hd

private theorem short_no_word {l : HelpLine} (hl : l ∈ startHelp) {a : Str} (h : OptWord startHelp l a none) (h1 : a ≠ l.long)
    (h2 : some a ≠ l.letter.map fun c => ['-', c]) : a ∉ optionWords := by
  intro hw
  obtain ⟨d, hd⟩ := word_exact a hw
  obtain ⟨w, hf, hc⟩ := classify_optWord startHelp_ok hl h
  rw [startParser_table, hc] at hd
  cases hd
  cases hf with
  | short c hl => exact h2 (by rw [hl]; rfl)
  | long => exact h1 rfl

/-- What reading an option changes. -/
private def readOne (info : TaskInfo) (g : Written) : TaskInfo :=
  if g.plain then
    match g.dest with
    | .name => { info with name := g.value.or info.name }
    | .code => { info with code := g.value.or info.code }
    | .out => { info with out := g.value.or info.out }
    | .env => { info with env := g.value.or info.env }
    | .debug => { info with debug := true }
    | _ => info
  else info

private theorem mem_startHelp {l : HelpLine} (h : l ∈ startHelp) :
    l = ⟨.help, some 'h', c!"--help"⟩ ∨ l = ⟨.name, some 'n', c!"--name"⟩ ∨ l = ⟨.code, some 'c', c!"--code"⟩ ∨ l = ⟨.out, some 'o', c!"--out"⟩ ∨
    l = ⟨.env, some 'e', c!"--env"⟩ ∨ l = ⟨.config, none, c!"--config"⟩ ∨ l = ⟨.debug, none, c!"--debug"⟩ := by
  simpa [startHelp] using h

private theorem parse_written (info : TaskInfo) (g : Written) (rest : List Str) (h : Writes startHelp g) :
    parseItems info (g.words ++ rest) = parseItems (readOne info g) rest := by
  cases h with
  | joined l a v hl ht ho =>
    show parseItems info (a :: rest) = _
    rw [skip_item _ _ _ (joined_no_word hl ho)]
    rfl
  | flag l a hl ht ho =>
    show parseItems info (a :: rest) = _
    by_cases h1 : a = l.long
    · subst h1
      rcases mem_startHelp hl with rfl | rfl | rfl | rfl | rfl | rfl | rfl <;> first | (cases ht; done) | rfl
    · by_cases h2 : some a = l.letter.map fun c => ['-', c]
      · rcases mem_startHelp hl with rfl | rfl | rfl | rfl | rfl | rfl | rfl <;> first | (cases ht; done) | (cases h2; done) | skip
        simp only [Option.map_some, Option.some.injEq] at h2
        subst h2
        rfl
      · rw [skip_item _ _ _ (short_no_word hl ho h1 h2)]
        simp [readOne, h1, h2]
  | apart l a v hl ht ho hv =>
    have hv' := value_no_word hv
    show parseItems info (a :: v :: rest) = _
    by_cases hp : a = l.long ∨ some a = l.letter.map fun c => ['-', c]
    · have hp' : (decide (a = l.long) || decide (some a = l.letter.map fun c => ['-', c])) = true := by simpa using hp
      rw [hp']
      rcases mem_startHelp hl with rfl | rfl | rfl | rfl | rfl | rfl | rfl <;> first | (cases ht; done) | skip
      · have : parseItems info (a :: v :: rest) = parseItems { info with name := some v } (v :: rest) := by
          rcases hp with rfl | hp
          · rfl
          · simp only [Option.map_some, Option.some.injEq] at hp; subst hp; rfl
        rw [this, skip_item _ _ _ hv']
        rfl
      · have : parseItems info (a :: v :: rest) = parseItems { info with code := some v } (v :: rest) := by
          rcases hp with rfl | hp
          · rfl
          · simp only [Option.map_some, Option.some.injEq] at hp; subst hp; rfl
        rw [this, skip_item _ _ _ hv']
        rfl
      · have : parseItems info (a :: v :: rest) = parseItems { info with out := some v } (v :: rest) := by
          rcases hp with rfl | hp
          · rfl
          · simp only [Option.map_some, Option.some.injEq] at hp; subst hp; rfl
        rw [this, skip_item _ _ _ hv']
        rfl
      · have : parseItems info (a :: v :: rest) = parseItems { info with env := some v } (v :: rest) := by
          rcases hp with rfl | hp
          · rfl
          · simp only [Option.map_some, Option.some.injEq] at hp; subst hp; rfl
        rw [this, skip_item _ _ _ hv']
        rfl
      · rcases hp with rfl | hp
        · rw [skip_item _ _ _ (by decide), skip_item _ _ _ hv']
          rfl
        · cases hp
    · rw [not_or] at hp
      rw [skip_item _ _ _ (short_no_word hl ho hp.1 hp.2), skip_item _ _ _ hv']
      simp [readOne, hp.1, hp.2]

private theorem or_getLast' {α : Type} (v : α) (l : List α) (o : Option α) : (v :: l).getLast?.or o = l.getLast?.or (some v) := by
  rw [List.getLast?_cons]
  cases l.getLast? <;> rfl

private theorem parse_all (gs : List Written) (h : ∀ g ∈ gs, Writes startHelp g) (info : TaskInfo) :
    parseItems info (gs.flatMap (·.words)) = .ok
      { debug := info.debug || gs.any fun g => g.plain && decide (g.dest = .debug)
        env := (lastGiven .env (gs.filter (·.plain))).or info.env
        out := (lastGiven .out (gs.filter (·.plain))).or info.out
        code := (lastGiven .code (gs.filter (·.plain))).or info.code
        name := (lastGiven .name (gs.filter (·.plain))).or info.name } := by
  induction gs generalizing info with
  | nil => simp [lastGiven, parseItems]
  | cons g gs ih =>
    rw [List.flatMap_cons, parse_written _ _ _ (h g (by simp)), ih fun g hg => h g (by simp [hg])]
    have hv : g.dest = .name ∨ g.dest = .code ∨ g.dest = .out ∨ g.dest = .env ∨ g.dest = .config → ∃ v, g.value = some v := by
      have hg := h g (by simp)
      cases hg with
      | flag l a hl ht ho => rcases mem_startHelp hl with rfl | rfl | rfl | rfl | rfl | rfl | rfl <;> first | (cases ht; done) | simp
      | apart l a v => intro _; exact ⟨v, rfl⟩
      | joined l a v => intro _; exact ⟨v, rfl⟩
    obtain ⟨d, v, ws, p⟩ := g
    simp only at hv
    cases p with
    | false => simp [readOne, lastGiven]
    | true =>
      cases d with
      | name => obtain ⟨v, rfl⟩ := hv (by simp); simp [readOne, lastGiven, or_getLast']
      | code => obtain ⟨v, rfl⟩ := hv (by simp); simp [readOne, lastGiven, or_getLast']
      | out => obtain ⟨v, rfl⟩ := hv (by simp); simp [readOne, lastGiven, or_getLast']
      | env => obtain ⟨v, rfl⟩ := hv (by simp); simp [readOne, lastGiven, or_getLast']
      | debug => simp [readOne, lastGiven]
      | _ => simp [readOne, lastGiven]

private theorem skip_pre (pre : List Str) (hpre : ∀ w ∈ pre, w ∉ optionWords) (info : TaskInfo) (rest : List Str) :
    parseItems info (pre ++ rest) = parseItems info rest := by
  induction pre with
  | nil => rfl
  | cons w pre ih => rw [List.cons_append, skip_item _ _ _ (hpre w (by simp)), ih fun w hw => hpre w (by simp [hw])]

/-- Exactly what is read from the command line of a running task: of each option the last value that was written with the letter or the
full long word and in a word of its own; all other ways of writing are overlooked. -/
theorem c74_read_exact (pre : List Str) (gs : List Written) (o : StartOpts) (hpre : ∀ w ∈ pre, w ∉ optionWords) (h : Describes gs o) :
    parseTaskInfo (pre ++ c!"start_task" :: gs.flatMap (·.words)) = .ok
      { debug := gs.any fun g => g.plain && decide (g.dest = .debug)
        env := lastGiven .env (gs.filter (·.plain)), out := lastGiven .out (gs.filter (·.plain))
        code := lastGiven .code (gs.filter (·.plain)), name := lastGiven .name (gs.filter (·.plain)) } := by
  unfold parseTaskInfo
  rw [skip_pre pre hpre, skip_item _ _ _ (by decide), parse_all gs (fun g hg => (h.written g hg).1)]
  simp

/-- The words of the command line, so that each option is written with its letter or its full long word. -/
def PlainArgs (argv : List Str) : Prop := ∀ w ∈ argv, w.head? = some '-' → w ∈ optionWords ∨ w = c!"--config"

private theorem plain_of_args {g : Written} (h : Writes startHelp g) (hp : PlainArgs g.words) : g.plain = true := by
  have full : ∀ l ∈ startHelp, ∀ a e, OptWord startHelp l a e → (a ∈ optionWords ∨ a = c!"--config") →
      e = none ∧ (a = l.long ∨ some a = l.letter.map fun c => ['-', c]) := by
    intro l hl a e ho hw
    have : ∃ d, classify startParser a = .option d a none := by
      rcases hw with hw | rfl
      · exact word_exact a hw
      · exact ⟨_, rfl⟩
    obtain ⟨d, hd⟩ := this
    obtain ⟨w, hf, hc⟩ := classify_optWord startHelp_ok hl ho
    rw [startParser_table, hc] at hd
    cases hd
    refine ⟨rfl, ?_⟩
    cases hf with
    | short c hlc => exact .inr (by rw [hlc]; rfl)
    | long => exact .inl rfl
  have dash : ∀ l ∈ startHelp, ∀ a e, OptWord startHelp l a e → a.head? = some '-' := by
    intro l hl a e ho
    cases ho with
    | short | shortJoined | shortEq => rfl
    | long w h => obtain ⟨s, rfl, _⟩ := abbrev_shape startHelp_ok hl h; rfl
    | longEq w v h => obtain ⟨s, rfl, _⟩ := abbrev_shape startHelp_ok hl h; rfl
  cases h with
  | joined l a v hl ht ho =>
    obtain ⟨h, _⟩ := full l hl a _ ho (hp a (by simp) (dash l hl a _ ho))
    cases h
  | flag l a hl ht ho =>
    obtain ⟨_, h⟩ := full l hl a _ ho (hp a (by simp) (dash l hl a _ ho))
    simpa using h
  | apart l a v hl ht ho hv =>
    obtain ⟨_, h⟩ := full l hl a _ ho (hp a (by simp) (dash l hl a _ ho))
    simpa using h

/-- Every accepted command line in which the words that begin with `-` are option words in full: the process list shows the task with the
values that it runs with.  (What is missing: joined and abbreviated options, and values that begin with `-`.) -/
theorem c74_read_back_partial (pre argv : List Str) (o : StartOpts) (hpre : ∀ w ∈ pre, w ∉ optionWords) (h : readCommand argv = .start o)
    (hp : PlainArgs argv) :
    parseTaskInfo (pre ++ argv) = .ok { debug := o.debug, env := o.env, out := o.out, code := some o.code, name := some o.name } := by
  obtain ⟨gs, rfl, hd⟩ := (c73_starts_iff argv o).1 h
  have hall : ∀ g ∈ gs, g.plain = true := by
    intro g hg
    refine plain_of_args (hd.written g hg).1 fun w hw => hp w ?_
    exact List.mem_cons_of_mem _ (List.mem_flatMap.2 ⟨g, hg, hw⟩)
  rw [c74_read_exact pre gs o hpre hd, List.filter_eq_self.2 hall, hd.name, hd.code, ← hd.out, ← hd.env]
  have : (gs.any fun g => g.plain && decide (g.dest = .debug)) = o.debug := by
    have h2 := hd.debug
    rw [Bool.eq_iff_iff, h2, List.any_eq_true]
    constructor
    · rintro ⟨g, hg, h⟩
      rw [Bool.and_eq_true] at h
      exact ⟨g, hg, of_decide_eq_true h.2⟩
    · rintro ⟨g, hg, h⟩
      exact ⟨g, hg, by rw [hall g hg, h]; rfl⟩
  rw [this]

/-- Non-vacuity. -/
example :
    let argv := [c!"start_task", c!"-n", c!"a", c!"--code", c!"s.py", c!"--debug", c!"--config", c!"x.py", c!"--name", c!"b"]
    readCommand argv = .start { name := c!"b", code := c!"s.py", config := some c!"x.py", debug := true } ∧ PlainArgs argv := by
  refine ⟨by decide +kernel, ?_⟩
  unfold PlainArgs
  decide

private theorem joined_line (name code : Str) (hc : IsValue startHelp code) :
    Describes [⟨.name, some name, [c!"--name=" ++ name], false⟩, ⟨.code, some code, [c!"-c", code], true⟩] { name := name, code := code } := by
  refine ⟨?_, rfl, rfl, rfl, rfl, rfl, by simp⟩
  intro g hg
  simp only [List.mem_cons, List.not_mem_nil, or_false] at hg
  rcases hg with rfl | rfl
  · refine ⟨?_, Dest.noConfusion⟩
    have := Writes.joined (H := startHelp) ⟨.name, some 'n', c!"--name"⟩ (c!"--name" ++ '=' :: name) name (by decide) rfl
      (.longEq _ _ ⟨List.prefix_refl _, by decide⟩)
    exact this
  · refine ⟨?_, Dest.noConfusion⟩
    exact .apart ⟨.code, some 'c', c!"--code"⟩ c!"-c" code (by decide) rfl (.short 'c' rfl) hc

/-- Every task started with `--name=NAME` runs under its name, but the process list shows it without one: asking for its name is an
error. -/
theorem c74_joined_name_refuted (pre : List Str) (name code : Str) (hpre : ∀ w ∈ pre, w ∉ optionWords) (hc : IsValue startHelp code) :
    let argv := [c!"start_task", c!"--name=" ++ name, c!"-c", code]
    readCommand argv = .start { name := name, code := code } ∧ parseTaskInfo (pre ++ argv) = .ok { code := some code } ∧
    ∀ (again : Nat → Py (List Str)) (e : ProcEntry), again e.pid = .ok (pre ++ argv) → taskName again e = .error .keyError := by
  have hd := joined_line name code hc
  have h1 : readCommand [c!"start_task", c!"--name=" ++ name, c!"-c", code] = .start { name := name, code := code } :=
    (c73_starts_iff _ _).2 ⟨_, rfl, hd⟩
  have h2 : parseTaskInfo (pre ++ [c!"start_task", c!"--name=" ++ name, c!"-c", code]) = .ok { code := some code } :=
    c74_read_exact pre _ _ hpre hd
  refine ⟨h1, h2, fun again e he => ?_⟩
  unfold taskName
  rw [he]
  simp only [h2]

/-- … and while it runs no other task can be started, whatever its name is. -/
theorem c74_joined_name_blocks_refuted (pre : List Str) (name code : Str) (hpre : ∀ w ∈ pre, w ∉ optionWords) (hc : IsValue startHelp code)
    (i : InitEnv) (es : List ProcEntry) (e : ProcEntry) (hes : activeTasks i.views = .ok es) (he : e ∈ es) (hcur : e.pid ≠ i.cur) (hpar : e.pid ≠ i.parent)
    (hcmd : i.again e.pid = .ok (pre ++ [c!"start_task", c!"--name=" ++ name, c!"-c", code])) (other : Str) (env config : Option Str) (p : ProcEnv) :
    ∃ x, runnerInit i other env config p = (p, .error x) := by
  have hk := (c74_joined_name_refuted pre name code hpre hc).2.2 i.again e hcmd
  have : existRepeated i.cur i.parent other i.views i.again ≠ .ok false := by
    unfold existRepeated
    rw [hes]
    simp only []
    clear hes
    induction es with
    | nil => cases he
    | cons a es ih =>
      unfold existsNamed
      split
      · rename_i hs
        rcases List.mem_cons.1 he with rfl | he
        · rcases hs with hs | hs
          · exact absurd hs hcur
          · exact absurd hs hpar
        · exact ih he
      · rcases List.mem_cons.1 he with rfl | he
        · rw [hk]
          simp
        · split
          · simp
          · split
            · simp
            · exact ih he
  unfold runnerInit
  split
  · exact ⟨_, rfl⟩
  · split
    · exact ⟨_, rfl⟩
    · exact ⟨_, rfl⟩
    · rename_i h
      exact absurd h this

/-- Non-vacuity: such a task is running; starting the task `b` fails. -/
example :
    let e : ProcEntry := ⟨8, some 1, [c!"python", c!"-m", c!"jqtrade", c!"start_task", c!"--name=a", c!"-c", c!"s.py"]⟩
    let i : InitEnv := { codeExists := true, configExists := true, cur := 20, parent := 1, views := [.ok e], again := fun _ => .ok e.cmd }
    activeTasks i.views = .ok [e] ∧ IsValue startHelp c!"s.py" ∧ (runnerInit i c!"b" none none ⟨[], []⟩).2 = .error .keyError := by
  exact ⟨by decide +kernel, .inl (by decide), by decide +kernel⟩

/-! ## C75: a command runs only if it was asked for -/

private theorem listCommand_cases (args : List Str) : listCommand args = .list ∨ listCommand args = .exit := by
  unfold listCommand
  split
  · exact .inr rfl
  · split
    · exact .inr rfl
    · exact .inl rfl

private theorem stopCommand_cases (args : List Str) : (∃ o, stopCommand args = .stop o) ∨ stopCommand args = .exit := by
  unfold stopCommand
  split
  · exact .inr rfl
  · split
    · exact .inr rfl
    · exact .inl ⟨_, rfl⟩

private theorem startCommand_cases (args : List Str) : (∃ o, startCommand args = .start o) ∨ startCommand args = .exit := by
  unfold startCommand
  split
  · exact .inr rfl
  · split
    · exact .inr rfl
    · split
      · exact .inl ⟨_, rfl⟩
      · exact .inr rfl

/-- Tasks are started, listed or stopped only if the first word says so. -/
theorem c75_first_word (argv : List Str) :
    (∀ o, readCommand argv = .start o → argv.head? = some c!"start_task") ∧ (readCommand argv = .list → argv.head? = some c!"get_tasks") ∧
    (∀ o, readCommand argv = .stop o → argv.head? = some c!"stop_task") := by
  rcases readCommand_cases argv with ⟨_, h⟩ | (h | h) | ⟨a, args, rfl, h⟩
  · rw [h]; simp
  · rw [h]; simp
  · rw [h]; simp
  · rw [h]
    unfold subCommand
    split
    · rename_i ha
      rcases startCommand_cases args with ⟨o, h⟩ | h <;> rw [h] <;> simp [ha]
    · split
      · rename_i ha
        rcases listCommand_cases args with h | h <;> rw [h] <;> simp [ha]
      · split
        · rename_i ha
          rcases stopCommand_cases args with ⟨o, h⟩ | h <;> rw [h] <;> simp [ha]
        · simp

/-- With `-V` or `--version` in front, no command runs, whatever follows. -/
theorem c75_version_first (args : List Str) (w : Str) (hw : w = c!"-V" ∨ w = c!"--version") :
    readCommand (w :: args) = .version ∨ readCommand (w :: args) = .exit := by
  rcases hw with rfl | rfl <;> exact readMain_true args

/-- Non-vacuity: both happen. -/
example : readCommand [c!"-V", c!"stop_task", c!"--all"] = .version ∧ readCommand [c!"-V", c!"start_task"] = .exit := by decide +kernel

/-- Every way of writing the options of `stop_task`: the command has the values given last. -/
theorem c75_stop (gs : List Written) (h : ∀ g ∈ gs, Writes stopHelp g ∧ g.dest ≠ .help)
    (hp : ∀ g ∈ gs, g.dest = .pid → ∃ v n, g.value = some v ∧ pyInt v = some n) :
    readCommand (c!"stop_task" :: gs.flatMap (·.words)) = .stop
      { name := lastGiven .name gs, pid := (lastGiven .pid gs).bind pyInt, all := gs.any fun g => decide (g.dest = .all)
        force := gs.any fun g => decide (g.dest = .force) } := by
  rw [readCommand_sub _ _ (by decide)]
  show stopCommand _ = _
  unfold stopCommand
  rw [stopParser_table, readArgs_written stopHelp_ok gs fun g hg => (h g hg).1]
  simp only [stored_map, flagged_map]
  rw [if_neg]
  rw [Bool.not_eq_true, Bool.or_eq_false_iff, List.any_eq_false, List.any_eq_false]
  constructor
  · intro g hg e
    exact (h g hg).2 (of_decide_eq_true e)
  · intro a ha e
    obtain ⟨g, hg, rfl⟩ := List.mem_map.1 ha
    simp only [Bool.and_eq_true, decide_eq_true_eq] at e
    obtain ⟨v, n, h1, h2⟩ := hp g hg e.1
    rw [h1, Option.bind_some, h2] at e
    simp at e

/-- Non-vacuity, and other lines: several letters in a word, a pid that is no number. -/
example :
    readCommand [c!"stop_task", c!"-p", c!"7", c!"--na=a", c!"-f"] = .stop { name := some c!"a", pid := some 7, force := true } ∧
    (∀ g ∈ ([⟨.pid, some c!"7", [c!"-p", c!"7"], true⟩, ⟨.name, some c!"a", [c!"--na=a"], false⟩, ⟨.force, none, [c!"-f"], true⟩] : List Written),
      Writes stopHelp g ∧ g.dest ≠ .help) ∧
    readCommand [c!"stop_task", c!"-fn", c!"a"] = .stop { name := some c!"a", force := true } ∧
    readCommand [c!"stop_task", c!"-p", c!"x"] = .exit := by
  refine ⟨by decide +kernel, ?_, by decide +kernel, by decide +kernel⟩
  intro g hg
  simp only [List.mem_cons, List.not_mem_nil, or_false] at hg
  rcases hg with rfl | rfl | rfl
  · exact ⟨.apart ⟨.pid, some 'p', c!"--pid"⟩ c!"-p" c!"7" (by decide) rfl (.short 'p' rfl) (.inl (by decide)), by decide⟩
  · exact ⟨.joined ⟨.name, some 'n', c!"--name"⟩ (c!"--na" ++ '=' :: c!"a") c!"a" (by decide) rfl (.longEq _ _ ⟨by decide, by decide⟩), by decide⟩
  · exact ⟨.flag ⟨.force, some 'f', c!"--force"⟩ c!"-f" (by decide) rfl (.short 'f' rfl), by decide⟩

/-- Without any word there is neither a command nor a message about the usage: `options.func` does not exist, an `AttributeError`.
This is the only such command line. -/
theorem c75_no_word_refuted (argv : List Str) : readCommand argv = .nothing ↔ argv = [] := by
  constructor
  · intro h
    rcases readCommand_cases argv with ⟨h', _⟩ | (h' | h') | ⟨a, args, rfl, h'⟩
    · exact h'
    · rw [h'] at h; cases h
    · rw [h'] at h; cases h
    · rw [h'] at h
      unfold subCommand at h
      split at h
      · rcases startCommand_cases args with ⟨o, h2⟩ | h2 <;> rw [h2] at h <;> cases h
      · split at h
        · rcases listCommand_cases args with h2 | h2 <;> rw [h2] at h <;> cases h
        · split at h
          · rcases stopCommand_cases args with ⟨o, h2⟩ | h2 <;> rw [h2] at h <;> cases h
          · cases h
  · rintro rfl
    rfl

end Jq
