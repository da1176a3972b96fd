import Verif.Model.Cli
import Verif.Lemmas.Str
import Verif.Lemmas.Dict
/-! # C48, C50, C51, C62: command line, stopping tasks, environment settings -/
namespace Jq

/-! ## C48 -/

/-- The options of `start_task` as documented, each value a separate word; `true`: the long form. -/
inductive CmdOpt where
  | name (long : Bool) (v : Str)
  | code (long : Bool) (v : Str)
  | out (long : Bool) (v : Str)
  | env (long : Bool) (v : Str)
  | config (v : Str)
  | debug
deriving DecidableEq, Repr

def CmdOpt.words : CmdOpt → List Str
  | .name l v => [if l then c!"--name" else c!"-n", v]
  | .code l v => [if l then c!"--code" else c!"-c", v]
  | .out l v => [if l then c!"--out" else c!"-o", v]
  | .env l v => [if l then c!"--env" else c!"-e", v]
  | .config v => [c!"--config", v]
  | .debug => [c!"--debug"]

/-- The option words that `start_task` documents, apart from `--config`. -/
def optionWords : List Str :=
  [c!"-n", c!"--name", c!"-c", c!"--code", c!"-o", c!"--out", c!"-e", c!"--env", c!"--debug"]

def CmdOpt.value : CmdOpt → Option Str
  | .name _ v | .code _ v | .out _ v | .env _ v | .config v => some v
  | .debug => none

/-- What was given: as usual for command lines, the last one counts. -/
def CmdOpt.last (sel : CmdOpt → Option Str) (opts : List CmdOpt) : Option Str := (opts.filterMap sel).getLast?

def CmdOpt.name? : CmdOpt → Option Str
  | .name _ v => some v
  | _ => none
def CmdOpt.code? : CmdOpt → Option Str
  | .code _ v => some v
  | _ => none
def CmdOpt.out? : CmdOpt → Option Str
  | .out _ v => some v
  | _ => none
def CmdOpt.env? : CmdOpt → Option Str
  | .env _ v => some v
  | _ => none

private theorem parse_skip (info : TaskInfo) (w : Str) (rest : List Str) (h : w ∉ optionWords) : parseItems info (w :: rest) = parseItems info rest := by
  simp only [optionWords, List.mem_cons, List.not_mem_nil, or_false, not_or] at h
  obtain ⟨h1, h2, h3, h4, h5, h6, h7, h8, h9⟩ := h
  simp only [parseItems, h1, h2, h3, h4, h5, h6, h7, h8, h9, or_self, if_false]

private theorem or_getLast {α : Type} (v : α) (l : List α) (o : Option α) : (v :: l).getLast?.or o = l.getLast?.or (some v) := by
  rw [List.getLast?_cons]
  cases l.getLast? <;> rfl

private theorem parse_opts (opts : List CmdOpt) (hv : ∀ o ∈ opts, ∀ v, o.value = some v → v ∉ optionWords) (info : TaskInfo) :
    parseItems info (opts.flatMap CmdOpt.words) = .ok
      { debug := info.debug || opts.contains .debug
        env := (CmdOpt.last CmdOpt.env? opts).or info.env
        out := (CmdOpt.last CmdOpt.out? opts).or info.out
        code := (CmdOpt.last CmdOpt.code? opts).or info.code
        name := (CmdOpt.last CmdOpt.name? opts).or info.name } := by
  induction opts generalizing info with
  | nil => simp [CmdOpt.last, parseItems]
  | cons o opts ih =>
    have ih' := ih (fun o ho => hv o (List.mem_cons_of_mem _ ho))
    have hvo := hv o (by simp)
    cases o with
    | debug =>
      show parseItems info (c!"--debug" :: opts.flatMap CmdOpt.words) = _
      rw [show parseItems info (c!"--debug" :: opts.flatMap CmdOpt.words) = parseItems { info with debug := true } (opts.flatMap CmdOpt.words) from rfl, ih']
      simp [CmdOpt.last, CmdOpt.env?, CmdOpt.out?, CmdOpt.code?, CmdOpt.name?]
    | config v =>
      show parseItems info (c!"--config" :: v :: opts.flatMap CmdOpt.words) = _
      rw [parse_skip _ _ _ (by decide), parse_skip _ v _ (hvo v rfl), ih']
      simp [CmdOpt.last, CmdOpt.env?, CmdOpt.out?, CmdOpt.code?, CmdOpt.name?]
    | name l v =>
      have : parseItems info ((CmdOpt.name l v).words ++ opts.flatMap CmdOpt.words) = parseItems { info with name := some v } (v :: opts.flatMap CmdOpt.words) := by
        cases l <;> rfl
      rw [List.flatMap_cons, this, parse_skip _ v _ (hvo v rfl), ih']
      simp only [CmdOpt.last, CmdOpt.env?, CmdOpt.out?, CmdOpt.code?, CmdOpt.name?, List.filterMap_cons, or_getLast]
      simp
    | code l v =>
      have : parseItems info ((CmdOpt.code l v).words ++ opts.flatMap CmdOpt.words) = parseItems { info with code := some v } (v :: opts.flatMap CmdOpt.words) := by
        cases l <;> rfl
      rw [List.flatMap_cons, this, parse_skip _ v _ (hvo v rfl), ih']
      simp only [CmdOpt.last, CmdOpt.env?, CmdOpt.out?, CmdOpt.code?, CmdOpt.name?, List.filterMap_cons, or_getLast]
      simp
    | out l v =>
      have : parseItems info ((CmdOpt.out l v).words ++ opts.flatMap CmdOpt.words) = parseItems { info with out := some v } (v :: opts.flatMap CmdOpt.words) := by
        cases l <;> rfl
      rw [List.flatMap_cons, this, parse_skip _ v _ (hvo v rfl), ih']
      simp only [CmdOpt.last, CmdOpt.env?, CmdOpt.out?, CmdOpt.code?, CmdOpt.name?, List.filterMap_cons, or_getLast]
      simp
    | env l v =>
      have : parseItems info ((CmdOpt.env l v).words ++ opts.flatMap CmdOpt.words) = parseItems { info with env := some v } (v :: opts.flatMap CmdOpt.words) := by
        cases l <;> rfl
      rw [List.flatMap_cons, this, parse_skip _ v _ (hvo v rfl), ih']
      simp only [CmdOpt.last, CmdOpt.env?, CmdOpt.out?, CmdOpt.code?, CmdOpt.name?, List.filterMap_cons, or_getLast]
      simp

/-- Every order and choice of the documented options is read back as given. -/
theorem c48_read_back (pre : List Str) (opts : List CmdOpt) (hpre : ∀ w ∈ pre, w ∉ optionWords)
    (hv : ∀ o ∈ opts, ∀ v, o.value = some v → v ∉ optionWords) :
    parseTaskInfo (pre ++ opts.flatMap CmdOpt.words) = .ok
      { debug := opts.contains .debug, env := CmdOpt.last CmdOpt.env? opts, out := CmdOpt.last CmdOpt.out? opts
        code := CmdOpt.last CmdOpt.code? opts, name := CmdOpt.last CmdOpt.name? opts } := by
  have : ∀ info, parseItems info (pre ++ opts.flatMap CmdOpt.words) = parseItems info (opts.flatMap CmdOpt.words) := by
    intro info
    induction pre with
    | nil => rfl
    | cons w pre ih => rw [List.cons_append, parse_skip _ _ _ (hpre w (by simp)), ih fun w hw => hpre w (by simp [hw])]
  rw [parseTaskInfo, this, parse_opts opts hv]
  simp

/-- Non-vacuity: mixed forms, a repeated option, a config file. -/
example :
    let opts := [CmdOpt.debug, .name false c!"a", .config c!"x.py", .code true c!"s.py", .name true c!"b", .env false c!"A=1"]
    (∀ w ∈ [c!"python", c!"-m", c!"jqtrade", c!"start_task"], w ∉ optionWords) ∧ (∀ o ∈ opts, ∀ v, o.value = some v → v ∉ optionWords) ∧
    parseTaskInfo ([c!"python", c!"-m", c!"jqtrade", c!"start_task"] ++ opts.flatMap CmdOpt.words) =
      .ok { debug := true, env := some c!"A=1", code := some c!"s.py", name := some c!"b" } := by
  refine ⟨by decide, ?_, by decide⟩
  intro o ho v hv
  simp only [List.mem_cons, List.not_mem_nil, or_false] at ho
  rcases ho with rfl | rfl | rfl | rfl | rfl | rfl <;> simp only [CmdOpt.value, Option.some.injEq, reduceCtorEq] at hv <;> subst hv <;> decide

/-- The forms `--name=demo` and `-ndemo`, which `argparse` accepts as well, are not read back. -/
theorem c48_joined_form_refuted :
    parseTaskInfo [c!"python", c!"-m", c!"jqtrade", c!"start_task", c!"--name=demo", c!"-c", c!"s.py"] = .ok { code := some c!"s.py" } ∧
    parseTaskInfo [c!"python", c!"-m", c!"jqtrade", c!"start_task", c!"-ndemo", c!"-c", c!"s.py"] = .ok { code := some c!"s.py" } := by decide

/-! ## C50 and C62 -/

/-- The words of the command line, with blanks between, contain `w`. -/
def Mentions (w : Str) (cmd : List Str) : Prop := ∃ a b, joinWith c!" " cmd = a ++ w ++ b

/-- The process list can be read: a process that may not be looked at is no python process. -/
def Listable (vs : List ProcView) : Prop := ∀ r, .denied r ∈ vs → r = .ok false

/-- A process counted as a task: its command line has the two words, and no other such process is its child. -/
structure Running (vs : List ProcView) (e : ProcEntry) : Prop where
  listed : .ok e ∈ vs
  jqtrade : Mentions c!"jqtrade" e.cmd
  start : Mentions c!"start_task" e.cmd
  leaf : ∀ e', .ok e' ∈ vs → Mentions c!"jqtrade" e'.cmd → Mentions c!"start_task" e'.cmd → e'.ppid ≠ some e.pid

theorem hasSub_iff (sub s : Str) : hasSub sub s = true ↔ ∃ a b, s = a ++ sub ++ b := by
  induction s with
  | nil =>
    simp only [hasSub, decide_eq_true_eq]
    constructor
    · intro h; subst h; exact ⟨[], [], rfl⟩
    · rintro ⟨a, b, h⟩
      have := h.symm
      simp only [List.append_eq_nil_iff] at this
      exact this.1.2
  | cons c s ih =>
    simp only [hasSub, Bool.or_eq_true, ih, List.isPrefixOf_iff_prefix]
    constructor
    · rintro (⟨t, h⟩ | ⟨a, b, h⟩)
      · exact ⟨[], t, by rw [List.nil_append]; exact h.symm⟩
      · exact ⟨c :: a, b, by rw [h]; rfl⟩
    · rintro ⟨a, b, h⟩
      cases a with
      | nil => exact .inl ⟨b, by rw [h]; rfl⟩
      | cons a0 a => injection h with h1 h2; exact .inr ⟨a, b, h2⟩

private theorem isTaskCmd_iff (cmd : List Str) : isTaskCmd cmd = true ↔ Mentions c!"jqtrade" cmd ∧ Mentions c!"start_task" cmd := by
  simp only [isTaskCmd, Bool.and_eq_true, hasSub_iff]; rfl

private theorem taskEntries_ok (vs : List ProcView) (h : Listable vs) : ∃ es, taskEntries vs = .ok es ∧
    (∀ e, e ∈ es ↔ .ok e ∈ vs ∧ isTaskCmd e.cmd = true) ∧ List.Sublist (es.map (·.pid)) (vs.filterMap fun v => match v with | .ok e => some e.pid | _ => none) := by
  induction vs with
  | nil => exact ⟨[], rfl, by simp, by simp⟩
  | cons v vs ih =>
    obtain ⟨es, h1, h2, h3⟩ := ih (fun r hm => h r (by simp [hm]))
    cases v with
    | gone => exact ⟨es, h1, by simpa using h2, by simpa using h3⟩
    | denied b =>
      obtain rfl := h b (by simp)
      exact ⟨es, h1, by simpa using h2, by simpa using h3⟩
    | ok e =>
      by_cases hc : isTaskCmd e.cmd = true
      · refine ⟨e :: es, by simp only [taskEntries, hc, if_true, h1], ?_, ?_⟩
        · intro x
          simp only [List.mem_cons, h2, ProcView.ok.injEq]
          constructor
          · rintro (rfl | ⟨g1, g2⟩)
            · exact ⟨.inl rfl, hc⟩
            · exact ⟨.inr g1, g2⟩
          · rintro ⟨g1 | g1, g2⟩
            · exact .inl g1
            · exact .inr ⟨g1, g2⟩
        · simpa using h3
      · refine ⟨es, by simp only [taskEntries, hc]; exact h1, ?_, ?_⟩
        · intro x
          simp only [List.mem_cons, h2, ProcView.ok.injEq]
          constructor
          · rintro ⟨g1, g2⟩; exact ⟨.inr g1, g2⟩
          · rintro ⟨rfl | g1, g2⟩
            · exact absurd g2 hc
            · exact ⟨g1, g2⟩
        · simp only [List.filterMap_cons]; exact h3.cons _

/-- The pids of the process list. -/
def listedPids (vs : List ProcView) : List Nat := vs.filterMap fun v => match v with | .ok e => some e.pid | _ => none

theorem activeTasks_running (vs : List ProcView) (h : Listable vs) (hn : (listedPids vs).Nodup) : ∃ es, activeTasks vs = .ok es ∧
    (∀ e, e ∈ es ↔ Running vs e) ∧ (es.map (·.pid)).Nodup := by
  obtain ⟨es, h1, h2, h3⟩ := taskEntries_ok vs h
  refine ⟨dropParents es, by simp only [activeTasks, h1], ?_, ?_⟩
  · intro e
    simp only [dropParents, List.mem_filter, h2, isTaskCmd_iff, Bool.not_eq_true', List.contains_eq_mem, decide_eq_false_iff_not, List.mem_map]
    constructor
    · rintro ⟨⟨g1, g2, g3⟩, g4⟩
      exact ⟨g1, g2, g3, fun e' k1 k2 k3 he => g4 ⟨e', ⟨k1, k2, k3⟩, he⟩⟩
    · rintro ⟨g1, g2, g3, g4⟩
      exact ⟨⟨g1, g2, g3⟩, fun ⟨e', ⟨k1, k2, k3⟩, he⟩ => g4 e' k1 k2 k3 he⟩
  · exact ((List.filter_sublist (l := es)).map _).nodup (h3.nodup hn)

/-- If the listing succeeds, the list can be read. -/
theorem activeTasks_listable (vs : List ProcView) (es : List ProcEntry) (h : activeTasks vs = .ok es) : Listable vs := by
  have : ∀ vs es, taskEntries vs = .ok es → Listable vs := by
    intro vs
    induction vs with
    | nil => intro es _ r hr; cases hr
    | cons v vs ih =>
      intro es h r hr
      cases v with
      | gone => exact ih es h r (by simpa using hr)
      | denied b =>
        match b, h, hr with
        | .ok false, h, hr =>
          rcases List.mem_cons.1 hr with hr | hr
          · injection hr
          · exact ih es h r hr
      | ok e =>
        have hr : .denied r ∈ vs := by simpa using hr
        simp only [taskEntries] at h
        split at h
        · split at h
          · rename_i es' hes'; exact ih _ hes' r hr
          · cases h
        · exact ih es h r hr
  simp only [activeTasks] at h
  split at h
  · rename_i es' hes'; exact this _ _ hes'
  · cases h

/-- An error while listing is `AccessDenied`, or was raised when the name of a process was asked. -/
theorem activeTasks_error (vs : List ProcView) (x : PyErr) (h : activeTasks vs = .error x) : x = .accessDenied ∨ .denied (.error x) ∈ vs := by
  have : ∀ vs x, taskEntries vs = .error x → x = .accessDenied ∨ .denied (.error x) ∈ vs := by
    intro vs
    induction vs with
    | nil => intro x h; cases h
    | cons v vs ih =>
      intro x h
      have hih : ∀ x, taskEntries vs = .error x → x = .accessDenied ∨ .denied (.error x) ∈ v :: vs := fun x h => (ih x h).imp id (List.mem_cons_of_mem _)
      cases v with
      | gone => exact hih x h
      | denied b =>
        match b, h, hih with
        | .error y, h, _ => injection h with h; subst h; exact .inr (by simp)
        | .ok true, h, _ => injection h with h; exact .inl h.symm
        | .ok false, h, hih => exact hih x h
      | ok e =>
        simp only [taskEntries] at h
        split at h
        · split at h
          · cases h
          · rename_i y hy; injection h with h; subst h; exact hih _ hy
        · exact hih x h
  simp only [activeTasks] at h
  split at h
  · cases h
  · rename_i y hy; injection h with h; subst h; exact this _ _ hy

/-- The tasks chosen by the options: `--all` before `--pid` before `--name`. -/
def Selected (o : StopOpts) (again : Nat → Py (List Str)) (e : ProcEntry) : Prop :=
  o.all = true ∨ (o.all = false ∧ o.pid.getD 0 ≠ 0 ∧ (e.pid : Int) = o.pid.getD 0) ∨
  (o.all = false ∧ o.pid.getD 0 = 0 ∧ ∃ cmd info, again e.pid = .ok cmd ∧ parseTaskInfo cmd = .ok info ∧ info.name = some (o.name.getD []))

private theorem taskName_ok {again : Nat → Py (List Str)} {e : ProcEntry} {n : Str} (h : taskName again e = .ok n) :
    ∃ cmd info, again e.pid = .ok cmd ∧ parseTaskInfo cmd = .ok info ∧ info.name = some n := by
  simp only [taskName] at h
  split at h
  · cases h
  · rename_i cmd hc
    split at h
    · cases h
    · rename_i info hi
      split at h
      · cases h
      · rename_i m hm; injection h with h; subst h; exact ⟨cmd, info, hc, hi, hm⟩

private theorem taskName_eq {again : Nat → Py (List Str)} {e : ProcEntry} {n : Str} {cmd : List Str} {info : TaskInfo}
    (h1 : again e.pid = .ok cmd) (h2 : parseTaskInfo cmd = .ok info) (h3 : info.name = some n) : taskName again e = .ok n := by
  simp only [taskName, h1, h2, h3]

private theorem killTask_sent {force : Bool} {deliver : Nat → Py Unit} {e : ProcEntry} {p : Nat} {s : Sig} (h : (p, s) ∈ (killTask force deliver e).1) :
    p = e.pid ∧ s = if force then .kill else .term := by
  simp only [killTask] at h
  split at h
  · cases h
  · simp only [List.mem_singleton, Prod.mk.injEq] at h; exact h

private theorem stopAll_sent {force : Bool} {deliver : Nat → Py Unit} {es : List ProcEntry} {p : Nat} {s : Sig} (h : (p, s) ∈ (stopAll force deliver es).1) :
    s = (if force then .kill else .term) ∧ ∃ e ∈ es, e.pid = p := by
  induction es with
  | nil => cases h
  | cons e es ih =>
    simp only [stopAll] at h
    split at h
    · rename_i l x hk
      have := killTask_sent (by rw [hk]; exact h : (p, s) ∈ (killTask force deliver e).1)
      exact ⟨this.2, e, by simp, this.1.symm⟩
    · rename_i l hk
      rcases List.mem_append.1 h with h | h
      · have := killTask_sent (by rw [hk]; exact h : (p, s) ∈ (killTask force deliver e).1)
        exact ⟨this.2, e, by simp, this.1.symm⟩
      · obtain ⟨h1, e', h2, h3⟩ := ih h
        exact ⟨h1, e', by simp [h2], h3⟩

private theorem stopPid_sent {pid : Int} {force : Bool} {deliver : Nat → Py Unit} {es : List ProcEntry} {p : Nat} {s : Sig} (h : (p, s) ∈ (stopPid pid force deliver es).1) :
    s = (if force then .kill else .term) ∧ ∃ e ∈ es, e.pid = p ∧ (e.pid : Int) = pid := by
  induction es with
  | nil => cases h
  | cons e es ih =>
    simp only [stopPid] at h
    split at h
    · rename_i he
      have := killTask_sent h
      exact ⟨this.2, e, by simp, this.1.symm, he⟩
    · obtain ⟨h1, e', h2, h3⟩ := ih h
      exact ⟨h1, e', by simp [h2], h3⟩

private theorem stopName_sent {name : Str} {force : Bool} {again : Nat → Py (List Str)} {deliver : Nat → Py Unit} {es : List ProcEntry} {p : Nat} {s : Sig}
    (h : (p, s) ∈ (stopName name force again deliver es).1) :
    s = (if force then .kill else .term) ∧ ∃ e ∈ es, e.pid = p ∧ taskName again e = .ok name := by
  induction es with
  | nil => cases h
  | cons e es ih =>
    simp only [stopName] at h
    split at h
    · cases h
    · rename_i n hn
      split at h
      · rename_i he
        subst he
        split at h
        · rename_i l x hk
          have := killTask_sent (by rw [hk]; exact h : (p, s) ∈ (killTask force deliver e).1)
          exact ⟨this.2, e, by simp, this.1.symm, hn⟩
        · rename_i l hk
          rcases List.mem_append.1 h with h | h
          · have := killTask_sent (by rw [hk]; exact h : (p, s) ∈ (killTask force deliver e).1)
            exact ⟨this.2, e, by simp, this.1.symm, hn⟩
          · obtain ⟨h1, e', h2, h3⟩ := ih h
            exact ⟨h1, e', by simp [h2], h3⟩
      · obtain ⟨h1, e', h2, h3⟩ := ih h
        exact ⟨h1, e', by simp [h2], h3⟩

/-- Whatever goes wrong: a signal is only ever sent to a running task that the options select, and it is the right one. -/
theorem c50_only_selected (o : StopOpts) (vs : List ProcView) (again : Nat → Py (List Str)) (deliver : Nat → Py Unit) (hn : (listedPids vs).Nodup)
    (p : Nat) (s : Sig) (h : (p, s) ∈ (stopTask o vs again deliver).1) :
    s = (if o.force then .kill else .term) ∧ ∃ e, Running vs e ∧ e.pid = p ∧ Selected o again e := by
  cases ha : activeTasks vs with
  | error x => simp only [stopTask, ha] at h; cases h
  | ok es0 =>
    obtain ⟨es, h1, h2, _⟩ := activeTasks_running vs (activeTasks_listable vs es0 ha) hn
    simp only [stopTask, h1] at h
    split at h
    · cases h
    · split at h
      · rename_i ha
        obtain ⟨g1, e, g2, g3⟩ := stopAll_sent h
        exact ⟨g1, e, (h2 e).1 g2, g3, .inl ha⟩
      · rename_i ha
        have ha' : o.all = false := by simpa using ha
        split at h
        · rename_i hp
          obtain ⟨g1, e, g2, g3, g4⟩ := stopPid_sent h
          exact ⟨g1, e, (h2 e).1 g2, g3, .inr (.inl ⟨ha', hp, g4⟩)⟩
        · rename_i hp
          obtain ⟨g1, e, g2, g3, g4⟩ := stopName_sent h
          exact ⟨g1, e, (h2 e).1 g2, g3, .inr (.inr ⟨ha', by simpa using hp, taskName_ok g4⟩)⟩

/-- Without a selector nothing is signalled and an error is raised. -/
theorem c50_no_selector (o : StopOpts) (vs : List ProcView) (again : Nat → Py (List Str)) (deliver : Nat → Py Unit)
    (h1 : o.name = none ∨ o.name = some []) (h2 : o.pid = none ∨ o.pid = some 0) (h3 : o.all = false) :
    (stopTask o vs again deliver).1 = [] ∧ ∃ x, (stopTask o vs again deliver).2 = .error x ∧ (x = .valueError ∨ x = .accessDenied ∨ .denied (.error x) ∈ vs) := by
  have g1 : o.name.getD [] = [] := by rcases h1 with h | h <;> rw [h] <;> rfl
  have g2 : o.pid.getD 0 = 0 := by rcases h2 with h | h <;> rw [h] <;> rfl
  simp only [stopTask]
  cases ha : activeTasks vs with
  | error x => exact ⟨rfl, x, rfl, .inr (activeTasks_error vs x ha)⟩
  | ok es => simp [g1, g2, h3]

private theorem stopAll_all {force : Bool} {deliver : Nat → Py Unit} {es : List ProcEntry} (h : ∀ e ∈ es, deliver e.pid = .ok ()) :
    stopAll force deliver es = (es.map fun e => (e.pid, if force then .kill else .term), .ok ()) := by
  induction es with
  | nil => rfl
  | cons e es ih =>
    simp only [stopAll, killTask, h e (by simp), ih fun e he => h e (by simp [he]), List.map_cons]
    rfl

private theorem stopPid_all {pid : Int} {force : Bool} {deliver : Nat → Py Unit} {es : List ProcEntry} (h : ∀ e ∈ es, deliver e.pid = .ok ())
    (hn : (es.map (·.pid)).Nodup) :
    stopPid pid force deliver es = ((es.filter fun e => (e.pid : Int) = pid).map fun e => (e.pid, if force then .kill else .term), .ok ()) := by
  induction es with
  | nil => rfl
  | cons e es ih =>
    rw [List.map_cons, List.nodup_cons] at hn
    simp only [stopPid]
    by_cases he : (e.pid : Int) = pid
    · have : (es.filter fun e => (e.pid : Int) = pid) = [] := by
        rw [List.filter_eq_nil_iff]
        intro e' he' h'
        apply hn.1
        have : e.pid = e'.pid := by have := of_decide_eq_true h'; omega
        rw [this]; exact List.mem_map_of_mem he'
      rw [if_pos he, List.filter_cons_of_pos (by simpa using he), this]
      simp only [killTask, h e (by simp)]; rfl
    · rw [if_neg he, ih (fun e he => h e (by simp [he])) hn.2, List.filter_cons_of_neg (by simpa using he)]

private theorem stopName_all {name : Str} {force : Bool} {again : Nat → Py (List Str)} {deliver : Nat → Py Unit} {es : List ProcEntry}
    (h : ∀ e ∈ es, deliver e.pid = .ok ()) (hn : ∀ e ∈ es, ∃ n, taskName again e = .ok n) :
    stopName name force again deliver es = ((es.filter fun e => taskName again e = .ok name).map fun e => (e.pid, if force then .kill else .term), .ok ()) := by
  induction es with
  | nil => rfl
  | cons e es ih =>
    obtain ⟨n, he⟩ := hn e (by simp)
    have ih' := ih (fun e he => h e (by simp [he])) (fun e he => hn e (by simp [he]))
    simp only [stopName, he]
    by_cases hnn : name = n
    · subst hnn
      rw [if_pos rfl, List.filter_cons_of_pos (by simpa using he)]
      simp only [killTask, h e (by simp), ih', List.map_cons]; rfl
    · rw [if_neg hnn, ih', List.filter_cons_of_neg (by simp only [he]; simpa using fun e => hnn e.symm)]

/-- With a selector, when every running task can be read and signalled (and, for `--name`, has a readable name): every running
task that the options select is signalled, once, and no other. -/
theorem c50_exactly_selected_partial (o : StopOpts) (vs : List ProcView) (again : Nat → Py (List Str)) (deliver : Nat → Py Unit)
    (hsel : o.name.getD [] ≠ [] ∨ o.pid.getD 0 ≠ 0 ∨ o.all = true) (hden : Listable vs) (hn : (listedPids vs).Nodup)
    (hdel : ∀ e, Running vs e → deliver e.pid = .ok ())
    (hname : o.all = false → o.pid.getD 0 = 0 → ∀ e, Running vs e → ∃ cmd info n, again e.pid = .ok cmd ∧ parseTaskInfo cmd = .ok info ∧ info.name = some n) :
    (stopTask o vs again deliver).2 = .ok () ∧ ((stopTask o vs again deliver).1.map (·.1)).Nodup ∧
    ∀ p s, (p, s) ∈ (stopTask o vs again deliver).1 ↔ s = (if o.force then .kill else .term) ∧ ∃ e, Running vs e ∧ e.pid = p ∧ Selected o again e := by
  obtain ⟨es, h1, h2, h3⟩ := activeTasks_running vs hden hn
  have hd' : ∀ e ∈ es, deliver e.pid = .ok () := fun e he => hdel e ((h2 e).1 he)
  have hshape : ∀ f : ProcEntry → Bool, stopTask o vs again deliver = ((es.filter f).map fun e => (e.pid, if o.force then .kill else .term), .ok ()) →
      (∀ e ∈ es, (f e = true ↔ Selected o again e)) →
      (stopTask o vs again deliver).2 = .ok () ∧ ((stopTask o vs again deliver).1.map (·.1)).Nodup ∧
      ∀ p s, (p, s) ∈ (stopTask o vs again deliver).1 ↔ s = (if o.force then .kill else .term) ∧ ∃ e, Running vs e ∧ e.pid = p ∧ Selected o again e := by
    intro f hf hs
    rw [hf]
    refine ⟨rfl, ?_, ?_⟩
    · rw [List.map_map]
      exact ((List.filter_sublist (l := es) (p := f)).map (·.pid)).nodup h3
    · intro p s
      simp only [List.mem_map, List.mem_filter, Prod.mk.injEq]
      constructor
      · rintro ⟨e, ⟨g1, g2⟩, g3, g4⟩
        exact ⟨g4.symm, e, (h2 e).1 g1, g3, (hs e g1).1 g2⟩
      · rintro ⟨g1, e, g2, g3, g4⟩
        exact ⟨e, ⟨(h2 e).2 g2, (hs e ((h2 e).2 g2)).2 g4⟩, g3, g1.symm⟩
  have hno : ¬ (o.name.getD [] = [] ∧ o.pid.getD 0 = 0 ∧ o.all = false) := by
    rintro ⟨g1, g2, g3⟩
    rcases hsel with h | h | h
    · exact h g1
    · exact h g2
    · rw [g3] at h; cases h
  cases ha : o.all with
  | true =>
    refine hshape (fun _ => true) ?_ (fun e _ => by simp [Selected, ha])
    simp only [stopTask, h1]
    rw [if_neg hno, if_pos ha, stopAll_all hd', List.filter_eq_self.2 (by simp)]
  | false =>
    by_cases hp : o.pid.getD 0 = 0
    · refine hshape (fun e => taskName again e = .ok (o.name.getD [])) ?_ (fun e he => ?_)
      · have hnm : ∀ e ∈ es, ∃ n, taskName again e = .ok n := by
          intro e he
          obtain ⟨cmd, info, n, g1, g2, g3⟩ := hname ha hp e ((h2 e).1 he)
          exact ⟨n, taskName_eq g1 g2 g3⟩
        simp only [stopTask, h1]
        rw [if_neg hno, if_neg (by simp [ha]), if_neg (by simpa using hp), stopName_all hd' hnm]
      · simp only [decide_eq_true_eq, Selected, ha, hp, Bool.false_eq_true, false_or, true_and, ne_eq, not_true, false_and]
        constructor
        · exact taskName_ok
        · rintro ⟨cmd, info, g1, g2, g3⟩; exact taskName_eq g1 g2 g3
    · refine hshape (fun e => (e.pid : Int) = o.pid.getD 0) ?_ (fun e he => ?_)
      · simp only [stopTask, h1]
        rw [if_neg hno, if_neg (by simp [ha]), if_pos hp, stopPid_all hd' h3]
      · simp [Selected, ha, hp]

private def pyTask (pid ppid : Nat) (name : Str) : ProcView :=
  .ok ⟨pid, some ppid, [c!"python", c!"-m", c!"jqtrade", c!"start_task", c!"-n", name, c!"-c", c!"s.py"]⟩

/-- The command lines are still there when read again. -/
private def reread (vs : List ProcView) (pid : Nat) : Py (List Str) :=
  match vs.find? fun v => match v with | .ok e => e.pid == pid | _ => false with
  | some (.ok e) => .ok e.cmd
  | _ => .error .noSuchProcess

private def demoTable : List ProcView :=
  [.ok ⟨1, some 0, [c!"init"]⟩, .denied (.ok false), .ok ⟨7, some 1, [c!"sh", c!"-c", c!"python -m jqtrade start_task -n a -c s.py"]⟩, pyTask 8 7 c!"a", .gone, pyTask 9 1 c!"b", pyTask 10 1 c!"a"]

/-- Non-vacuity: the shell that started task 8 is not signalled. -/
example : stopTask { name := some c!"a" } demoTable (reread demoTable) (fun _ => .ok ()) = ([(8, .term), (10, .term)], .ok ()) ∧
    stopTask { name := some c!"a", pid := some 9, force := true } demoTable (reread demoTable) (fun _ => .ok ()) = ([(9, .kill)], .ok ()) ∧
    stopTask { pid := some 9, all := true } demoTable (reread demoTable) (fun _ => .ok ()) = ([(8, .term), (9, .term), (10, .term)], .ok ()) ∧
    stopTask { pid := some 1 } demoTable (reread demoTable) (fun _ => .ok ()) = ([], .ok ()) := by decide +kernel

/-- An editor that has a file of that name open makes `stop_task --name` fail before the task is reached. -/
theorem c50_unrelated_process_refuted :
    let vs := [ProcView.ok ⟨5, some 1, [c!"vim", c!"jqtrade/start_task.md"]⟩, pyTask 9 1 c!"b"]
    stopTask { name := some c!"b" } vs (reread vs) (fun _ => .ok ()) = ([], .error .keyError) := by decide +kernel

/-- A task with a child process that mentions the words is not signalled by `--all`, nor by its pid; the child is. -/
theorem c50_hidden_by_child_refuted :
    let vs := [pyTask 8 1 c!"a", .ok ⟨9, some 8, [c!"tail", c!"-f", c!"jqtrade_start_task.log"]⟩]
    stopTask { all := true } vs (reread vs) (fun _ => .ok ()) = ([(9, .term)], .ok ()) ∧
    stopTask { pid := some 8 } vs (reread vs) (fun _ => .ok ()) = ([], .ok ()) := by decide +kernel

/-- `stop_task -n start_task_a` signals itself. -/
theorem c50_signals_itself_refuted :
    let vs := [pyTask 8 1 c!"start_task_a", .ok ⟨20, some 1, [c!"python", c!"-m", c!"jqtrade", c!"stop_task", c!"-n", c!"start_task_a"]⟩]
    stopTask { name := some c!"start_task_a" } vs (reread vs) (fun _ => .ok ()) = ([(8, .term), (20, .term)], .ok ()) := by decide +kernel

/-- A task that ends while the list is read stays in the list; signalling it fails, and the tasks behind it are not signalled. -/
theorem c50_ended_meanwhile_refuted :
    let vs := [.ok ⟨8, none, [c!"python", c!"-m", c!"jqtrade", c!"start_task", c!"-n", c!"a", c!"-c", c!"s.py"]⟩, pyTask 9 1 c!"b"]
    stopTask { all := true } vs (reread vs) (fun p => if p = 8 then .error .noSuchProcess else .ok ()) = ([], .error .noSuchProcess) := by decide +kernel

/-! ## C62 -/

/-- When every running task has a readable name, the check says exactly whether a running task, other than the process and
its parent, has the name. -/
theorem c62_check_exact_partial (cur parent : Nat) (name : Str) (vs : List ProcView) (again : Nat → Py (List Str))
    (hden : Listable vs) (hn : (listedPids vs).Nodup) (hag : ∀ e, Running vs e → again e.pid = .ok e.cmd)
    (hname : ∀ e, Running vs e → e.pid ≠ cur → e.pid ≠ parent → ∃ info n, parseTaskInfo e.cmd = .ok info ∧ info.name = some n) :
    ∃ b, existRepeated cur parent name vs again = .ok b ∧
      (b = true ↔ ∃ e info, Running vs e ∧ e.pid ≠ cur ∧ e.pid ≠ parent ∧ parseTaskInfo e.cmd = .ok info ∧ info.name = some name) := by
  obtain ⟨es, h1, h2, _⟩ := activeTasks_running vs hden hn
  have key : ∀ l : List ProcEntry, (∀ e ∈ l, e ∈ es) → ∃ b, existsNamed cur parent name again l = .ok b ∧
      (b = true ↔ ∃ e ∈ l, ∃ info, e.pid ≠ cur ∧ e.pid ≠ parent ∧ parseTaskInfo e.cmd = .ok info ∧ info.name = some name) := by
    intro l hl
    induction l with
    | nil => exact ⟨false, rfl, by simp⟩
    | cons e l ih =>
      obtain ⟨b, g1, g2⟩ := ih fun e he => hl e (by simp [he])
      by_cases hs : e.pid = cur ∨ e.pid = parent
      · refine ⟨b, by simp only [existsNamed, if_pos hs, g1], ?_⟩
        rw [g2]
        constructor
        · rintro ⟨e', k1, k2⟩; exact ⟨e', by simp [k1], k2⟩
        · rintro ⟨e', k1, info, k2, k3, k4⟩
          rcases List.mem_cons.1 k1 with rfl | k1
          · rcases hs with hs | hs
            · exact absurd hs k2
            · exact absurd hs k3
          · exact ⟨e', k1, info, k2, k3, k4⟩
      · have hs' := not_or.1 hs
        have hr := (h2 e).1 (hl e (by simp))
        obtain ⟨info, n, k1, k2⟩ := hname e hr hs'.1 hs'.2
        have hnm : taskName again e = .ok n := taskName_eq (hag e hr) k1 k2
        by_cases hnn : name = n
        · subst hnn
          exact ⟨true, by simp only [existsNamed, if_neg hs, hnm, if_true], by simp only [true_iff]; exact ⟨e, by simp, info, hs'.1, hs'.2, k1, k2⟩⟩
        · refine ⟨b, by simp only [existsNamed, if_neg hs, hnm, if_neg hnn, g1], ?_⟩
          rw [g2]
          constructor
          · rintro ⟨e', k1, k2⟩; exact ⟨e', by simp [k1], k2⟩
          · rintro ⟨e', k3, info', k4, k5, k6, k7⟩
            rcases List.mem_cons.1 k3 with rfl | k3
            · rw [k1] at k6
              injection k6 with k6
              subst k6
              rw [k2] at k7
              injection k7 with k7
              exact absurd k7.symm hnn
            · exact ⟨e', k3, info', k4, k5, k6, k7⟩
  obtain ⟨b, g1, g2⟩ := key es fun e he => he
  refine ⟨b, by simp only [existRepeated, h1, g1], ?_⟩
  rw [g2]
  constructor
  · rintro ⟨e, k1, info, k2⟩; exact ⟨e, info, (h2 e).1 k1, k2⟩
  · rintro ⟨e, info, k1, k2⟩; exact ⟨e, (h2 e).2 k1, info, k2⟩

/-- The check fails when no other running task has the name and one of them has no name that can be read: no `-n` or
`--name` followed by a word in its command line, or it has ended since it was listed. -/
theorem c62_unreadable_refuted (cur parent : Nat) (name : Str) (vs : List ProcView) (again : Nat → Py (List Str))
    (hden : Listable vs) (hn : (listedPids vs).Nodup)
    (hfree : ∀ e cmd info, Running vs e → e.pid ≠ cur → e.pid ≠ parent → again e.pid = .ok cmd → parseTaskInfo cmd = .ok info → info.name ≠ some name)
    (e0 : ProcEntry) (h0 : Running vs e0) (hc : e0.pid ≠ cur) (hp : e0.pid ≠ parent)
    (hu : ∀ cmd info, again e0.pid = .ok cmd → parseTaskInfo cmd = .ok info → info.name = none) :
    ∃ x, existRepeated cur parent name vs again = .error x := by
  obtain ⟨es, h1, h2, _⟩ := activeTasks_running vs hden hn
  have key : ∀ l : List ProcEntry, (∀ e ∈ l, e ∈ es) → e0 ∈ l → ∃ x, existsNamed cur parent name again l = .error x := by
    intro l hl h
    induction l with
    | nil => simp at h
    | cons e l ih =>
      have ih' := fun h => ih (fun e he => hl e (by simp [he])) h
      by_cases hs : e.pid = cur ∨ e.pid = parent
      · rcases List.mem_cons.1 h with rfl | h
        · rcases hs with hs | hs
          · exact absurd hs hc
          · exact absurd hs hp
        · simp only [existsNamed, if_pos hs]; exact ih' h
      · have hs' := not_or.1 hs
        simp only [existsNamed, if_neg hs]
        cases ht : taskName again e with
        | error x => exact ⟨x, rfl⟩
        | ok n =>
          obtain ⟨cmd, info, k1, k2, k3⟩ : ∃ cmd info, again e.pid = .ok cmd ∧ parseTaskInfo cmd = .ok info ∧ info.name = some n := by
            unfold taskName at ht
            cases g1 : again e.pid with
            | error x => rw [g1] at ht; cases ht
            | ok cmd =>
              cases g2 : parseTaskInfo cmd with
              | error x => rw [g1] at ht; simp only [g2] at ht; cases ht
              | ok info =>
                cases g3 : info.name with
                | none => rw [g1] at ht; simp only [g2, g3] at ht; cases ht
                | some m => rw [g1] at ht; simp only [g2, g3] at ht; cases ht; exact ⟨cmd, info, rfl, g2, g3⟩
          rcases List.mem_cons.1 h with rfl | h
          · rw [hu cmd info k1 k2] at k3; cases k3
          · have : name ≠ n := fun hh => hfree e cmd info ((h2 e).1 (hl e (by simp))) hs'.1 hs'.2 k1 k2 (hh ▸ k3)
            simp only [if_neg this]
            exact ih' h
  obtain ⟨x, hx⟩ := key es (fun _ h => h) ((h2 e0).2 h0)
  exact ⟨x, by simp only [existRepeated, h1, hx]⟩

/-- A task without a name, and one that has just ended. -/
example : existRepeated 20 1 c!"c" [.ok ⟨8, some 1, [c!"python", c!"-m", c!"jqtrade", c!"start_task", c!"-c", c!"s.py"]⟩]
      (reread [.ok ⟨8, some 1, [c!"python", c!"-m", c!"jqtrade", c!"start_task", c!"-c", c!"s.py"]⟩]) = .error .keyError ∧
    existRepeated 20 1 c!"c" demoTable (fun _ => .error .noSuchProcess) = .error .noSuchProcess := by decide +kernel

/-- A task started with `--name=a` makes every later start fail, whatever its name. -/
theorem c62_joined_form_refuted (name : Str) :
    let vs := [ProcView.ok ⟨8, some 1, [c!"python", c!"-m", c!"jqtrade", c!"start_task", c!"--name=a", c!"-c", c!"s.py"]⟩]
    existRepeated 20 1 name vs (reread vs) = .error .keyError := by
  intro vs
  have h : activeTasks vs = .ok [⟨8, some 1, [c!"python", c!"-m", c!"jqtrade", c!"start_task", c!"--name=a", c!"-c", c!"s.py"]⟩] := by decide +kernel
  have h' : taskName (reread vs) ⟨8, some 1, [c!"python", c!"-m", c!"jqtrade", c!"start_task", c!"--name=a", c!"-c", c!"s.py"]⟩ = .error .keyError := by decide +kernel
  simp only [existRepeated, h, existsNamed, h']
  rfl

/-- Non-vacuity: the name `a` is taken, `c` is free; the own process and its parent do not count. -/
example : existRepeated 20 1 c!"a" demoTable (reread demoTable) = .ok true ∧ existRepeated 20 1 c!"c" demoTable (reread demoTable) = .ok false ∧
    existRepeated 9 1 c!"b" demoTable (reread demoTable) = .ok false := by decide +kernel

/-! ## C51 -/

/-- Only blanks. -/
def Blank (s : Str) : Prop := ∀ c ∈ s, isSpace c = true

/-- Without blanks at the ends. -/
def Trimmed (s : Str) : Prop := (∀ c, s.head? = some c → isSpace c = false) ∧ ∀ c, s.getLast? = some c → isSpace c = false

/-- A setting as written, with blanks around name and value. -/
structure Setting where
  name : Str
  value : Str
  b1 : Str := []
  b2 : Str := []
  b3 : Str := []
  b4 : Str := []

def Setting.text (s : Setting) : Str := s.b1 ++ s.name ++ s.b2 ++ '=' :: (s.b3 ++ s.value ++ s.b4)

structure Setting.Ok (s : Setting) : Prop where
  name : Trimmed s.name ∧ '=' ∉ s.name ∧ ';' ∉ s.name
  value : Trimmed s.value ∧ '=' ∉ s.value ∧ ';' ∉ s.value
  blanks : Blank s.b1 ∧ Blank s.b2 ∧ Blank s.b3 ∧ Blank s.b4

private theorem dropWhile_blank {b s : Str} (hb : Blank b) (hs : ∀ c, s.head? = some c → isSpace c = false) : List.dropWhile isSpace (b ++ s) = s := by
  induction b with
  | nil =>
    cases s with
    | nil => rfl
    | cons c s => simp [hs c rfl]
  | cons c b ih =>
    rw [List.cons_append, List.dropWhile_cons_of_pos (hb c (by simp))]
    exact ih fun c hc => hb c (by simp [hc])

private theorem strip_pad {a s b : Str} (ha : Blank a) (hb : Blank b) (hs : Trimmed s) : pyStrip (a ++ s ++ b) = s := by
  cases s with
  | nil =>
    have h1 : Blank (a ++ [] ++ b) := by
      intro c hc
      simp only [List.append_nil, List.mem_append] at hc
      exact hc.elim (ha c) (hb c)
    have h2 : List.dropWhile isSpace (a ++ [] ++ b) = [] := by
      have := dropWhile_blank (s := []) h1 (by simp)
      rwa [List.append_nil] at this
    simp only [pyStrip, lstripBy, rstripBy, h2]; rfl
  | cons c s =>
    have h1 : List.dropWhile isSpace (a ++ (c :: s) ++ b) = (c :: s) ++ b := by
      rw [List.append_assoc]
      exact dropWhile_blank ha fun x hx => hs.1 x hx
    have hb' : Blank b.reverse := fun x hx => hb x (by simpa using hx)
    have h2 : List.dropWhile isSpace ((c :: s) ++ b).reverse = (c :: s).reverse := by
      rw [List.reverse_append]
      exact dropWhile_blank hb' fun x hx => hs.2 x (by rw [← List.head?_reverse]; exact hx)
    simp only [pyStrip, lstripBy, rstripBy, h1, h2, List.reverse_reverse]

private theorem blank_not_mem {b : Str} (h : Blank b) {c : Char} (hc : isSpace c = false) : c ∉ b := fun hm => by
  have := h c hm; rw [hc] at this; cases this

private theorem parse_setting (s : Setting) (h : s.Ok) : parseSetting s.text = .ok (s.name, s.value) := by
  obtain ⟨⟨h1, h2, _⟩, ⟨h3, h4, _⟩, h5, h6, h7, h8⟩ := h
  have hb1 : Blank s.b2 := h6
  -- what the outer strip leaves
  have hstrip : ∃ b2' b3', Blank b2' ∧ Blank b3' ∧ ((b2' = s.b2) ∨ s.name = []) ∧
      pyStrip s.text = (s.name ++ b2') ++ '=' :: (b3' ++ s.value) := by
    have heq : isSpace '=' = false := by decide
    -- left
    have hl : ∃ n', (n' = s.name ++ s.b2 ∨ (s.name = [] ∧ n' = [])) ∧ List.dropWhile isSpace s.text = n' ++ '=' :: (s.b3 ++ s.value ++ s.b4) := by
      cases hn : s.name with
      | nil =>
        refine ⟨[], .inr ⟨rfl, rfl⟩, ?_⟩
        have : s.text = (s.b1 ++ s.b2) ++ '=' :: (s.b3 ++ s.value ++ s.b4) := by simp [Setting.text, hn]
        rw [this, List.nil_append]
        refine dropWhile_blank ?_ (fun c hc => ?_)
        · intro c hc; exact (List.mem_append.1 hc).elim (h5 c) (h6 c)
        · simp only [List.head?_cons, Option.some.injEq] at hc; subst hc; exact heq
      | cons c n =>
        refine ⟨_, .inl rfl, ?_⟩
        have : s.text = s.b1 ++ ((c :: n ++ s.b2) ++ '=' :: (s.b3 ++ s.value ++ s.b4)) := by simp [Setting.text, hn]
        rw [this]
        refine dropWhile_blank h5 (fun x hx => ?_)
        simp only [List.cons_append, List.head?_cons, Option.some.injEq] at hx
        subst hx
        exact h1.1 _ (by rw [hn]; rfl)
    obtain ⟨n', hn', hl⟩ := hl
    -- right
    have hr : ∃ b3', Blank b3' ∧ List.dropWhile isSpace (n' ++ '=' :: (s.b3 ++ s.value ++ s.b4)).reverse = (n' ++ '=' :: (b3' ++ s.value)).reverse := by
      cases hv : s.value with
      | nil =>
        refine ⟨[], fun _ h => (by cases h), ?_⟩
        have : (n' ++ '=' :: (s.b3 ++ [] ++ s.b4)).reverse = (s.b3 ++ s.b4).reverse ++ ('=' :: n'.reverse) := by simp
        rw [this]
        have h9 : (n' ++ '=' :: ([] ++ [])).reverse = '=' :: n'.reverse := by simp
        rw [h9]
        refine dropWhile_blank ?_ (fun c hc => ?_)
        · intro c hc
          rw [List.mem_reverse] at hc
          exact (List.mem_append.1 hc).elim (h7 c) (h8 c)
        · simp only [List.head?_cons, Option.some.injEq] at hc; subst hc; exact heq
      | cons c v =>
        refine ⟨s.b3, h7, ?_⟩
        have : (n' ++ '=' :: (s.b3 ++ (c :: v) ++ s.b4)).reverse = s.b4.reverse ++ (n' ++ '=' :: (s.b3 ++ (c :: v))).reverse := by simp
        rw [this]
        refine dropWhile_blank (fun x hx => h8 x (by simpa using hx)) (fun x hx => ?_)
        rw [List.head?_reverse] at hx
        have h9 : (n' ++ '=' :: (s.b3 ++ (c :: v))).getLast? = (c :: v).getLast? := by
          rw [show n' ++ '=' :: (s.b3 ++ (c :: v)) = (n' ++ '=' :: s.b3) ++ (c :: v) by simp, List.getLast?_append]
          rw [List.getLast?_cons]; rfl
        rw [h9, ← hv] at hx
        exact h3.2 x hx
    obtain ⟨b3', hb3, hr⟩ := hr
    have hfin : pyStrip s.text = n' ++ '=' :: (b3' ++ s.value) := by
      simp only [pyStrip, lstripBy, rstripBy, hl, hr, List.reverse_reverse]
    rcases hn' with rfl | ⟨hn, rfl⟩
    · exact ⟨s.b2, b3', h6, hb3, .inl rfl, hfin⟩
    · exact ⟨[], b3', fun _ h => (by cases h), hb3, .inr hn, by rw [hfin, hn]; rfl⟩
  obtain ⟨b2', b3', g1, g2, _, g3⟩ := hstrip
  have heq : isSpace '=' = false := by decide
  have hleft : '=' ∉ s.name ++ b2' := fun hm => (List.mem_append.1 hm).elim h2 (blank_not_mem g1 heq)
  have hright : '=' ∉ b3' ++ s.value := fun hm => (List.mem_append.1 hm).elim (blank_not_mem g2 heq) h4
  have hsplit : splitOn '=' (pyStrip s.text) = [s.name ++ b2', b3' ++ s.value] := by
    rw [g3, splitOn_append hleft, splitOn_not_mem hright]
  have e1 : pyStrip (s.name ++ b2') = s.name := by
    have := strip_pad (a := []) (b := b2') (fun _ h => (by cases h)) g1 h1
    simpa using this
  have e2 : pyStrip (b3' ++ s.value) = s.value := by
    have := strip_pad (a := b3') (b := []) g2 (fun _ h => (by cases h)) h3
    simpa using this
  simp only [parseSetting, hsplit, e1, e2]

/-- The last value given for a name. -/
def lastValue (ss : List Setting) (k : Str) : Option Str := ((ss.filter fun s => s.name = k).map (·.value)).getLast?

private theorem text_semi (s : Setting) (h : s.Ok) : ';' ∉ s.text := by
  obtain ⟨⟨_, _, h2⟩, ⟨_, _, h4⟩, h5, h6, h7, h8⟩ := h
  have hs : isSpace ';' = false := by decide
  simp only [Setting.text, List.mem_append, List.mem_cons, not_or]
  exact ⟨⟨⟨blank_not_mem h5 hs, h2⟩, blank_not_mem h6 hs⟩, by decide, ⟨blank_not_mem h7 hs, h4⟩, blank_not_mem h8 hs⟩

/-- Every list of settings is accepted, blanks around names and values do not matter, and each name gets its last value. -/
theorem c51_last_value (ss : List Setting) (hne : ss ≠ []) (h : ∀ s ∈ ss, s.Ok) :
    ∃ d, parseEnv (joinWith c!";" (ss.map Setting.text)) = .ok d ∧ ∀ k, dget d k = lastValue ss k := by
  have hsplit : splitOn ';' (joinWith c!";" (ss.map Setting.text)) = ss.map Setting.text := by
    apply splitOn_joinWith
    · simpa using hne
    · intro p hp
      obtain ⟨s, hs, rfl⟩ := List.mem_map.1 hp
      exact text_semi s (h s hs)
  rw [parseEnv, hsplit]
  have key : ∀ (ss : List Setting) (d0 : Dict Str Str), (∀ s ∈ ss, s.Ok) → ∃ d, parseSettings d0 (ss.map Setting.text) = .ok d ∧
      ∀ k, dget d k = (lastValue ss k).or (dget d0 k) := by
    intro ss
    induction ss with
    | nil => intro d0 _; exact ⟨d0, rfl, fun k => rfl⟩
    | cons s ss ih =>
      intro d0 hs
      obtain ⟨d, g1, g2⟩ := ih (dset d0 s.name s.value) fun x hx => hs x (by simp [hx])
      refine ⟨d, by simp only [List.map_cons, parseSettings, parse_setting s (hs s (by simp)), g1], fun k => ?_⟩
      rw [g2 k, dget_dset, lastValue, lastValue]
      by_cases hk : s.name = k
      · rw [if_pos hk, List.filter_cons_of_pos (by simpa using hk), List.map_cons, or_getLast]
      · rw [if_neg hk, List.filter_cons_of_neg (by simpa using hk)]
  obtain ⟨d, g1, g2⟩ := key ss [] h
  exact ⟨d, g1, fun k => by rw [g2 k]; simp [dget]⟩

private theorem dget_update (d e : Dict Str Str) (hd : DictOk d) (k : Str) : dget (dictUpdate e d) k = (dget d k).or (dget e k) := by
  induction d generalizing e with
  | nil => rfl
  | cons p d ih =>
    obtain ⟨k0, v0⟩ := p
    rw [DictOk, dkeys, List.map_cons, List.nodup_cons] at hd
    show dget (dictUpdate (dset e k0 v0) d) k = _
    rw [ih (dset e k0 v0) hd.2, dget_dset]
    simp only [dget]
    by_cases hk : k0 = k
    · subst hk
      have : dget d k0 = none := (dget_eq_none d k0).2 hd.1
      simp [this]
    · simp [hk]

private theorem parseSettings_ok (ss : List Str) (d0 d : Dict Str Str) (h0 : DictOk d0) (h : parseSettings d0 ss = .ok d) : DictOk d := by
  induction ss generalizing d0 with
  | nil => injection h with h; subst h; exact h0
  | cons s ss ih =>
    simp only [parseSettings] at h
    split at h
    · cases h
    · exact ih _ (h0.dset _ _) h

private theorem foldl_front (l p : List Str) : l.reverse.foldl (fun path x => x :: path) p = l ++ p := by
  induction l generalizing p with
  | nil => rfl
  | cons a l ih => rw [List.reverse_cons, List.foldl_append, ih]; rfl

/-- Applying them: the environment has the last value of each name and is otherwise as before; the entries of `PYTHONPATH`
come in front of the module path in their order. -/
theorem c51_applied (ss : List Setting) (hne : ss ≠ []) (h : ∀ s ∈ ss, s.Ok) (p : ProcEnv) :
    ∃ q, applyEnv (some (joinWith c!";" (ss.map Setting.text))) p = (q, .ok ()) ∧
      (∀ k, dget q.environ k = (lastValue ss k).or (dget p.environ k)) ∧
      (lastValue ss c!"PYTHONPATH" = none → q.sysPath = p.sysPath) ∧
      ∀ dirs, dirs ≠ [] → (∀ x ∈ dirs, ':' ∉ x) → lastValue ss c!"PYTHONPATH" = some (joinWith c!":" dirs) → q.sysPath = dirs ++ p.sysPath := by
  obtain ⟨d, h1, h2⟩ := c51_last_value ss hne h
  have hok : DictOk d := parseSettings_ok _ _ _ .nil h1
  have hnz : joinWith c!";" (ss.map Setting.text) ≠ [] := by
    have heq : '=' ∈ joinWith c!";" (ss.map Setting.text) := by
      cases ss with
      | nil => exact absurd rfl hne
      | cons s ss =>
        have : '=' ∈ s.text := by simp [Setting.text]
        cases ss with
        | nil => exact this
        | cons s2 ss =>
          rw [List.map_cons, List.map_cons, joinWith_cons]
          exact List.mem_append.2 (.inl (List.mem_append.2 (.inl this)))
    intro e; rw [e] at heq; cases heq
  refine ⟨_, by simp only [applyEnv, Option.getD_some, if_neg hnz, h1]; rfl, fun k => ?_, fun hn => ?_, fun dirs hd hc hl => ?_⟩
  · show dget (dictUpdate _ _) k = _
    rw [dget_update d _ hok, h2]
  · simp only [h2, hn]
  · simp only [h2, hl, splitOn_joinWith hd hc, foldl_front]

/-- Nothing is changed when a setting is refused. -/
theorem c51_refused_unchanged (env : Option Str) (p : ProcEnv) (x : PyErr) (h : (applyEnv env p).2 = .error x) : (applyEnv env p).1 = p ∧ x = .valueError := by
  have hp : ∀ (ss : List Str) (d : Dict Str Str) (x : PyErr), parseSettings d ss = .error x → x = .valueError := by
    intro ss
    induction ss with
    | nil => intro d x h; cases h
    | cons s ss ih =>
      intro d x h
      simp only [parseSettings] at h
      split at h
      · rename_i y hy
        injection h with h; subst h
        simp only [parseSetting] at hy
        split at hy
        · cases hy
        · injection hy with hy; exact hy.symm
      · exact ih _ _ h
  simp only [applyEnv] at h ⊢
  split at h
  · rename_i y hy
    injection h with h; subst h
    split at hy
    · cases hy
    · exact ⟨rfl, hp _ _ _ hy⟩
  · cases h

private theorem dropWhile_count (p : Char → Bool) (c : Char) (h : p c = false) (s : Str) : (s.dropWhile p).count c = s.count c := by
  induction s with
  | nil => rfl
  | cons d s ih =>
    rw [List.dropWhile_cons]
    split
    · rename_i hd
      rw [ih, List.count_cons, if_neg (by intro e; rw [beq_iff_eq] at e; subst e; rw [h] at hd; cases hd)]; rfl
    · rfl

private theorem strip_count (s : Str) : (pyStrip s).count '=' = s.count '=' := by
  simp only [pyStrip, lstripBy, rstripBy, List.count_reverse]
  rw [dropWhile_count _ _ (by decide), List.count_reverse, dropWhile_count _ _ (by decide)]

private theorem splitOn_eq_length (s : Str) : (splitOn '=' s).length = s.count '=' + 1 := by
  induction s with
  | nil => rfl
  | cons c s ih =>
    simp only [splitOn]
    by_cases hc : c = '='
    · rw [if_pos hc, List.length_cons, ih, hc, List.count_cons_self]
    · rw [if_neg hc, List.count_cons_of_ne hc, ← ih]
      cases e : splitOn '=' s with
      | nil => exact absurd e (splitOn_ne_nil _ _)
      | cons p ps => rfl

/-- The settings are accepted exactly if none are given (then nothing changes) or if every part between semicolons has one equals sign. -/
theorem c51_accepted_exactly (env : Option Str) (p : ProcEnv) :
    ((applyEnv env p).2 = .ok () ↔ env = none ∨ env = some [] ∨ ∀ part ∈ splitOn ';' (env.getD []), part.count '=' = 1) ∧
    (env = none ∨ env = some [] → applyEnv env p = (p, .ok ())) := by
  have none_given : env.getD [] = [] ↔ env = none ∨ env = some [] := by
    cases env with
    | none => simp
    | some e => simp
  have one : ∀ part : Str, (∃ kv, parseSetting part = .ok kv) ↔ part.count '=' = 1 := by
    intro part
    rw [← strip_count]
    have hl := splitOn_eq_length (pyStrip part)
    simp only [parseSetting]
    match hs : splitOn '=' (pyStrip part) with
    | [] => rw [hs] at hl; simp at hl
    | [k] => rw [hs] at hl; simp at hl ⊢; omega
    | [k, v] => rw [hs] at hl; simp at hl ⊢; omega
    | k :: v :: w :: r => rw [hs] at hl; simp at hl ⊢; omega
  have all : ∀ (ss : List Str) (d : Dict Str Str), (∃ d', parseSettings d ss = .ok d') ↔ ∀ part ∈ ss, part.count '=' = 1 := by
    intro ss
    induction ss with
    | nil => intro d; exact ⟨fun _ _ h => (by cases h), fun _ => ⟨d, rfl⟩⟩
    | cons s ss ih =>
      intro d
      rw [List.forall_mem_cons, ← one s]
      simp only [parseSettings]
      cases hp : parseSetting s with
      | error x => simp
      | ok kv => obtain ⟨k, v⟩ := kv; simp only [ih, Except.ok.injEq, exists_eq', true_and]
  have empty : env.getD [] = [] → applyEnv env p = (p, .ok ()) := by
    intro h
    simp only [applyEnv, h, if_true, dictUpdate, List.foldl_nil]
    rfl
  refine ⟨?_, fun h => empty (none_given.2 h)⟩
  by_cases he : env.getD [] = []
  · rw [empty he, ← or_assoc, ← none_given]; simp [he]
  · rw [← or_assoc, ← none_given, or_iff_right he, ← all _ []]
    simp only [applyEnv, if_neg he, parseEnv]
    cases parseSettings [] (splitOn ';' (env.getD [])) <;> simp

/-- None given, and one that is refused. -/
example : applyEnv none ⟨[(c!"A", c!"0")], [c!"/lib"]⟩ = (⟨[(c!"A", c!"0")], [c!"/lib"]⟩, .ok ()) ∧
    ¬ (∀ part ∈ splitOn ';' c!"A=1;B", part.count '=' = 1) :=
  ⟨(c51_accepted_exactly none _).2 (.inl rfl), by decide +kernel⟩

/-- Non-vacuity: blanks, a repeated name, an empty value, a module path. -/
example : parseEnv c!" A = 1 ;PYTHONPATH=./x:/y; A=2;B=" = .ok [(c!"A", c!"2"), (c!"PYTHONPATH", c!"./x:/y"), (c!"B", [])] ∧
    (applyEnv (some c!"A=1;PYTHONPATH=./x:/y") ⟨[(c!"A", c!"0"), (c!"Z", c!"9")], [c!"/lib"]⟩).1 =
      ⟨[(c!"A", c!"1"), (c!"Z", c!"9"), (c!"PYTHONPATH", c!"./x:/y")], [c!"./x", c!"/y", c!"/lib"]⟩ := by decide +kernel

/-- Refused: a semicolon at the end, and a value with an equals sign. -/
theorem c51_trailing_semicolon_refuted : parseEnv c!"A=1;" = .error .valueError ∧ parseEnv c!"A=x=y" = .error .valueError := by decide +kernel

end Jq
