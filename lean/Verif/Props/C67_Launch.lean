import Verif.Model.Launch
import Verif.Props.C48_Cli
import Verif.Props.C52_Config
/-! # C67–C71: starting a task, listing tasks, what a task writes -/
namespace Jq

/-! ## C67: the file that is run -/

/-- A path as given with `-c`: a file name, possibly after a directory. -/
def givenPath (dir : Option Str) (file : Str) : Str := dir.elim file fun d => d ++ '/' :: file

/-- The file it names, as the import system writes it. -/
def givenFile (dir : Option Str) (file : Str) : Str := (dir.getD c!".") ++ '/' :: file

/-- A directory written without a slash at its end. -/
def PlainDir (dir : Option Str) : Prop := ∀ d, dir = some d → d ≠ [] ∧ d.getLast? ≠ some '/'

private theorem takeWhile_all {p : Char → Bool} {l : Str} (h : ∀ c ∈ l, p c = true) (r : Str) (hr : ∀ c ∈ r.head?, p c = false) :
    (l ++ r).takeWhile p = l := by
  induction l with
  | nil =>
    cases r with
    | nil => rfl
    | cons c r => simp [hr c (by simp)]
  | cons c l ih => simp only [List.cons_append, List.takeWhile_cons, h c (by simp), if_true]; rw [ih fun c hc => h c (by simp [hc])]

private theorem loaderInit_given (dir : Option Str) (file : Str) (hd : PlainDir dir) (hf : '/' ∉ file) :
    loaderInit (givenPath dir file) = (dir.getD c!".", file) := by
  have hrev : ∀ c ∈ file.reverse, (c != '/') = true := by
    intro c hc
    simp only [bne_iff_ne, ne_eq]
    rintro rfl
    exact hf (by simpa using hc)
  cases dir with
  | none =>
    have h1 : (file.reverse.takeWhile fun c => c != '/') = file.reverse := by
      have := takeWhile_all hrev [] (by simp)
      simpa using this
    simp only [givenPath, Option.elim, loaderInit, pathSplit, h1, List.reverse_reverse]
    simp
  | some d =>
    obtain ⟨h0, hl⟩ := hd d rfl
    have h1 : ((d ++ '/' :: file).reverse.takeWhile fun c => c != '/') = file.reverse := by
      rw [show (d ++ '/' :: file).reverse = file.reverse ++ ('/' :: d.reverse) by simp]
      exact takeWhile_all hrev _ (by simp)
    have h2 : (d ++ '/' :: file).take ((d ++ '/' :: file).length - file.length) = d ++ ['/'] := by
      rw [show d ++ '/' :: file = (d ++ ['/']) ++ file by simp, List.length_append, Nat.add_sub_cancel, List.take_left' rfl]
    have hne : ((d ++ ['/']).all fun c => c == '/') = false := by
      obtain ⟨c, hc⟩ : ∃ c, d.getLast? = some c := by
        cases h : d.getLast? with
        | none => exact absurd (List.getLast?_eq_none_iff.1 h) h0
        | some c => exact ⟨c, rfl⟩
      rw [List.all_eq_false]
      refine ⟨c, by simp [List.mem_of_getLast? hc], ?_⟩
      intro he
      have : c = '/' := by simpa using he
      exact hl (by rw [hc, this])
    have h3 : rstripBy (fun c => c == '/') (d ++ ['/']) = d := by
      simp only [rstripBy, lstripBy, List.reverse_append, List.reverse_cons, List.reverse_nil, List.nil_append, List.singleton_append]
      rw [List.dropWhile_cons_of_pos (by simp)]
      cases hr : d.reverse with
      | nil => exact absurd (by simpa using hr) h0
      | cons c r =>
        have hc : d.getLast? = some c := by rw [← List.head?_reverse, hr]; rfl
        rw [List.dropWhile_cons_of_neg (by simp; rintro rfl; exact hl hc)]
        have := congrArg List.reverse hr
        simpa using this.symm
    simp only [givenPath, Option.elim, loaderInit, pathSplit, h1, List.reverse_reverse, h2, hne, Bool.false_eq_true, if_false, h3, h0, Option.getD_some]

private theorem head_split {stem : Str} (hs : '.' ∉ stem) (ext : Str) : (splitOn '.' (stem ++ '.' :: ext)).headD [] = stem := by
  rw [splitOn_append hs]; rfl

/-- The files that hide `stem.py` in its directory: packages, extension modules. -/
def hiders (i : Imports) (dir : Option Str) (stem : Str) : List Str :=
  ((i.extensions ++ [c!".py", c!".pyc"]).map fun s => (dir.getD c!".") ++ '/' :: stem ++ '/' :: c!"__init__" ++ s) ++
    i.extensions.map fun s => (dir.getD c!".") ++ '/' :: stem ++ s

private theorem candidates_eq (i : Imports) (dir : Option Str) (stem : Str) :
    candidates i (dir.getD c!".") stem = hiders i dir stem ++ [givenFile dir (stem ++ c!".py"), givenFile dir (stem ++ c!".pyc")] := by
  simp [candidates, hiders, inDir, givenFile, List.append_assoc]

/-- A file `stem.py` whose name has no further dot and is not the name of a module that is already there is the file that is run,
unless a package or an extension module of that name lies next to it; its directory becomes the first one of `sys.path`. -/
theorem c67_runs_given_file_partial (i : Imports) (dir : Option Str) (stem : Str) (path : List Str) (hd : PlainDir dir) (h0 : stem ≠ [])
    (hslash : '/' ∉ stem) (hdot : '.' ∉ stem) (hmod : stem ∉ i.modules) (hb : stem ∉ i.builtin)
    (hfile : i.isFile (givenFile dir (stem ++ c!".py")) = true) (hhide : ∀ f ∈ hiders i dir stem, i.isFile f = false) :
    loadStrategy i (givenPath dir (stem ++ c!".py")) path = (dir.getD c!"." :: path, .ok (.file (givenFile dir (stem ++ c!".py")))) := by
  have hf : '/' ∉ stem ++ c!".py" := by
    simp only [List.mem_append, not_or]
    exact ⟨hslash, by decide⟩
  have hn : (splitOn '.' (stem ++ c!".py")).headD [] = stem := head_split hdot c!"py"
  have hfind : (candidates i (dir.getD c!".") stem).find? i.isFile = some (givenFile dir (stem ++ c!".py")) := by
    rw [candidates_eq, List.find?_append, List.find?_eq_none.2 (by intro f hf; simp [hhide f hf])]
    simp [hfile]
  simp only [loadStrategy, loaderInit_given dir _ hd hf, hn, importModule, h0, hmod, hb, if_false, findOnPath, hfind]

/-- Non-vacuity: `/home/u/demo.py`, with other files about. -/
private def demoImports : Imports :=
  { modules := [c!"sys", c!"os", c!"json", c!"jqtrade"], builtin := [c!"time"]
    isFile := fun p => p ∈ [c!"/home/u/demo.py", c!"/usr/lib/demo.py", c!"/home/u/json.py", c!"/home/u/my.py", c!"/home/u/my.strategy.py", c!"/home/u/pack.py",
      c!"/home/u/pack/__init__.py", c!"/home/u/run.py", c!"/home/u/run.txt", c!"./here.py"]
    isDir := fun p => p ∈ [c!"/home/u", c!"/home/u/pack"]
    extensions := [c!".cpython-39-x86_64-linux-gnu.so", c!".so"] }
example : loadStrategy demoImports c!"/home/u/demo.py" [c!"/usr/lib"] = ([c!"/home/u", c!"/usr/lib"], .ok (.file c!"/home/u/demo.py")) :=
  c67_runs_given_file_partial demoImports (some c!"/home/u") c!"demo" [c!"/usr/lib"] (by rintro d ⟨⟩; decide) (by decide) (by decide) (by decide) (by decide) (by decide)
    (by decide +kernel) (by decide +kernel)
example : loadStrategy demoImports c!"here.py" [] = ([c!"."], .ok (.file c!"./here.py")) := by decide +kernel

private theorem dot_cut (a b x y : Str) (ha : '.' ∉ a) (hb : '.' ∉ b) (h : a ++ '.' :: x = b ++ '.' :: y) : a = b ∧ x = y := by
  induction a generalizing b with
  | nil =>
    cases b with
    | nil => simpa using h
    | cons c b => simp only [List.nil_append, List.cons_append, List.cons.injEq] at h; exact absurd (by simp [← h.1]) hb
  | cons c a ih =>
    cases b with
    | nil => simp only [List.nil_append, List.cons_append, List.cons.injEq] at h; exact absurd (by simp [h.1]) ha
    | cons d b =>
      simp only [List.cons_append, List.cons.injEq] at h
      obtain ⟨rfl, rfl⟩ := ih b (fun hm => ha (by simp [hm])) (fun hm => hb (by simp [hm])) h.2
      exact ⟨by rw [h.1], rfl⟩

private theorem slash_cut (a b x y : Str) (hx : '/' ∉ x) (hy : '/' ∉ y) (h : a ++ '/' :: x = b ++ '/' :: y) : x = y := by
  have hr := congrArg List.reverse h
  simp only [List.reverse_append, List.reverse_cons, List.append_assoc, List.singleton_append] at hr
  have key : ∀ (u v p q : Str), '/' ∉ u → '/' ∉ v → u ++ '/' :: p = v ++ '/' :: q → u = v := by
    intro u
    induction u with
    | nil =>
      intro v p q _ hv h
      cases v with
      | nil => rfl
      | cons c v => simp only [List.nil_append, List.cons_append, List.cons.injEq] at h; exact absurd (by simp [← h.1]) hv
    | cons c u ih =>
      intro v p q hu hv h
      cases v with
      | nil => simp only [List.nil_append, List.cons_append, List.cons.injEq] at h; exact absurd (by simp [h.1]) hu
      | cons d v =>
        simp only [List.cons_append, List.cons.injEq] at h
        rw [h.1, ih v p q (fun hm => hu (by simp [hm])) (fun hm => hv (by simp [hm])) h.2]
  have := key _ _ _ _ (by simpa using hx) (by simpa using hy) hr
  simpa using congrArg List.reverse this

private theorem last_app (x s : Str) (h : s ≠ []) : (x ++ s).getLast? = s.getLast? := by
  rw [List.getLast?_append]
  cases h' : s.getLast? with
  | none => exact absurd (List.getLast?_eq_none_iff.1 h') h
  | some c => rfl

private theorem find_on_path {i : Imports} {name : Str} {dirs : List Str} {ns : Option Str} {f : Str} (h : findOnPath i name dirs ns = .ok (.file f)) :
    ∃ dir ∈ dirs, f ∈ candidates i dir name ∧ i.isFile f = true := by
  induction dirs generalizing ns with
  | nil => cases ns <;> cases h
  | cons dir dirs ih =>
    simp only [findOnPath] at h
    split at h
    · rename_i g hg
      injection h with h; injection h with h; subst h
      exact ⟨dir, by simp, List.mem_of_find?_eq_some hg, List.find?_some hg⟩
    · obtain ⟨d, h1, h2⟩ := ih h
      exact ⟨d, by simp [h1], h2⟩

private theorem find_no_file {i : Imports} {name : Str} : ∀ {dirs : List Str} {ns : Option Str},
    (∀ d ∈ dirs, ∀ f ∈ candidates i d name, i.isFile f = false) →
    findOnPath i name dirs ns = match ns.or ((dirs.map fun d => inDir d name).find? i.isDir) with
      | some d => .ok (.namespace d)
      | none => .error .importError := by
  intro dirs
  induction dirs with
  | nil => intro ns _; cases ns <;> rfl
  | cons d dirs ih =>
    intro ns h
    have h1 : (candidates i d name).find? i.isFile = none := List.find?_eq_none.2 fun f hf => by simp [h d (by simp) f hf]
    simp only [findOnPath, h1, ih fun x hx => h x (by simp [hx]), List.map_cons, List.find?_cons]
    cases ns with
    | some x => rfl
    | none => cases i.isDir (inDir d name) <;> simp

/-- If no directory that is searched has a file for the module, the first one that has a directory of that name gives a module without
code; otherwise the start fails with `ImportError`. -/
theorem c67_no_file (i : Imports) (dir : Option Str) (stem ext : Str) (path : List Str) (hd : PlainDir dir) (h0 : stem ≠ [])
    (hslash : '/' ∉ stem ++ '.' :: ext) (hdot : '.' ∉ stem) (hmod : stem ∉ i.modules) (hb : stem ∉ i.builtin)
    (hno : ∀ d ∈ dir.getD c!"." :: path, ∀ s ∈ i.extensions ++ [c!".py", c!".pyc"],
      i.isFile (d ++ '/' :: stem ++ s) = false ∧ i.isFile (d ++ '/' :: stem ++ '/' :: c!"__init__" ++ s) = false) :
    ((∀ d ∈ dir.getD c!"." :: path, i.isDir (d ++ '/' :: stem) = false) →
      (loadStrategy i (givenPath dir (stem ++ '.' :: ext)) path).2 = .error .importError) ∧
    (∀ before d after, dir.getD c!"." :: path = before ++ d :: after → (∀ x ∈ before, i.isDir (x ++ '/' :: stem) = false) →
      i.isDir (d ++ '/' :: stem) = true →
      (loadStrategy i (givenPath dir (stem ++ '.' :: ext)) path).2 = .ok (.namespace (d ++ '/' :: stem))) := by
  have hcand : ∀ d ∈ dir.getD c!"." :: path, ∀ f ∈ candidates i d stem, i.isFile f = false := by
    intro d hd f hf
    simp only [candidates, List.mem_append, List.mem_map] at hf
    rcases hf with ⟨s, hs, rfl⟩ | ⟨s, hs, rfl⟩
    · simpa [inDir, List.append_assoc] using (hno d hd s (by simpa using hs)).2
    · simpa [inDir, List.append_assoc] using (hno d hd s (by simpa using hs)).1
  have e : (loadStrategy i (givenPath dir (stem ++ '.' :: ext)) path).2 =
      match ((dir.getD c!"." :: path).map fun d => inDir d stem).find? i.isDir with
      | some d => .ok (.namespace d)
      | none => .error .importError := by
    simp only [loadStrategy, loaderInit_given dir _ hd hslash, head_split hdot, importModule, h0, hmod, hb, if_false, find_no_file hcand, Option.none_or]
  rw [e]
  refine ⟨fun h => ?_, fun before d after hp hbef hisd => ?_⟩
  · rw [List.find?_eq_none.2]
    intro x hx
    obtain ⟨d, hd, rfl⟩ := List.mem_map.1 hx
    simp [inDir, h d hd]
  · rw [hp, List.map_append, List.find?_append, List.find?_eq_none.2, Option.none_or, List.map_cons, List.find?_cons]
    · simp [inDir, hisd]
    · intro x hx
      obtain ⟨y, hy, rfl⟩ := List.mem_map.1 hx
      simp [inDir, hbef y hy]

/-- Of `gone.py` there is only a directory, further down the path. -/
example : loadStrategy { demoImports with isDir := fun p => p = c!"/usr/lib/gone" } c!"/home/u/gone.py" [c!"/opt", c!"/usr/lib"] =
    ([c!"/home/u", c!"/opt", c!"/usr/lib"], .ok (.namespace c!"/usr/lib/gone")) ∧
    (loadStrategy demoImports c!"/home/u/gone.py" [c!"/opt", c!"/usr/lib"]).2 = .error .importError := by
  decide +kernel

/-- A file with a dot in its name before `.py` is never the one that is run, wherever it lies. -/
theorem c67_dotted_refuted (i : Imports) (dir : Option Str) (stem : Str) (path : List Str) (hd : PlainDir dir) (hslash : '/' ∉ stem)
    (hdot : '.' ∈ stem) (hext : ∀ s ∈ i.extensions, '/' ∉ s ∧ ∃ t, s = t ++ c!".so" ∨ s = t ++ c!".pyd") :
    (loadStrategy i (givenPath dir (stem ++ c!".py")) path).2 ≠ .ok (.file (givenFile dir (stem ++ c!".py"))) := by
  intro h
  have hf : '/' ∉ stem ++ c!".py" := by
    simp only [List.mem_append, not_or]
    exact ⟨hslash, by decide⟩
  obtain ⟨a, b, hab, ha⟩ : ∃ a b, stem = a ++ '.' :: b ∧ '.' ∉ a := by
    have := List.append_of_mem hdot
    clear h hf hslash
    induction stem with
    | nil => cases hdot
    | cons c s ih =>
      by_cases hc : c = '.'
      · exact ⟨[], s, by simp [hc], by simp⟩
      · have hs : '.' ∈ s := by
          rcases List.mem_cons.1 hdot with h | h
          · exact absurd h.symm hc
          · exact h
        obtain ⟨a, b, h1, h2⟩ := ih hs (List.append_of_mem hs)
        exact ⟨c :: a, b, by simp [h1], by simp only [List.mem_cons, not_or]; exact ⟨fun h => hc h.symm, h2⟩⟩
  have hn : (splitOn '.' (stem ++ c!".py")).headD [] = a := by
    rw [hab, List.append_assoc, List.cons_append]; exact head_split ha _
  simp only [loadStrategy, loaderInit_given dir _ hd hf, hn, importModule] at h
  split at h
  · cases h
  split at h
  · cases h
  split at h
  · cases h
  obtain ⟨d, _, hc, _⟩ := find_on_path h
  have hsuf : ∀ s ∈ i.extensions ++ [c!".py", c!".pyc"], '/' ∉ s ∧ (s = c!".py" ∨ s.getLast? ≠ some 'y') := by
    intro s hs
    rcases List.mem_append.1 hs with hs | hs
    · obtain ⟨h1, t, h2 | h2⟩ := hext s hs
      · exact ⟨h1, .inr (by rw [h2]; simp)⟩
      · exact ⟨h1, .inr (by rw [h2]; simp)⟩
    · simp only [List.mem_cons, List.not_mem_nil, or_false] at hs
      rcases hs with rfl | rfl <;> decide
  have hlast : (stem ++ c!".py").getLast? = some 'y' := by simp
  have ha' : '/' ∉ a := fun hm => hslash (by rw [hab]; simp [hm])
  simp only [candidates, List.mem_append, List.mem_map] at hc
  rcases hc with ⟨s, hs, hc⟩ | ⟨s, hs, hc⟩
  · obtain ⟨k1, k2⟩ := hsuf s (by simpa using hs)
    have := slash_cut _ _ _ _ (by simp only [List.mem_append, not_or]; exact ⟨by decide, k1⟩) hf (show inDir d a ++ '/' :: (c!"__init__" ++ s) = _ from hc)
    rcases k2 with k2 | k2
    · subst k2
      rw [hab] at this
      simp only [List.append_assoc, List.cons_append] at this
      have h2 := dot_cut c!"__init__" a c!"py" (b ++ c!".py") (by decide) ha this
      have := congrArg List.length h2.2
      simp at this
    · rw [← this] at hlast
      apply k2
      cases s with
      | nil => revert hlast; decide
      | cons c s => rwa [last_app _ _ (by simp)] at hlast
  · obtain ⟨k1, k2⟩ := hsuf s (by simpa using hs)
    have := slash_cut _ _ _ _ (by simp only [List.mem_append, not_or]; exact ⟨ha', k1⟩) hf (show d ++ '/' :: (a ++ s) = _ from hc)
    rcases k2 with k2 | k2
    · subst k2
      rw [hab] at this
      simp only [List.append_assoc, List.cons_append] at this
      have h2 := dot_cut a a c!"py" (b ++ c!".py") ha ha this
      have := congrArg List.length h2.2
      simp at this
    · rw [← this] at hlast
      apply k2
      cases s with
      | nil =>
        rw [List.append_nil, hab] at this
        exact absurd (by rw [this]; simp) ha
      | cons c s => rwa [last_app _ _ (by simp)] at hlast

/-- `-c /home/u/my.strategy.py` runs `/home/u/my.py`. -/
example : (loadStrategy demoImports c!"/home/u/my.strategy.py" []).2 = .ok (.file c!"/home/u/my.py") := by decide +kernel

/-- Other ways in which another module is run: the name of a module that is already imported, of a built-in module, of a package next
to the file; a file that is not called `.py`. -/
theorem c67_other_module_witness :
    (loadStrategy demoImports c!"/home/u/json.py" []).2 = .ok (.existing c!"json") ∧
    (loadStrategy { demoImports with isFile := fun _ => true } c!"/home/u/time.py" []).2 = .ok (.builtin c!"time") ∧
    (loadStrategy demoImports c!"/home/u/pack.py" []).2 = .ok (.file c!"/home/u/pack/__init__.py") ∧
    (loadStrategy demoImports c!"/home/u/run.txt" []).2 = .ok (.file c!"/home/u/run.py") ∧
    (loadStrategy demoImports c!"/home/u/.py" []).2 = .error .valueError := by decide +kernel

/-! ## C68: the API in the strategy's module -/

/-- The names that the documentation lists as API. -/
def apiNames : List Str :=
  [c!"run_daily", c!"set_options", c!"context", c!"log", c!"print", c!"order", c!"cancel_order", c!"get_orders", c!"batch_submit_orders",
   c!"batch_cancel_orders", c!"sync_balance", c!"sync_orders", c!"MarketOrderStyle", c!"LimitOrderStyle"]

private theorem dget_setAll (names : List Str) (ns : Dict Str UObj) (k : Str) :
    dget (names.foldl (fun ns n => dset ns n (.api n)) ns) k = if k ∈ names then some (.api k) else dget ns k := by
  induction names generalizing ns with
  | nil => simp
  | cons n names ih =>
    rw [List.foldl_cons, ih, dget_dset]
    by_cases h1 : k ∈ names
    · simp [h1]
    · by_cases h2 : n = k
      · simp [h2]
      · have h3 : k ≠ n := fun h => h2 h.symm
        simp [h1, h2, h3]

private theorem dget_makeApis (ns : Dict Str UObj) (k : Str) : dget (makeApis true ns) k = if k ∈ apiNames then some (.api k) else dget ns k := by
  rw [makeApis, dget_setAll]
  have : k ∈ schedulerApi ++ (if true = true then accountApi else []) ↔ k ∈ apiNames := by
    simp only [if_true, schedulerApi, accountApi, apiNames, List.cons_append, List.nil_append, List.mem_cons, List.not_mem_nil, or_false]
    constructor
    · rintro (h | h | h | h | h | h | h | h | h | h | h | h | h | h) <;> simp [h]
    · rintro (h | h | h | h | h | h | h | h | h | h | h | h | h | h) <;> simp [h]
  exact ite_congr (propext this) (fun _ => rfl) fun _ => rfl

/-- The steps of a start, as far as it came. -/
private structure Came (l : Launch) (proc : ProcEnv) (s : LaunchSt) (r : Py Unit) : Prop where
  checks : s.ran.isSome → ∃ q, runnerInit l.env l.name l.envOpt l.config proc = (q, .ok ()) ∧ s.proc = { q with sysPath := (loaderInit l.code).1 :: q.sysPath } ∧
    (if l.config.getD [] = [] then .ok defaultOptions else l.configVars.map (setupConfig schedulerPrefix defaultOptions) : Py (Dict Str CfgVal)) = .ok s.options ∧
    ∃ m, s.ran = some m ∧ (loadStrategy l.imports l.code q.sysPath).2 = .ok m
  enter : ∀ ns, s.entered = some ns → ∃ m own, s.ran = some m ∧ l.exec m = .ok own ∧ ns = makeApis true own ∧ (dget ns c!"process_initialize").isSome ∧
    ∃ o, ({ setupAccountCfg := true } : StratSt).setup (some (l.body ns)) = (s.strat, o) ∧ (s.looping = true → o = .ok () ∧ l.schedule s.strat = .ok () ∧ r = l.loop s.strat)
  loop : s.looping = true → s.entered.isSome
  ends : s.looping = false → ∃ x, r = .error x

private theorem setup_account_stays (l : Launch) (options : Dict Str CfgVal)
    (h : (if l.config.getD [] = [] then .ok defaultOptions else l.configVars.map (setupConfig schedulerPrefix defaultOptions) : Py (Dict Str CfgVal)) = .ok options) :
    dget options c!"SETUP_ACCOUNT" = some ⟨3, true⟩ := by
  split at h
  · injection h with h; subst h; decide
  · cases hv : l.configVars with
    | error x => rw [hv] at h; cases h
    | ok vars =>
      rw [hv] at h
      injection h with h; subst h
      rw [c52_never_set_refuted schedulerPrefix defaultOptions vars _ 'S' rfl (by decide)]
      decide

private theorem came (l : Launch) (proc : ProcEnv) : Came l proc (l.start proc).1 (l.start proc).2 := by
  simp only [Launch.start]
  split
  · exact ⟨by simp, by simp, by simp, fun _ => ⟨_, rfl⟩⟩
  · rename_i q hq
    simp only [Launch.run]
    split
    · exact ⟨by simp, by simp, by simp, fun _ => ⟨_, rfl⟩⟩
    · rename_i options ho
      have hsa := setup_account_stays l options ho
      split
      · exact ⟨by simp, by simp, by simp, fun _ => ⟨_, rfl⟩⟩
      · rename_i m hm
        split
        · refine ⟨fun _ => ⟨q, hq, rfl, ho, m, rfl, hm⟩, by simp, by simp, fun _ => ⟨_, rfl⟩⟩
        · rename_i own hown
          simp only [Launch.setup, hsa]
          split
          · refine ⟨fun _ => ⟨q, hq, rfl, ho, m, rfl, hm⟩, by simp, by simp, fun _ => ⟨_, rfl⟩⟩
          · rename_i hpi
            have hpi' : (dget (makeApis true own) c!"process_initialize").isSome := by
              cases h : dget (makeApis true own) c!"process_initialize" with
              | none => rw [h] at hpi; exact absurd rfl hpi
              | some _ => rfl
            split
            · rename_i t x ht
              refine ⟨fun _ => ⟨q, hq, rfl, ho, m, rfl, hm⟩, ?_, by simp, fun _ => ⟨_, rfl⟩⟩
              rintro ns ⟨⟩
              exact ⟨m, own, rfl, hown, rfl, hpi', _, ht, fun h => by cases h⟩
            · rename_i t ht
              split
              · refine ⟨fun _ => ⟨q, hq, rfl, ho, m, rfl, hm⟩, ?_, by simp, fun _ => ⟨_, rfl⟩⟩
                rintro ns ⟨⟩
                exact ⟨m, own, rfl, hown, rfl, hpi', _, ht, fun h => by cases h⟩
              · rename_i hs
                refine ⟨fun _ => ⟨q, hq, rfl, ho, m, rfl, hm⟩, ?_, by simp, fun h => by cases h⟩
                rintro ns ⟨⟩
                exact ⟨m, own, rfl, hown, rfl, hpi', _, ht, fun _ => ⟨rfl, hs, rfl⟩⟩

/-- When `process_initialize` is called, every name of the API is the framework's object, and every other attribute of the module is
what the strategy's file made it. -/
theorem c68_api_in_place_partial (l : Launch) (proc : ProcEnv) (ns : Dict Str UObj) (h : (l.start proc).1.entered = some ns) :
    ∃ m own, (l.start proc).1.ran = some m ∧ l.exec m = .ok own ∧ (∀ k ∈ apiNames, dget ns k = some (.api k)) ∧
      (∀ k, k ∉ apiNames → dget ns k = dget own k) ∧ (dget own c!"process_initialize").isSome := by
  obtain ⟨m, own, h1, h2, h3, h4, _⟩ := (came l proc).enter ns h
  subst h3
  refine ⟨m, own, h1, h2, fun k hk => by rw [dget_makeApis, if_pos hk], fun k hk => by rw [dget_makeApis, if_neg hk], ?_⟩
  rwa [dget_makeApis, if_neg (by decide)] at h4

/-- What `make_apis` does with `SETUP_ACCOUNT` off (which no start reaches, see below): the scheduler's names are the framework's, the
account's names stay what the strategy's file made them. -/
theorem c68_make_apis_account_off (own : Dict Str UObj) :
    (∀ k ∈ [c!"run_daily", c!"set_options", c!"context", c!"log", c!"print"], dget (makeApis false own) k = some (.api k)) ∧
    ∀ k, k ∉ [c!"run_daily", c!"set_options", c!"context", c!"log", c!"print"] → dget (makeApis false own) k = dget own k := by
  have hk : ∀ k, k ∈ schedulerApi ++ (if false = true then accountApi else []) ↔ k ∈ [c!"run_daily", c!"set_options", c!"context", c!"log", c!"print"] := by
    intro k
    simp only [Bool.false_eq_true, if_false, List.append_nil, schedulerApi, List.mem_cons, List.not_mem_nil, or_false]
    constructor <;> rintro (h | h | h | h | h) <;> simp [h]
  constructor
  · intro k h
    rw [makeApis, dget_setAll, if_pos ((hk k).2 h)]
  · intro k h
    rw [makeApis, dget_setAll, if_neg fun h' => h ((hk k).1 h')]

/-- Non-vacuity: the strategy's own `order` is kept. -/
example : dget (makeApis false [(c!"order", .user 3), (c!"log", .user 4)]) c!"order" = some (.user 3) ∧
    dget (makeApis false [(c!"order", .user 3), (c!"log", .user 4)]) c!"log" = some (.api c!"log") := by decide +kernel

/-- A function of the strategy that has one of these names is lost: the name then means the framework's function. -/
theorem c68_own_name_replaced_refuted (l : Launch) (proc : ProcEnv) (ns own : Dict Str UObj) (m : Loaded) (k : Str) (f : Nat) (hk : k ∈ apiNames)
    (h : (l.start proc).1.entered = some ns) (hm : (l.start proc).1.ran = some m) (ho : l.exec m = .ok own) (hf : dget own k = some (.user f)) :
    dget ns k ≠ dget own k := by
  obtain ⟨m', own', h1, h2, h3, _⟩ := c68_api_in_place_partial l proc ns h
  rw [h1] at hm; injection hm with hm; subst hm
  rw [h2] at ho; injection ho with ho; subst ho
  rw [h3 k hk, hf]
  simp

/-- A start: `demo.py` defines `process_initialize`, `task` and its own `sync_orders`; the configuration file says
`SCHEDULER_SETUP_ACCOUNT = False`. -/
private def demoLaunch : Launch :=
  { env := { codeExists := true, configExists := true, cur := 20, parent := 1, views := [], again := fun _ => .error .noSuchProcess }
    code := c!"/home/u/demo.py", name := c!"demo", envOpt := some c!"A=1;PYTHONPATH=/p:/q", config := some c!"/home/u/etc.py"
    configVars := .ok [(c!"SCHEDULER_SETUP_ACCOUNT", ⟨9, false⟩)]
    imports := demoImports
    exec := fun _ => .ok [(c!"process_initialize", .user 0), (c!"task", .user 1), (c!"sync_orders", .user 2)]
    body := fun _ => [(.runDaily ⟨1, some c!"task", true⟩ c!"open", false)]
    schedule := fun _ => .ok ()
    loop := fun _ => .ok () }
private def demoProc : ProcEnv := ⟨[], [c!"/usr/lib"]⟩

/-- Non-vacuity, and what the configuration file cannot do: the account's functions are there, and `sync_orders` is the framework's. -/
example : (demoLaunch.start demoProc).2 = .ok () ∧ (demoLaunch.start demoProc).1.looping = true ∧
    (demoLaunch.start demoProc).1.ran = some (.file c!"/home/u/demo.py") ∧
    (demoLaunch.start demoProc).1.proc = ⟨[(c!"A", c!"1"), (c!"PYTHONPATH", c!"/p:/q")], [c!"/home/u", c!"/p", c!"/q", c!"/usr/lib"]⟩ ∧
    (demoLaunch.start demoProc).1.strat.schedules = [⟨c!"task", c!"open+0m"⟩] ∧
    ((demoLaunch.start demoProc).1.entered.map fun ns => (dget ns c!"task", dget ns c!"order", dget ns c!"sync_orders")) =
      some (some (.user 1), some (.api c!"order"), some (.api c!"sync_orders")) := by decide +kernel

/-- No configuration file keeps the account's functions out of the strategy: `SETUP_ACCOUNT` cannot be set (C52). -/
theorem c68_account_api_always_witness (l : Launch) (proc : ProcEnv) (ns : Dict Str UObj) (h : (l.start proc).1.entered = some ns) :
    dget (l.start proc).1.options c!"SETUP_ACCOUNT" = dget defaultOptions c!"SETUP_ACCOUNT" ∧ dget ns c!"order" = some (.api c!"order") := by
  obtain ⟨m, own, h1, _, h3, _⟩ := c68_api_in_place_partial l proc ns h
  refine ⟨?_, h3 _ (by decide)⟩
  obtain ⟨q, _, _, h4, _⟩ := (came l proc).checks (by rw [h1]; rfl)
  rw [setup_account_stays l _ h4]
  decide

/-! ## C69: the strategy's code runs only after the checks, and the loop only after the set-up -/

private theorem repeated_false {cur parent : Nat} {name : Str} {again : Nat → Py (List Str)} {es : List ProcEntry}
    (h : existsNamed cur parent name again es = .ok false) (e : ProcEntry) (he : e ∈ es) (h1 : e.pid ≠ cur) (h2 : e.pid ≠ parent) :
    ∃ n, taskName again e = .ok n ∧ n ≠ name := by
  induction es with
  | nil => cases he
  | cons a es ih =>
    simp only [existsNamed] at h
    split at h
    · rename_i hs
      rcases List.mem_cons.1 he with rfl | he
      · rcases hs with hs | hs
        · exact absurd hs h1
        · exact absurd hs h2
      · exact ih h he
    · split at h
      · cases h
      · rename_i n hn
        split at h
        · cases h
        · rename_i hne
          rcases List.mem_cons.1 he with rfl | he
          · exact ⟨n, hn, fun h => hne h.symm⟩
          · exact ih h he

private theorem runnerInit_ok {i : InitEnv} {name : Str} {env config : Option Str} {p q : ProcEnv} (h : runnerInit i name env config p = (q, .ok ())) :
    i.codeExists = true ∧ existRepeated i.cur i.parent name i.views i.again = .ok false ∧ i.loggers = .ok () ∧ applyEnv env p = (q, .ok ()) ∧
    (config.getD [] ≠ [] → i.configExists = true) := by
  simp only [runnerInit] at h
  split at h
  · cases h
  rename_i hc
  split at h
  · cases h
  · cases h
  rename_i hr
  split at h
  · cases h
  rename_i hlg
  split at h
  · cases h
  rename_i p' ha
  split at h
  · cases h
  rename_i hcfg
  have : p' = q := by injection h
  subst this
  refine ⟨by simpa using hc, hr, hlg, ha, fun hne => ?_⟩
  cases hx : i.configExists with
  | true => rfl
  | false => exact absurd ⟨hne, hx⟩ hcfg

/-- The strategy's file is run only if it exists, no other running task has the name, the environment settings are in force, and the
configuration file, if one is given, exists and has been read. -/
theorem c69_code_after_checks (l : Launch) (proc : ProcEnv) (m : Loaded) (h : (l.start proc).1.ran = some m) (hn : (listedPids l.env.views).Nodup) :
    l.env.codeExists = true ∧
    (∀ e, Running l.env.views e → e.pid ≠ l.env.cur → e.pid ≠ l.env.parent → ∃ cmd info n, l.env.again e.pid = .ok cmd ∧
      parseTaskInfo cmd = .ok info ∧ info.name = some n ∧ n ≠ l.name) ∧
    (∃ q, applyEnv l.envOpt proc = (q, .ok ()) ∧ (l.start proc).1.proc.environ = q.environ ∧
      (l.start proc).1.proc.sysPath = (loaderInit l.code).1 :: q.sysPath ∧ (loadStrategy l.imports l.code q.sysPath).2 = .ok m) ∧
    (l.config.getD [] ≠ [] → l.env.configExists = true ∧ ∃ vars, l.configVars = .ok vars ∧
      (l.start proc).1.options = setupConfig schedulerPrefix defaultOptions vars) := by
  obtain ⟨q, h1, h2, h3, m', h4, h5⟩ := (came l proc).checks (by rw [h]; rfl)
  rw [h] at h4; injection h4 with h4; subst h4
  obtain ⟨k1, k2, _, k4, k5⟩ := runnerInit_ok h1
  refine ⟨k1, ?_, ⟨q, k4, by rw [h2], by rw [h2], h5⟩, ?_⟩
  · intro e he hc hp
    simp only [existRepeated] at k2
    split at k2
    · cases k2
    · rename_i es hes
      have hden : Listable l.env.views := activeTasks_listable _ _ hes
      obtain ⟨es', g1, g2, _⟩ := activeTasks_running _ hden hn
      rw [g1] at hes; injection hes with hes; subst hes
      obtain ⟨n, t1, t2⟩ := repeated_false k2 e ((g2 e).2 he) hc hp
      simp only [taskName] at t1
      split at t1
      · cases t1
      · rename_i cmd hcmd
        split at t1
        · cases t1
        · rename_i info hinfo
          split at t1
          · cases t1
          · rename_i n' hn'
            injection t1 with t1; subst t1
            exact ⟨cmd, info, n', hcmd, hinfo, hn', t2⟩
  · intro hc
    refine ⟨k5 hc, ?_⟩
    rw [if_neg hc] at h3
    cases hv : l.configVars with
    | error x => rw [hv] at h3; cases h3
    | ok vars =>
      rw [hv] at h3
      injection h3 with h3
      exact ⟨vars, rfl, h3.symm⟩

/-- The event loop runs only after `process_initialize` ended without an exception and the tasks were scheduled, and from then on
`run_daily` and `set_options` are refused; the result is the loop's. -/
theorem c69_loop_after_setup (l : Launch) (proc : ProcEnv) (h : (l.start proc).1.looping = true) :
    ∃ ns t, (l.start proc).1.entered = some ns ∧ ({ setupAccountCfg := true, allowed := true } : StratSt).runInit (l.body ns) = (t, .ok ()) ∧
      (l.start proc).1.strat = { t with allowed := false } ∧ l.schedule (l.start proc).1.strat = .ok () ∧ (l.start proc).2 = l.loop (l.start proc).1.strat := by
  obtain ⟨ns, hns⟩ := Option.isSome_iff_exists.1 ((came l proc).loop h)
  obtain ⟨m, own, _, _, _, _, o, h1, h2⟩ := (came l proc).enter ns hns
  obtain ⟨rfl, h3, h4⟩ := h2 h
  simp only [StratSt.setup] at h1
  split at h1
  · rename_i t ht
    exact ⟨ns, t, hns, ht, by injection h1 with h1; exact h1.symm, h3, h4⟩
  · injection h1 with _ h1; cases h1

/-- A start that does not get to the event loop ends with an exception. -/
theorem c69_no_silent_end (l : Launch) (proc : ProcEnv) (h : (l.start proc).1.looping = false) : ∃ x, (l.start proc).2 = .error x :=
  (came l proc).ends h

/-- A file that does not exist is reported as that: the strategy's before anything else is done, the configuration file after the
checks and after the environment settings are in force, but before the strategy's file is run. -/
theorem c69_missing_file (l : Launch) (proc : ProcEnv) :
    (l.env.codeExists = false → (l.start proc).2 = .error .fileNotFound ∧ (l.start proc).1 = { proc := proc }) ∧
    (∀ q, l.env.codeExists = true → existRepeated l.env.cur l.env.parent l.name l.env.views l.env.again = .ok false →
      l.env.loggers = .ok () → applyEnv l.envOpt proc = (q, .ok ()) → l.config.getD [] ≠ [] → l.env.configExists = false →
      (l.start proc).2 = .error .fileNotFound ∧ (l.start proc).1 = { proc := q }) := by
  constructor
  · intro h
    simp only [Launch.start, runnerInit, if_pos h, and_self]
  · intro q h1 h2 h3 h4 h5 h6
    simp only [Launch.start, runnerInit, h1, h2, h3, h4, h6, Bool.true_eq_false, if_false, ne_eq, h5, not_false_eq_true, if_true,
      and_self]

/-- Non-vacuity: neither file is there. -/
example : ((({ demoLaunch with env := { demoLaunch.env with codeExists := false } } : Launch).start demoProc).2 = .error .fileNotFound) ∧
    ((({ demoLaunch with config := some c!"c.py", env := { demoLaunch.env with configExists := false } } : Launch).start demoProc).2 =
      .error .fileNotFound) := by decide +kernel

/-- A name that is taken: when the strategy's file exists, all running tasks have readable names and one of the others has the name, the start
ends with a `TaskError` before anything is done. -/
theorem c69_name_taken (l : Launch) (proc : ProcEnv) (hcode : l.env.codeExists = true) (hden : Listable l.env.views) (hn : (listedPids l.env.views).Nodup)
    (hag : ∀ e, Running l.env.views e → l.env.again e.pid = .ok e.cmd)
    (hname : ∀ e, Running l.env.views e → e.pid ≠ l.env.cur → e.pid ≠ l.env.parent → ∃ info n, parseTaskInfo e.cmd = .ok info ∧ info.name = some n)
    (e : ProcEntry) (info : TaskInfo) (he : Running l.env.views e) (h1 : e.pid ≠ l.env.cur) (h2 : e.pid ≠ l.env.parent)
    (hi : parseTaskInfo e.cmd = .ok info) (h3 : info.name = some l.name) :
    (l.start proc).2 = .error .taskError ∧ (l.start proc).1 = { proc := proc } := by
  obtain ⟨b, hb, hb'⟩ := c62_check_exact_partial l.env.cur l.env.parent l.name l.env.views l.env.again hden hn hag hname
  have : b = true := hb'.2 ⟨e, info, he, h1, h2, hi, h3⟩
  subst this
  simp only [Launch.start, runnerInit, hcode, hb, Bool.true_eq_false, if_false, and_self]

/-- Non-vacuity: the demonstration above gets to the loop; with a running task of the same name it ends before the file is run, and with
another name it does not. -/
private def busyLaunch (name : Str) : Launch :=
  { demoLaunch with name := name, env := { demoLaunch.env with
      views := [.ok ⟨8, some 1, [c!"python", c!"-m", c!"jqtrade", c!"start_task", c!"-n", c!"a", c!"-c", c!"s.py"]⟩]
      again := fun _ => .ok [c!"python", c!"-m", c!"jqtrade", c!"start_task", c!"-n", c!"a", c!"-c", c!"s.py"] } }
example : ((busyLaunch c!"a").start demoProc).2 = .error .taskError ∧ ((busyLaunch c!"a").start demoProc).1.ran = none ∧
    ((busyLaunch c!"a").start demoProc).1.proc = demoProc ∧ ((busyLaunch c!"b").start demoProc).1.looping = true := by decide +kernel

/-! ## C70: `get_tasks` -/

/-- What is to be shown about a process whose command line is `cmd`. -/
structure Shows (cmd : List Str) (pid : Nat) (r : TaskRow) : Prop where
  rpid : r.pid = pid
  rcmd : r.cmd = cmd
  rest : parseTaskInfo cmd = .ok { debug := r.debug, env := r.env, out := r.out, code := some r.code, name := some r.name }

private theorem taskRow_ok {again : Nat → Py (List Str)} {e : ProcEntry} {r : TaskRow} (h : taskRow again e = .ok r) :
    ∃ cmd, again e.pid = .ok cmd ∧ Shows cmd e.pid r := by
  simp only [taskRow] at h
  split at h
  · cases h
  · rename_i cmd hc
    split at h
    · cases h
    · rename_i info hi
      split at h
      · rename_i name code hn hcd
        injection h with h; subst h
        refine ⟨cmd, hc, rfl, rfl, ?_⟩
        rw [hi]
        cases info
        simp only at hn hcd
        subst hn; subst hcd
        rfl
      · cases h

private theorem taskRow_of {again : Nat → Py (List Str)} {e : ProcEntry} {cmd : List Str} {info : TaskInfo} (h1 : again e.pid = .ok cmd)
    (h2 : parseTaskInfo cmd = .ok info) (h3 : info.name.isSome) (h4 : info.code.isSome) : ∃ r, taskRow again e = .ok r := by
  obtain ⟨n, hn⟩ := Option.isSome_iff_exists.1 h3
  obtain ⟨c, hc⟩ := Option.isSome_iff_exists.1 h4
  exact ⟨_, by simp only [taskRow, h1, h2, hn, hc]; rfl⟩

private theorem taskRows_prefix (again : Nat → Py (List Str)) (es : List ProcEntry) :
    ∃ done rest, es = done ++ rest ∧ ((taskRows again es).1.map Except.ok : List (Py TaskRow)) = done.map (taskRow again) ∧
      (((taskRows again es).2 = .ok () ∧ rest = []) ∨ ∃ e tl x, rest = e :: tl ∧ taskRow again e = .error x ∧ (taskRows again es).2 = .error x) := by
  induction es with
  | nil => exact ⟨[], [], rfl, rfl, .inl ⟨rfl, rfl⟩⟩
  | cons e es ih =>
    simp only [taskRows]
    split
    · rename_i x hx
      exact ⟨[], e :: es, rfl, rfl, .inr ⟨e, es, x, rfl, hx, rfl⟩⟩
    · rename_i r hr
      obtain ⟨done, rest, h1, h2, h3⟩ := ih
      refine ⟨e :: done, rest, by rw [h1]; rfl, by simp only [List.map_cons, h2, hr], h3⟩

/-- The processes of a listing that count as tasks, in the order of the listing. -/
private theorem active_sublist (vs : List ProcView) (es : List ProcEntry) (h : activeTasks vs = .ok es) : List.Sublist (es.map (·.pid)) (listedPids vs) := by
  have key : ∀ (vs : List ProcView) (es : List ProcEntry), taskEntries vs = .ok es → List.Sublist (es.map (·.pid)) (listedPids vs) := by
    intro vs
    induction vs with
    | nil => intro es h; injection h with h; subst h; exact List.Sublist.refl _
    | cons v vs ih =>
      intro es h
      cases v with
      | gone => exact ih es h
      | denied b =>
        match b, h with
        | .ok false, h => exact ih es h
      | ok e =>
        simp only [taskEntries] at h
        split at h
        · split at h
          · rename_i es' hes'
            injection h with h; subst h
            exact (ih es' hes').cons_cons e.pid
          · cases h
        · exact (ih es h).cons e.pid
  simp only [activeTasks] at h
  split at h
  · rename_i es' hes'
    injection h with h; subst h
    exact ((List.filter_sublist (l := es')).map _).trans (key _ _ hes')
  · cases h

/-- Whatever goes wrong: what is listed are running tasks, each at most once and in the order of the process list, and what is said about
each is what its command line says. -/
theorem c70_only_tasks (vs : List ProcView) (again : Nat → Py (List Str)) (hn : (listedPids vs).Nodup) :
    List.Sublist ((getTasks vs again).1.map (·.pid)) (listedPids vs) ∧
    ∀ r ∈ (getTasks vs again).1, ∃ e cmd, Running vs e ∧ again e.pid = .ok cmd ∧ Shows cmd e.pid r := by
  simp only [getTasks]
  split
  · exact ⟨List.nil_sublist _, by simp⟩
  · rename_i es hes
    have hden : Listable vs := activeTasks_listable _ _ hes
    obtain ⟨es', g1, g2, _⟩ := activeTasks_running _ hden hn
    rw [g1] at hes; injection hes with hes; subst hes
    obtain ⟨done, rest, h1, h2, _⟩ := taskRows_prefix again es'
    have hrow : ∀ (rows : List TaskRow) (done : List ProcEntry), (rows.map Except.ok : List (Py TaskRow)) = done.map (taskRow again) →
        rows.map (·.pid) = done.map (·.pid) ∧ ∀ r ∈ rows, ∃ e ∈ done, taskRow again e = .ok r := by
      intro rows
      induction rows with
      | nil => intro done h; cases done with
        | nil => simp
        | cons => cases h
      | cons r rows ih =>
        intro done h
        cases done with
        | nil => cases h
        | cons e done =>
          simp only [List.map_cons, List.cons.injEq] at h
          obtain ⟨k1, k2⟩ := ih done h.2
          obtain ⟨cmd, _, hs⟩ := taskRow_ok h.1.symm
          refine ⟨by simp only [List.map_cons, k1, hs.rpid], ?_⟩
          intro r' hr'
          rcases List.mem_cons.1 hr' with rfl | hr'
          · exact ⟨e, by simp, h.1.symm⟩
          · obtain ⟨e', m1, m2⟩ := k2 r' hr'
            exact ⟨e', by simp [m1], m2⟩
    obtain ⟨k1, k2⟩ := hrow _ _ h2
    refine ⟨?_, ?_⟩
    · rw [k1]
      refine List.Sublist.trans ?_ (active_sublist vs es' g1)
      rw [h1, List.map_append]
      exact List.sublist_append_left _ _
    · intro r hr
      obtain ⟨e, m1, m2⟩ := k2 r hr
      obtain ⟨cmd, c1, c2⟩ := taskRow_ok m2
      exact ⟨e, cmd, (g2 e).1 (by rw [h1]; simp [m1]), c1, c2⟩

/-- If the command line of every running task can be read and names the task and its code, all of them are listed. -/
theorem c70_all_tasks_partial (vs : List ProcView) (again : Nat → Py (List Str)) (hn : (listedPids vs).Nodup) (hden : Listable vs)
    (hread : ∀ e, Running vs e → ∃ cmd info, again e.pid = .ok cmd ∧ parseTaskInfo cmd = .ok info ∧ info.name.isSome ∧ info.code.isSome) :
    (getTasks vs again).2 = .ok () ∧ ∀ e, Running vs e → ∃ r ∈ (getTasks vs again).1, ∃ cmd, again e.pid = .ok cmd ∧ Shows cmd e.pid r := by
  obtain ⟨es, g1, g2, _⟩ := activeTasks_running _ hden hn
  simp only [getTasks, g1]
  obtain ⟨done, rest, h1, h2, h3⟩ := taskRows_prefix again es
  rcases h3 with ⟨h3, rfl⟩ | ⟨e, tl, x, h3, h4, _⟩
  · refine ⟨h3, ?_⟩
    intro e he
    have hm : e ∈ done := by simpa [h1] using (g2 e).2 he
    obtain ⟨cmd, info, c1, c2, c3, c4⟩ := hread e he
    obtain ⟨r, hr⟩ := taskRow_of c1 c2 c3 c4
    have : (Except.ok r : Py TaskRow) ∈ ((taskRows again es).1.map Except.ok : List (Py TaskRow)) := by
      rw [h2]; exact List.mem_map.2 ⟨e, hm, hr⟩
    obtain ⟨r', m1, m2⟩ := List.mem_map.1 this
    injection m2 with m2; subst m2
    obtain ⟨cmd', d1, d2⟩ := taskRow_ok hr
    exact ⟨r', m1, cmd', d1, d2⟩
  · exfalso
    have he : Running vs e := (g2 e).1 (by rw [h1, h3]; simp)
    obtain ⟨cmd, info, c1, c2, c3, c4⟩ := hread e he
    obtain ⟨r, hr⟩ := taskRow_of c1 c2 c3 c4
    rw [hr] at h4; cases h4

/-- A task started with documented options is shown with the values it was given. -/
theorem c70_shown_as_given (pre : List Str) (opts : List CmdOpt) (pid : Nat) (r : TaskRow) (hpre : ∀ w ∈ pre, w ∉ optionWords)
    (hv : ∀ o ∈ opts, ∀ v, o.value = some v → v ∉ optionWords) (h : Shows (pre ++ opts.flatMap CmdOpt.words) pid r) :
    some r.name = CmdOpt.last CmdOpt.name? opts ∧ some r.code = CmdOpt.last CmdOpt.code? opts ∧ r.out = CmdOpt.last CmdOpt.out? opts ∧
    r.env = CmdOpt.last CmdOpt.env? opts ∧ r.debug = opts.contains .debug := by
  have := h.rest
  rw [c48_read_back pre opts hpre hv] at this
  injection this with this
  injection this with h1 h2 h3 h4 h5
  exact ⟨h5.symm, h4.symm, h3.symm, h2.symm, h1.symm⟩

private def listTable : List ProcView :=
  [.ok ⟨1, some 0, [c!"init"]⟩, .gone, .ok ⟨8, some 1, [c!"python", c!"-m", c!"jqtrade", c!"start_task", c!"-n", c!"a", c!"-c", c!"s.py", c!"--debug"]⟩,
   .ok ⟨9, some 1, [c!"jqtrade", c!"start_task", c!"--code", c!"t.py", c!"--name", c!"b", c!"-o", c!"b.log"]⟩]
private def listAgain (vs : List ProcView) (pid : Nat) : Py (List Str) :=
  (vs.findSome? fun v => match v with | .ok e => if e.pid = pid then some (.ok e.cmd) else none | _ => none).getD (.error .noSuchProcess)

/-- Non-vacuity: two tasks are listed as they were started. -/
example : getTasks listTable (listAgain listTable) =
    ([⟨c!"a", 8, c!"s.py", none, none, true, [c!"python", c!"-m", c!"jqtrade", c!"start_task", c!"-n", c!"a", c!"-c", c!"s.py", c!"--debug"]⟩,
      ⟨c!"b", 9, c!"t.py", some c!"b.log", none, false, [c!"jqtrade", c!"start_task", c!"--code", c!"t.py", c!"--name", c!"b", c!"-o", c!"b.log"]⟩], .ok ()) := by
  decide +kernel

/-- An unrelated process whose command line has the two words, or a task started with `--name=a`, ends the listing: the tasks after it are not shown. -/
theorem c70_unrelated_process_refuted :
    let vs := ProcView.ok ⟨5, some 1, [c!"vim", c!"jqtrade/start_task.md"]⟩ :: listTable
    let ws := ProcView.ok ⟨5, some 1, [c!"jqtrade", c!"start_task", c!"--name=x", c!"-c", c!"s.py"]⟩ :: listTable
    getTasks vs (listAgain vs) = ([], .error .keyError) ∧ getTasks ws (listAgain ws) = ([], .error .keyError) := by decide +kernel

/-! ## C71: what a task writes -/

/-- Something a task does that produces text. -/
inductive OutOp where
  /-- `print` in the strategy -/
  | print (text : Str) (file : FileArg)
  /-- a log record -/
  | log (level : Nat) (text : Str)
deriving DecidableEq

/-- The task does it; `out` is its log file. -/
def OutOp.run (out : Option Str) (debug : Bool) (canOpen : Str → Py Unit) (s : OutSt) : OutOp → OutSt
  | .print text file => (strategyPrint (some out) canOpen text file s).1
  | .log level text => logRecord out debug level text s

/-- The text that belongs into the task's output: what is printed without naming a file, and the records at or above the level. -/
def OutOp.shown (debug : Bool) : OutOp → Str
  | .print text .absent => text
  | .print _ _ => []
  | .log level text => if 20 ≤ level ∨ (10 ≤ level ∧ debug = true) then text else []

private theorem logRecord_level {debug : Bool} {level : Nat} : level < (if debug then 10 else 20) ↔ ¬ (20 ≤ level ∨ (10 ≤ level ∧ debug = true)) := by
  cases debug
  · simp only [Bool.false_eq_true, if_false, and_false, or_false]; omega
  · simp only [if_true, and_true]; omega

/-- With a log file: whatever the task prints and logs, in any order, is appended to that file in that order, and to no other file; standard
output gets only what is printed with `file=None`. -/
theorem c71_in_log_file (out : Str) (h0 : out ≠ []) (debug : Bool) (canOpen : Str → Py Unit) (hopen : canOpen out = .ok ()) (ops : List OutOp) (s : OutSt) :
    (ops.foldl (OutOp.run (some out) debug canOpen) s).files out = s.files out ++ (ops.map (OutOp.shown debug)).flatten ∧
    (∀ p, p ≠ out → (ops.foldl (OutOp.run (some out) debug canOpen) s).files p = s.files p) ∧
    (ops.foldl (OutOp.run (some out) debug canOpen) s).stdout =
      s.stdout ++ (ops.map fun o => match o with | .print t .none => t | _ => []).flatten := by
  induction ops generalizing s with
  | nil => simp
  | cons o ops ih =>
    obtain ⟨h1, h2, h3⟩ := ih (OutOp.run (some out) debug canOpen s o)
    simp only [List.foldl_cons, h1, h3]
    refine ⟨?_, fun p hp => (h2 p hp).trans ?_, ?_⟩
    · cases o with
      | print t f => cases f <;> simp [OutOp.run, strategyPrint, h0, hopen, OutSt.append, OutSt.print, OutOp.shown]
      | log lv t =>
        simp only [OutOp.run, logRecord, logRecord_level, Option.getD_some, OutOp.shown, List.map_cons, List.flatten_cons]
        by_cases hl : 20 ≤ lv ∨ (10 ≤ lv ∧ debug = true)
        · simp [hl, h0, OutSt.append]
        · simp [hl]
    · cases o with
      | print t f => cases f <;> simp [OutOp.run, strategyPrint, h0, hopen, OutSt.append, OutSt.print, hp]
      | log lv t =>
        simp only [OutOp.run, logRecord, logRecord_level]
        by_cases hl : 20 ≤ lv ∨ (10 ≤ lv ∧ debug = true)
        · simp [hl, h0, OutSt.append, hp]
        · simp [hl]
    · cases o with
      | print t f => cases f <;> simp [OutOp.run, strategyPrint, h0, hopen, OutSt.append, OutSt.print]
      | log lv t =>
        simp only [OutOp.run, logRecord, logRecord_level]
        by_cases hl : 20 ≤ lv ∨ (10 ≤ lv ∧ debug = true)
        · simp [hl, h0, OutSt.append]
        · simp [hl]

/-- Without a log file everything goes to standard output, in order, and no file is touched. -/
theorem c71_on_standard_output (debug : Bool) (canOpen : Str → Py Unit) (ops : List OutOp) (hops : ∀ t, .print t .none ∉ ops) (out : Option Str)
    (hout : out = none ∨ out = some []) (s : OutSt) :
    (ops.foldl (OutOp.run out debug canOpen) s).stdout = s.stdout ++ (ops.map (OutOp.shown debug)).flatten ∧
    (ops.foldl (OutOp.run out debug canOpen) s).files = s.files := by
  have h0 : out.getD [] = [] := by rcases hout with rfl | rfl <;> rfl
  induction ops generalizing s with
  | nil => simp
  | cons o ops ih =>
    obtain ⟨h1, h2⟩ := ih (fun t ht => hops t (by simp [ht])) (OutOp.run out debug canOpen s o)
    simp only [List.foldl_cons, h1, h2]
    cases o with
    | print t f =>
      cases f with
      | none => exact absurd (by simp) (hops t)
      | absent => simp [OutOp.run, strategyPrint, h0, OutSt.print, OutOp.shown]
      | handle k => simp [OutOp.run, strategyPrint, h0, OutSt.print, OutOp.shown]
    | log lv t =>
      simp only [OutOp.run, logRecord, logRecord_level, h0, OutOp.shown, List.map_cons, List.flatten_cons]
      by_cases hl : 20 ≤ lv ∨ (10 ≤ lv ∧ debug = true)
      · simp [hl]
      · simp [hl]

/-- A file that the strategy opened itself gets exactly what is printed to it. -/
theorem c71_own_files (out : Option Str) (debug : Bool) (canOpen : Str → Py Unit) (ops : List OutOp) (s : OutSt) (k : Nat) :
    (ops.foldl (OutOp.run out debug canOpen) s).handles k =
      s.handles k ++ (ops.map fun o => match o with | .print t (.handle h) => if h = k then t else [] | _ => []).flatten := by
  induction ops generalizing s with
  | nil => simp
  | cons o ops ih =>
    simp only [List.foldl_cons, ih, List.map_cons, List.flatten_cons]
    cases o with
    | print t f =>
      cases f with
      | handle h =>
        simp only [OutOp.run, strategyPrint, OutSt.print]
        by_cases hk : h = k
        · simp [hk]
        · have : k ≠ h := fun e => hk e.symm
          simp [hk, this]
      | none => simp [OutOp.run, strategyPrint, OutSt.print]
      | absent =>
        simp only [OutOp.run, strategyPrint]
        split
        · split <;> simp [OutSt.append]
        · simp [OutSt.print]
    | log lv t =>
      simp only [OutOp.run, logRecord, logRecord_level]
      by_cases hl : 20 ≤ lv ∨ (10 ≤ lv ∧ debug = true)
      · simp only [hl, not_true_eq_false, if_false]
        split <;> simp [OutSt.append]
      · simp [hl]

private def outDemo : List OutOp :=
  [.log 20 c!"start;", .print c!"hello;" .absent, .log 10 c!"detail;", .print c!"mine;" (.handle 3), .print c!"tty;" .none, .log 40 c!"failed;"]
private def outSt0 : OutSt := ⟨[], fun p => if p = c!"a.log" then c!"old;" else [], fun _ => []⟩

/-- Non-vacuity: without `--debug` the detail is left out. -/
example : (outDemo.foldl (OutOp.run (some c!"a.log") false fun _ => .ok ()) outSt0).files c!"a.log" = c!"old;start;hello;failed;" ∧
    (outDemo.foldl (OutOp.run (some c!"a.log") true fun _ => .ok ()) outSt0).files c!"a.log" = c!"old;start;hello;detail;failed;" ∧
    (outDemo.foldl (OutOp.run (some c!"a.log") true fun _ => .ok ()) outSt0).handles 3 = c!"mine;" ∧
    (outDemo.foldl (OutOp.run (some c!"a.log") true fun _ => .ok ()) outSt0).stdout = c!"tty;" := by decide +kernel

end Jq
