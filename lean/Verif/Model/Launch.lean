import Verif.Model.Cli
import Verif.Model.Config
import Verif.Model.Strategy
/-!
# Starting a task

`Loader` (`loader.py:17-30`), `Strategy.make_apis` (`strategy.py:79-91`), `TaskRunner.run` (`runner.py:73-94`) and `start_task`
(`__main__.py:46-52`).

`importlib.import_module` is modelled for a name without dots, as the standard finders do it; the directory listings they cache
are taken to be up to date.  Running the strategy's file, the body of `process_initialize`, scheduling the tasks and the event loop
are inputs here (they are modelled in `Strategy.lean`, `Sources.lean` and `Run.lean`).
-/
namespace Jq

/-! ## Loading the strategy's file -/

/-- `os.path.split`. -/
def pathSplit (p : Str) : Str × Str :=
  let tail := (p.reverse.takeWhile fun c => c != '/').reverse
  let head := p.take (p.length - tail.length)
  (if head.all fun c => c == '/' then head else rstripBy (fun c => c == '/') head, tail)

/-- `loader.py:17-21` `Loader.__init__`: the directory and the file's name. -/
def loaderInit (path : Str) : Str × Str :=
  let s := pathSplit path
  (if s.1 = [] then c!"." else s.1, s.2)

/-- What the import system looks at: the names in `sys.modules`, the modules built into the interpreter, the files, and the
endings of extension modules. -/
structure Imports where
  modules : List Str
  builtin : List Str
  isFile : Str → Bool
  isDir : Str → Bool
  extensions : List Str

/-- What an import gives. -/
inductive Loaded where
  /-- the module that `sys.modules` has -/
  | existing (name : Str)
  | builtin (name : Str)
  /-- the module made by running this file -/
  | file (path : Str)
  /-- a module without code (a directory without `__init__`) -/
  | namespace (dir : Str)
deriving DecidableEq, Repr

/-- `dir/name`. -/
def inDir (dir name : Str) : Str := dir ++ '/' :: name

/-- The files that may hold the module, in the order in which the finder of a directory looks for them. -/
def candidates (i : Imports) (dir name : Str) : List Str :=
  let suffixes := i.extensions ++ [c!".py", c!".pyc"]
  suffixes.map (fun s => inDir (inDir dir name) (c!"__init__" ++ s)) ++ suffixes.map (fun s => inDir dir (name ++ s))

/-- The path finder: the first file in the first directory; a directory of that name without `__init__` counts only if there is no file
on the whole path. -/
def findOnPath (i : Imports) (name : Str) : List Str → Option Str → Py Loaded
  | [], none => .error .importError
  | [], some d => .ok (.namespace d)
  | dir :: dirs, ns =>
    match (candidates i dir name).find? i.isFile with
    | some f => .ok (.file f)
    | none => findOnPath i name dirs (ns.or (if i.isDir (inDir dir name) then some (inDir dir name) else none))

/-- `importlib.import_module(name)` for a name without dots. -/
def importModule (i : Imports) (name : Str) (path : List Str) : Py Loaded :=
  if name = [] then .error .valueError
  else if name ∈ i.modules then .ok (.existing name)
  else if name ∈ i.builtin then .ok (.builtin name)
  else findOnPath i name path none

/-- `loader.py:24-30` `Loader.load`: the new `sys.path` and the module. -/
def loadStrategy (i : Imports) (codePath : Str) (path : List Str) : List Str × Py Loaded :=
  let s := loaderInit codePath
  (s.1 :: path, importModule i ((splitOn '.' s.2).headD []) (s.1 :: path))

/-! ## The API in the strategy's module -/

/-- A module's attribute: an object of the user's, or the framework's object of that name. -/
inductive UObj where
  | user (ident : Nat)
  | api (name : Str)
deriving DecidableEq, Repr

/-- `strategy.py:81-85`. -/
def schedulerApi : List Str := [c!"run_daily", c!"log", c!"context", c!"set_options", c!"print"]

/-- `account/api.py:323-329` `__all__`. -/
def accountApi : List Str :=
  [c!"LimitOrderStyle", c!"MarketOrderStyle", c!"order", c!"cancel_order", c!"batch_submit_orders", c!"batch_cancel_orders",
   c!"get_orders", c!"sync_balance", c!"sync_orders"]

/-- `strategy.py:79-91` `make_apis`. -/
def makeApis (setupAccount : Bool) (ns : Dict Str UObj) : Dict Str UObj :=
  (schedulerApi ++ if setupAccount then accountApi else []).foldl (fun ns n => dset ns n (.api n)) ns

/-! ## The start -/

/-- A value in a configuration: only its truth value matters here. -/
structure CfgVal where
  ident : Nat
  truth : Bool
deriving DecidableEq, Repr

/-- `scheduler/config.py:15-31` the scheduler's options before a configuration file is read. -/
def defaultOptions : Dict Str CfgVal :=
  [(c!"EVENT_DAYS_COUNT", ⟨0, true⟩), (c!"ENABLE_HISTORY_START", ⟨1, false⟩), (c!"MARKET_PERIOD", ⟨2, true⟩), (c!"SETUP_ACCOUNT", ⟨3, true⟩),
   (c!"RUNTIME_DIR", ⟨4, true⟩)]

/-- The options of `start_task`, what the start finds outside the program, and what the user's code does. -/
structure Launch where
  env : InitEnv
  code : Str
  name : Str
  envOpt : Option Str
  config : Option Str
  /-- the variables that running the configuration file defines -/
  configVars : Py (Dict Str CfgVal)
  imports : Imports
  /-- running the module: its attributes -/
  exec : Loaded → Py (Dict Str UObj)
  /-- the calls of `process_initialize`, which sees the module's attributes -/
  body : Dict Str UObj → List (InitCall × Bool)
  /-- `Strategy.schedule` -/
  schedule : StratSt → Py Unit
  /-- `EventLoop.run` -/
  loop : StratSt → Py Unit

/-- What the start changes. -/
structure LaunchSt where
  proc : ProcEnv
  options : Dict Str CfgVal := defaultOptions
  /-- the strategy's file has been run -/
  ran : Option Loaded := none
  /-- the attributes that `process_initialize` saw when it was called -/
  entered : Option (Dict Str UObj) := none
  strat : StratSt := {}
  looping : Bool := false

/-- `strategy.py:64-77` `setup` (with `strategy.py:79-91` before it) and `runner.py:93` the loop; `ns` is the module. -/
def Launch.setup (l : Launch) (s : LaunchSt) (ns : Dict Str UObj) : LaunchSt × Py Unit :=
  match dget s.options c!"SETUP_ACCOUNT" with
  | none => (s, .error .attributeError)
  | some v =>
    let ns := makeApis v.truth ns
    if (dget ns c!"process_initialize").isNone then (s, .error .taskError)
    else
      match ({ setupAccountCfg := v.truth } : StratSt).setup (some (l.body ns)) with
      | (t, .error x) => ({ s with entered := some ns, strat := t }, .error x)
      | (t, .ok ()) =>
        let s := { s with entered := some ns, strat := t }
        match l.schedule t with
        | .error x => (s, .error x)
        | .ok () => ({ s with looping := true }, l.loop t)

/-- `runner.py:73-94` `TaskRunner.run`. -/
def Launch.run (l : Launch) (s : LaunchSt) : LaunchSt × Py Unit :=
  match (if l.config.getD [] = [] then .ok s.options else l.configVars.map (setupConfig schedulerPrefix s.options) : Py (Dict Str CfgVal)) with
  | .error x => (s, .error x)
  | .ok options =>
    let s := { s with options := options }
    let r := loadStrategy l.imports l.code s.proc.sysPath
    let s := { s with proc := { s.proc with sysPath := r.1 } }
    match r.2 with
    | .error x => (s, .error x)
    | .ok m =>
      let s := { s with ran := some m }
      match l.exec m with
      | .error x => (s, .error x)
      | .ok ns => l.setup s ns

/-- `__main__.py:46-52` `start_task`. -/
def Launch.start (l : Launch) (proc : ProcEnv) : LaunchSt × Py Unit :=
  match runnerInit l.env l.name l.envOpt l.config proc with
  | (proc, .error x) => ({ proc := proc }, .error x)
  | (proc, .ok ()) => l.run { proc := proc }

/-! ## `get_tasks` -/

/-- What is printed about a task (`__main__.py:68-78`). -/
structure TaskRow where
  name : Str
  pid : Nat
  code : Str
  out : Option Str
  env : Option Str
  debug : Bool
  cmd : List Str
deriving DecidableEq, Repr

/-- `__main__.py:67-78` for one process; `again`: the command line is read again. -/
def taskRow (again : Nat → Py (List Str)) (e : ProcEntry) : Py TaskRow :=
  match again e.pid with
  | .error x => .error x
  | .ok cmd =>
    match parseTaskInfo cmd with
    | .error x => .error x
    | .ok info =>
      match info.name, info.code with
      | some name, some code => .ok ⟨name, e.pid, code, info.out, info.env, info.debug, cmd⟩
      | _, _ => .error .keyError

/-- `__main__.py:66-78` the loop: an exception ends it. -/
def taskRows (again : Nat → Py (List Str)) : List ProcEntry → List TaskRow × Py Unit
  | [] => ([], .ok ())
  | e :: es =>
    match taskRow again e with
    | .error x => ([], .error x)
    | .ok r => let rs := taskRows again es; (r :: rs.1, rs.2)

/-- `__main__.py:55-78` `get_tasks`: the rows printed. -/
def getTasks (vs : List ProcView) (again : Nat → Py (List Str)) : List TaskRow × Py Unit :=
  match activeTasks vs with
  | .error x => ([], .error x)
  | .ok es => taskRows again es

/-! ## What a task writes -/

/-- Standard output, the files, and the file objects that the user's code opened. -/
structure OutSt where
  stdout : Str
  files : Str → Str
  handles : Nat → Str

/-- Append to a file. -/
def OutSt.append (s : OutSt) (path text : Str) : OutSt :=
  { s with files := fun p => if p = path then s.files p ++ text else s.files p }

/-- The argument `file` of `print`. -/
inductive FileArg where
  | absent
  | none
  | handle (h : Nat)
deriving DecidableEq, Repr

/-- The builtin `print` with the argument `file`; `text` is the text with its end. -/
def OutSt.print (s : OutSt) (text : Str) : FileArg → OutSt
  | .absent | .none => { s with stdout := s.stdout ++ text }
  | .handle h => { s with handles := fun k => if k = h then s.handles k ++ text else s.handles k }

/-- `api.py:30-40` `strategy_print`; `inst` is `Context._instance` (`context.py:53-57`), with its `out`; `canOpen`: the outcome of
`open(out, "a")`. -/
def strategyPrint (inst : Option (Option Str)) (canOpen : Str → Py Unit) (text : Str) (file : FileArg) (s : OutSt) : OutSt × Py Unit :=
  match inst with
  | none => (s, .error .internalError)
  | some out =>
    if out.getD [] ≠ [] ∧ file = .absent then
      match canOpen (out.getD []) with
      | .error x => (s, .error x)
      | .ok () => (s.append (out.getD []) text, .ok ())
    else (s.print text file, .ok ())

/-- `log.py:24-48`, `runner.py:53-59`: a record goes to the log file or to standard output, if its level is at least the one set; levels
as in `logging` (DEBUG 10, INFO 20).  `text` is the formatted record with its end. -/
def logRecord (out : Option Str) (debug : Bool) (level : Nat) (text : Str) (s : OutSt) : OutSt :=
  if level < (if debug then 10 else 20) then s
  else if out.getD [] ≠ [] then s.append (out.getD []) text
  else { s with stdout := s.stdout ++ text }

end Jq
