import Verif.Py.Str
import Verif.Py.Dict
/-!
# The command line and the process list

`scheduler/utils.py`, `TaskRunner.__init__` (`scheduler/runner.py:21-71`) and `stop_task` (`__main__.py:81-123`).
The command line itself is read in `Args.lean`.
-/
namespace Jq

/-- The dictionary of `parse_task_info`; `code` and `name` are absent (`none`) until seen. -/
structure TaskInfo where
  debug : Bool := false
  env : Option Str := none
  out : Option Str := none
  code : Option Str := none
  name : Option Str := none
deriving DecidableEq, Repr

/-- `utils.py:6-16` the loop; each item is looked at, also one that was the value of the option before. -/
def parseItems (info : TaskInfo) : List Str → Py TaskInfo
  | [] => .ok info
  | item :: rest =>
    if item = c!"-c" ∨ item = c!"--code" then
      match rest.head? with
      | none => .error .indexError
      | some v => parseItems { info with code := some v } rest
    else if item = c!"-o" ∨ item = c!"--out" then
      match rest.head? with
      | none => .error .indexError
      | some v => parseItems { info with out := some v } rest
    else if item = c!"-n" ∨ item = c!"--name" then
      match rest.head? with
      | none => .error .indexError
      | some v => parseItems { info with name := some v } rest
    else if item = c!"-e" ∨ item = c!"--env" then
      match rest.head? with
      | none => .error .indexError
      | some v => parseItems { info with env := some v } rest
    else if item = c!"--debug" then parseItems { info with debug := true } rest
    else parseItems info rest

/-- `utils.py:4-17` `parse_task_info`. -/
def parseTaskInfo (cmd : List Str) : Py TaskInfo := parseItems {} cmd

/-- A process as read from the process list. -/
structure ProcEntry where
  pid : Nat
  /-- `none`: `_p.ppid()` raised an exception that is passed over (`NoSuchProcess`, or `AccessDenied` of a process that is not python) -/
  ppid : Option Nat
  cmd : List Str
deriving DecidableEq, Repr

/-- What reading one process of the list gives (`utils.py:28-41`). -/
inductive ProcView where
  | ok (e : ProcEntry)
  /-- `NoSuchProcess` -/
  | gone
  /-- `AccessDenied`; the argument: `'python' in _p.name()`, which may raise, too -/
  | denied (python : Py Bool)
deriving DecidableEq, Repr

/-- `utils.py:29-30`. -/
def isTaskCmd (cmd : List Str) : Bool :=
  hasSub c!"jqtrade" (joinWith c!" " cmd) && hasSub c!"start_task" (joinWith c!" " cmd)

/-- `utils.py:27-41`. -/
def taskEntries : List ProcView → Py (List ProcEntry)
  | [] => .ok []
  | .gone :: vs => taskEntries vs
  | .denied (.error x) :: _ => .error x
  | .denied (.ok true) :: _ => .error .accessDenied
  | .denied (.ok false) :: vs => taskEntries vs
  | .ok e :: vs =>
    if isTaskCmd e.cmd then
      match taskEntries vs with
      | .ok es => .ok (e :: es)
      | .error x => .error x
    else taskEntries vs

/-- `utils.py:43-47`: a process that is the parent of another one found is left out. -/
def dropParents (es : List ProcEntry) : List ProcEntry := es.filter fun e => !(es.map (·.ppid)).contains (some e.pid)

/-- `utils.py:20-50` `get_activate_task_process`. -/
def activeTasks (vs : List ProcView) : Py (List ProcEntry) :=
  match taskEntries vs with
  | .ok es => .ok (dropParents es)
  | .error x => .error x

/-- `parse_task_info(_p.cmdline())["name"]`; the command line is read again. -/
def taskName (again : Nat → Py (List Str)) (e : ProcEntry) : Py Str :=
  match again e.pid with
  | .error x => .error x
  | .ok cmd =>
    match parseTaskInfo cmd with
    | .error x => .error x
    | .ok info =>
      match info.name with
      | none => .error .keyError
      | some n => .ok n

/-- `runner.py:26-31` the loop of `_exist_repeated_task`. -/
def existsNamed (cur parent : Nat) (name : Str) (again : Nat → Py (List Str)) : List ProcEntry → Py Bool
  | [] => .ok false
  | e :: es =>
    if e.pid = cur ∨ e.pid = parent then existsNamed cur parent name again es
    else
      match taskName again e with
      | .error x => .error x
      | .ok n => if name = n then .ok true else existsNamed cur parent name again es

/-- `runner.py:21-31` `_exist_repeated_task`. -/
def existRepeated (cur parent : Nat) (name : Str) (vs : List ProcView) (again : Nat → Py (List Str)) : Py Bool :=
  match activeTasks vs with
  | .error x => .error x
  | .ok es => existsNamed cur parent name again es

/-! ## `stop_task` -/

/-- The options of `stop_task` (`__main__.py:30-34`). -/
structure StopOpts where
  name : Option Str := none
  pid : Option Int := none
  all : Bool := false
  force : Bool := false
deriving DecidableEq, Repr

inductive Sig where
  | kill
  | term
deriving DecidableEq, Repr

/-- Signals sent, and how the command ends. -/
abbrev Stopped := List (Nat × Sig) × Py Unit

/-- `__main__.py:96-104` `_kill`; `deliver` says whether the signal can be sent. -/
def killTask (force : Bool) (deliver : Nat → Py Unit) (e : ProcEntry) : Stopped :=
  match deliver e.pid with
  | .error x => ([], .error x)
  | .ok () => ([(e.pid, if force then .kill else .term)], .ok ())

/-- `__main__.py:107-108`. -/
def stopAll (force : Bool) (deliver : Nat → Py Unit) : List ProcEntry → Stopped
  | [] => ([], .ok ())
  | e :: es =>
    match killTask force deliver e with
    | (l, .error x) => (l, .error x)
    | (l, .ok ()) => let r := stopAll force deliver es; (l ++ r.1, r.2)

/-- `__main__.py:110-113`. -/
def stopPid (pid : Int) (force : Bool) (deliver : Nat → Py Unit) : List ProcEntry → Stopped
  | [] => ([], .ok ())
  | e :: es => if (e.pid : Int) = pid then killTask force deliver e else stopPid pid force deliver es

/-- `__main__.py:115-118`. -/
def stopName (name : Str) (force : Bool) (again : Nat → Py (List Str)) (deliver : Nat → Py Unit) : List ProcEntry → Stopped
  | [] => ([], .ok ())
  | e :: es =>
    match taskName again e with
    | .error x => ([], .error x)
    | .ok n =>
      if name = n then
        match killTask force deliver e with
        | (l, .error x) => (l, .error x)
        | (l, .ok ()) => let r := stopName name force again deliver es; (l ++ r.1, r.2)
      else stopName name force again deliver es

/-- `__main__.py:81-123` `stop_task`; an empty name and the pid 0 count as not given. -/
def stopTask (o : StopOpts) (vs : List ProcView) (again : Nat → Py (List Str)) (deliver : Nat → Py Unit) : Stopped :=
  match activeTasks vs with
  | .error x => ([], .error x)
  | .ok es =>
    let name := o.name.getD []
    let pid := o.pid.getD 0
    if name = [] ∧ pid = 0 ∧ o.all = false then ([], .error .valueError)
    else if o.all then stopAll o.force deliver es
    else if pid ≠ 0 then stopPid pid o.force deliver es
    else stopName name o.force again deliver es

/-! ## Environment settings -/

/-- `utils.py:57-61` one setting. -/
def parseSetting (s : Str) : Py (Str × Str) :=
  match splitOn '=' (pyStrip s) with
  | [k, v] => .ok (pyStrip k, pyStrip v)
  | _ => .error .valueError

/-- `utils.py:56-62`. -/
def parseSettings (d : Dict Str Str) : List Str → Py (Dict Str Str)
  | [] => .ok d
  | s :: ss =>
    match parseSetting s with
    | .error x => .error x
    | .ok (k, v) => parseSettings (dset d k v) ss

/-- `utils.py:53-62` `parse_env`. -/
def parseEnv (env : Str) : Py (Dict Str Str) := parseSettings [] (splitOn ';' env)

/-- What `TaskRunner.__init__` changes in the process. -/
structure ProcEnv where
  environ : Dict Str Str
  sysPath : List Str
deriving DecidableEq, Repr

/-- `os.environ.update(d)`. -/
def dictUpdate (e : Dict Str Str) (d : Dict Str Str) : Dict Str Str := d.foldl (fun e p => dset e p.1 p.2) e

/-- `runner.py:61-65`; `env` is the option, `none` or empty: not given. -/
def applyEnv (env : Option Str) (p : ProcEnv) : ProcEnv × Py Unit :=
  match (if env.getD [] = [] then .ok [] else parseEnv (env.getD []) : Py (Dict Str Str)) with
  | .error x => (p, .error x)
  | .ok d =>
    ({ environ := dictUpdate p.environ d
       sysPath := match dget d c!"PYTHONPATH" with
         | none => p.sysPath
         | some v => (splitOn ':' v).reverse.foldl (fun path x => x :: path) p.sysPath }, .ok ())

/-- The file system and process list as `TaskRunner.__init__` finds them. -/
structure InitEnv where
  codeExists : Bool
  configExists : Bool
  cur : Nat
  parent : Nat
  views : List ProcView
  again : Nat → Py (List Str)
  /-- setting up the loggers -/
  loggers : Py Unit := .ok ()

/-- `runner.py:42-71` `TaskRunner.__init__`. -/
def runnerInit (i : InitEnv) (name : Str) (env config : Option Str) (p : ProcEnv) : ProcEnv × Py Unit :=
  if i.codeExists = false then (p, .error .fileNotFound)
  else
    match existRepeated i.cur i.parent name i.views i.again with
    | .error x => (p, .error x)
    | .ok true => (p, .error .taskError)
    | .ok false =>
      match i.loggers with
      | .error x => (p, .error x)
      | .ok () =>
        match applyEnv env p with
        | (p, .error x) => (p, .error x)
        | (p, .ok ()) => if config.getD [] ≠ [] ∧ i.configExists = false then (p, .error .fileNotFound) else (p, .ok ())

end Jq
