import Verif.Model.TradeGate
/-!
# Several tasks in one order directory

Tasks with different names on one machine, with the same `order_dir` and `runtime_dir`: the order, cancel, result and update files of a
day (`trade_gate.py:561-575`) are shared, the data file has the task's name in its name (`trade_gate.py:542`, `494`).  One call of a
gate is one step (calls at the same time: `Model/FileWriters`, `Model/Persist`), the steps of the tasks and of the broker come in
any order.

Simplified: POSIX paths without symbolic links; the data files are those of the day.  Several days are `Office.runDays`, where a task that goes on
after midnight (C98) without being started again has no data file; the shared files, whose names have the day of the call, do not depend on it.
-/
namespace Jq

/-- A file: the directories from the root, and its name. -/
abbrev Path := List Str × Str

/-- `os.path.join(dir, p)`. -/
def joinPath (dir p : Str) : Str :=
  if p.head? = some '/' then p else if dir = [] ∨ dir.getLast? = some '/' then dir ++ p else dir ++ '/' :: p

/-- The directory that the parts of an absolute path lead to. -/
def resolveDirs (parts : List Str) : List Str :=
  parts.foldl (fun d s => if s = [] ∨ s = c!"." then d else if s = c!".." then d.dropLast else d ++ [s]) []

/-- The file of a path (whose last part is a name). -/
def fileAt (p : Str) : Path := (resolveDirs (splitOn '/' p).dropLast, (splitOn '/' p).getLast?.getD [])

/-- `trade_gate.py:542` the path of the data file. -/
def dataPath (dir name day : Str) : Str := joinPath dir (name ++ c!"_" ++ day ++ c!".json")

/-- The data file. -/
def dataFile (dir name day : Str) : Path := fileAt (dataPath dir name day)

/-- `trade_gate.py:494` the temporary file. -/
def tmpFile (dir name day : Str) : Path := fileAt (dataPath dir name day ++ c!".tmp")

/-- The directories on the day `day`: which task has which name, and where the data files are. -/
structure OfficeConf where
  day : Str
  dir : Str
  name : Nat → Str

/-- The files and the tasks. -/
structure Office (ν : Type) where
  /-- orders, cancels, results and updates -/
  shared : Files
  /-- everything else -/
  data : Path → Option Str
  task : Nat → Acct (AXG ν) ν

variable {ν : Type}

/-- The files as the gate of task `i` finds them. -/
def Office.view (O : OfficeConf) (i : Nat) (o : Office ν) : Files
  | .data d => if d = O.day then o.data (dataFile O.dir (O.name i) d) else none
  | .tmp d => if d = O.day then o.data (tmpFile O.dir (O.name i) d) else none
  | f => o.shared f

/-- The files after task `i` has changed what it found into `fs`. -/
def Office.put (O : OfficeConf) (i : Nat) (fs : Files) (a : Acct (AXG ν) ν) (o : Office ν) : Office ν where
  shared f :=
    match f with
    | .data d => o.shared (.data d)
    | .tmp d => o.shared (.tmp d)
    | f => fs f
  data p :=
    if p = dataFile O.dir (O.name i) O.day then fs (.data O.day)
    else if p = tmpFile O.dir (O.name i) O.day then fs (.tmp O.day)
    else o.data p
  task j := if j = i then a else o.task j

/-- The account of task `i`, its gate looking at the files as they are now. -/
def Office.at (O : OfficeConf) (i : Nat) (env : Env) (o : Office ν) : Acct (AXG ν) ν :=
  { o.task i with gate := ⟨{ (o.task i).gate.ax with files := o.view O i }, fun _ => { env with ext := id }, 0⟩ }

variable [CellNum ν] [Store ν]

/-- Between the calls nothing is decided. -/
def idleEnv (day : Str) : Env := { now := ⟨2000, 1, 1, 0, 0, 0, 0⟩, day := day }

/-- What happens in the office. -/
inductive OEv (ν : Type) where
  /-- task `i` calls a function of its account -/
  | call (i : Nat) (env : Env) (op : AOp ν)
  /-- task `i` is started, or started again -/
  | start (i : Nat) (conf : AXConf)
  /-- the broker appends to the result and the update file -/
  | broker (results updates : Str)

/-- The office after an event, and the answer. -/
def Office.step (O : OfficeConf) (o : Office ν) : OEv ν → Office ν × Py (Option Str)
  | .call i env op =>
    let r := (o.at O i env).step (axGate ν) op
    (o.put O i r.1.gate.ax.files r.1, r.2)
  | .start i conf =>
    let fs := o.view O i
    (o.put O i fs (Acct.init ⟨AX.setup conf fs, fun _ => idleEnv O.day, 0⟩), .ok none)
  | .broker r u =>
    let fs := o.shared.set (.results O.day) (some ((o.shared (.results O.day)).getD [] ++ r))
    ({ o with shared := fs.set (.updates O.day) (some ((o.shared (.updates O.day)).getD [] ++ u)) }, .ok none)

/-- All events, with the answers that task `i` got. -/
def Office.run (O : OfficeConf) (i : Nat) : Office ν → List (OEv ν) → Office ν × List (Py (Option Str))
  | o, [] => (o, [])
  | o, e :: es =>
    let r := o.step O e
    let rs := Office.run O i r.1 es
    (rs.1, (match e with
      | .call j _ _ => if j = i then [r.2] else []
      | _ => []) ++ rs.2)

/-- One day after the other, each with its events (`trade_gate.py:561-575`: the names of the shared files have the day of the call). -/
def Office.runDays (o : Office ν) : List (OfficeConf × List (OEv ν)) → Office ν
  | [] => o
  | (O, es) :: ds => (o.run O 0 es).1.runDays ds

end Jq
