import Verif.Model.Office
/-!
# The runtime directory

The option `runtime_dir` is used twice: the strategy makes the directory and reports it (`strategy.py:204-207`), the trade gate keeps its
data file below it (`trade_gate.py:537-542`).

`os.path` of POSIX systems.  Simplified: no symbolic links; `HOME` is set; the working directory does not change while a process runs.
-/
namespace Jq

/-- What the paths of a process depend on: the working directory, `HOME`, and the home directories of the users. -/
structure PathEnv where
  cwd : Str
  home : Str
  users : Str → Option Str := fun _ => none

/-- `os.path.expanduser`. -/
def expandUser (E : PathEnv) (p : Str) : Str :=
  match p with
  | '~' :: rest =>
    let name := rest.takeWhile (· ≠ '/')
    match (if name = [] then some E.home else E.users name) with
    | none => p
    | some h =>
      let q := (h.reverse.dropWhile (· = '/')).reverse ++ rest.dropWhile (· ≠ '/')
      if q = [] then c!"/" else q
  | _ => p

/-- `os.path.normpath`: one component. -/
def normStep (abs : Bool) (done : List Str) (s : Str) : List Str :=
  if s = [] ∨ s = c!"." then done
  else if s ≠ c!".." ∨ (!abs ∧ done = []) ∨ done.getLast? = some c!".." then done ++ [s]
  else done.dropLast

/-- `os.path.normpath`; two slashes at the beginning are kept, one or more than two become one. -/
def normPath (p : Str) : Str :=
  let abs := p.head? = some '/'
  let comps := (splitOn '/' p).foldl (normStep abs) []
  let lead : Str := if !abs then [] else if c!"//".isPrefixOf p ∧ ¬ c!"///".isPrefixOf p then c!"//" else c!"/"
  let q := lead ++ joinWith c!"/" comps
  if q = [] then c!"." else q

/-- `os.path.abspath`. -/
def absPath (E : PathEnv) (p : Str) : Str := normPath (joinPath E.cwd p)

/-- `scheduler/config.py:31`, computed when the module is loaded. -/
def defaultRuntimeDir (E : PathEnv) : Str := absPath E (expandUser E c!"~/jqtrade")

/-- `strategy.py:204` the directory that is made and reported. -/
def strategyDir (E : PathEnv) (opt : Option Str) : Str := absPath E (expandUser E (opt.getD (defaultRuntimeDir E)))

/-- `trade_gate.py:537-539` the directory of the data files, as it is given to the operating system. -/
def gateDataDir (E : PathEnv) (opt : Option Str) : Str := joinPath (opt.getD (defaultRuntimeDir E)) c!"data"

/-- The directory of a path, for a process in the working directory `E.cwd`. -/
def dirAt (E : PathEnv) (p : Str) : List Str := resolveDirs (splitOn '/' (joinPath E.cwd p))

/-- `trade_gate.py:542` the data file. -/
def gateDataFile (E : PathEnv) (opt : Option Str) (name day : Str) : Path := dataFile (joinPath E.cwd (gateDataDir E opt)) name day

/-- The files of the gate of a task, of which the data file is looked up on the disk (`trade_gate.py:499-503`). -/
def gateView (E : PathEnv) (opt : Option Str) (name day : Str) (disk : Path → Option Str) (fs : Files) : Files :=
  fs.set (.data day) (disk (gateDataFile E opt name day))

end Jq
