import Verif.Model.Cli
/-!
# Starting tasks at the same time

The processes of a machine, with the duplicate check of `TaskRunner.__init__` (`runner.py:21-31`, `47-49`) taken apart: first the
pids are listed (`psutil.process_iter`, `utils.py:27`), then one process after the other is read, then the names are compared.
Anything may happen between the steps.

Simplified: pids are not used again; every process can be read; a process whose parent has ended has process 0 as its parent.
-/
namespace Jq

/-- What a process is. -/
inductive ProcKind where
  | other
  /-- `start_task` with the name that `argparse` found -/
  | task (name : Str)
  /-- forked by a task (for instance by `multiprocessing`): same command line, does not run the check -/
  | copy
deriving DecidableEq, Repr

structure OsProc where
  /-- the process that started it -/
  born : Nat
  cmd : List Str
  kind : ProcKind
deriving DecidableEq, Repr

/-- Where a task is in `TaskRunner.__init__`. -/
inductive TaskPhase where
  | starting
  /-- `os.getppid()`, the pids still to be read, what was read so far (`utils.py:27-41`) -/
  | listing (parent : Nat) (todo : List Nat) (seen : List ProcView)
  /-- `runner.py:51-` -/
  | past
  /-- `TaskError` or another exception -/
  | refused
deriving DecidableEq, Repr

/-- All processes there have been (pid = position), which are alive, and how far the tasks are. -/
structure Machine where
  procs : List OsProc
  alive : Nat → Bool
  phase : Nat → TaskPhase := fun _ => .starting

def Machine.kind (m : Machine) (q : Nat) : Option ProcKind := (m.procs[q]?).map (·.kind)

/-- `os.getppid()` and `Process.ppid()`. -/
def Machine.ppid (m : Machine) (p : OsProc) : Nat := if m.alive p.born then p.born else 0

/-- Reading a process (`utils.py:28-32`). -/
def Machine.view (m : Machine) (q : Nat) : ProcView :=
  match m.procs[q]? with
  | some p => if m.alive q then .ok ⟨q, some (m.ppid p), p.cmd⟩ else .gone
  | none => .gone

/-- The listed pids. -/
def Machine.pids (m : Machine) : List Nat := (List.range m.procs.length).filter m.alive

def Machine.setPhase (m : Machine) (q : Nat) (p : TaskPhase) : Machine := { m with phase := fun r => if r = q then p else m.phase r }

/-- A new process. -/
def Machine.add (m : Machine) (p : OsProc) : Machine :=
  { procs := m.procs ++ [p]
    alive := fun r => if r = m.procs.length then true else m.alive r
    phase := fun r => if r = m.procs.length then .starting else m.phase r }

/-- One step.  `strict`: no task, and no copy of a task, starts another process whose command line has the two words. -/
inductive MStep (strict : Bool) : Machine → Machine → Prop
  | spawn (m : Machine) (parent : Nat) (cmd : List Str) : m.alive parent = true →
      (strict = true → isTaskCmd cmd = true → m.kind parent = some .other) → MStep strict m (m.add ⟨parent, cmd, .other⟩)
  | start (m : Machine) (parent : Nat) (cmd : List Str) (name : Str) : m.alive parent = true → isTaskCmd cmd = true →
      (∀ info n, parseTaskInfo cmd = .ok info → info.name = some n → n = name) →
      (strict = true → m.kind parent = some .other) → MStep strict m (m.add ⟨parent, cmd, .task name⟩)
  | fork (m : Machine) (parent : Nat) (p : OsProc) : m.alive parent = true → m.procs[parent]? = some p →
      p.kind = .copy ∨ (p.kind ≠ .other ∧ m.phase parent = .past) → MStep strict m (m.add ⟨parent, p.cmd, .copy⟩)
  | exit (m : Machine) (q : Nat) : q ≠ 0 → MStep strict m { m with alive := fun r => if r = q then false else m.alive r }
  /-- `runner.py:22-23`, `utils.py:27` -/
  | begin (m : Machine) (q : Nat) (p : OsProc) (name : Str) : m.alive q = true → m.procs[q]? = some p → p.kind = .task name →
      m.phase q = .starting → MStep strict m (m.setPhase q (.listing (m.ppid p) m.pids []))
  /-- `utils.py:28-41` -/
  | look (m : Machine) (q parent r : Nat) (todo : List Nat) (seen : List ProcView) : m.alive q = true →
      m.phase q = .listing parent (r :: todo) seen → MStep strict m (m.setPhase q (.listing parent todo (seen ++ [m.view r])))
  /-- a process that ends between `utils.py:29` and `32` stays in the list, without a parent -/
  | lookEnding (m : Machine) (q parent r : Nat) (p : OsProc) (todo : List Nat) (seen : List ProcView) : m.alive q = true →
      m.phase q = .listing parent (r :: todo) seen → r ≠ 0 → m.alive r = true → m.procs[r]? = some p →
      MStep strict m { m.setPhase q (.listing parent todo (seen ++ [.ok ⟨r, none, p.cmd⟩])) with
        alive := fun x => if x = r then false else m.alive x }
  /-- `utils.py:43-47`, `runner.py:26-31`, `47`; a process that has ended since may or may not be there when read again -/
  | judge (m : Machine) (q parent : Nat) (p : OsProc) (name : Str) (seen : List ProcView) (again : Nat → Py (List Str)) : m.alive q = true →
      m.procs[q]? = some p → p.kind = .task name → m.phase q = .listing parent [] seen →
      (∀ r c, again r = .ok c → ∃ x, m.procs[r]? = some x ∧ c = x.cmd) → (∀ r x, m.alive r = true → m.procs[r]? = some x → again r = .ok x.cmd) →
      MStep strict m (m.setPhase q (if existRepeated q parent name seen again = .ok false then .past else .refused))

/-- Any number of steps. -/
inductive MRun (strict : Bool) : Machine → Machine → Prop
  | refl (m : Machine) : MRun strict m m
  | step {a b c : Machine} : MRun strict a b → MStep strict b c → MRun strict a c

/-- A machine on which no task has been started yet. -/
structure Machine.Fresh (m : Machine) : Prop where
  init : 0 < m.procs.length
  other : ∀ p ∈ m.procs, p.kind = .other
  born : ∀ p ∈ m.procs, p.born < m.procs.length
  alive : ∀ q, m.alive q = true → q < m.procs.length
  phase : ∀ q, m.phase q = .starting

end Jq
