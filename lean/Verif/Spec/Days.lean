import Verif.Model.TradeGate
import Verif.Spec.GateSetup
import Verif.Spec.Office
/-! Specification vocabulary for a task that is started again on every day (C98). -/
namespace Jq
variable {ν : Type}

/-- The same files of the day. -/
def SameDay (d : Str) (fs fs' : Files) : Prop := ∀ f, f.day = d → fs' f = fs f

/-- A process of the task: its options, what the environment decides during its calls, and the calls.  (Being killed in the middle of a
call leaves the files as a call that fails there; it is the last one then.) -/
structure Life (ν : Type) where
  conf : AXConf
  env : Nat → Env
  ops : List (AOp ν)

/-- It is started and ended on the day `d`.  Meanwhile others change only files of this day, whatever is in the files of other days. -/
structure Life.On (d : Str) (l : Life ν) : Prop where
  started : l.conf.dataDay = d
  ended : ∀ n, (l.env n).day = d
  others : ∀ n fs fs', SameDay d fs fs' → SameDay d ((l.env n).ext fs) ((l.env n).ext fs')
  quiet : ∀ n fs f, f.day ≠ d → (l.env n).ext fs f = fs f

/-- The answers to a sequence of calls. -/
def Acct.answers {γ : Type} [PyNum ν] (G : Gate γ ν) : Acct γ ν → List (AOp ν) → List (Py (Option Str))
  | _, [] => []
  | a, op :: ops => (a.step G op).2 :: Acct.answers G (a.step G op).1 ops

variable [CellNum ν] [Store ν]

/-- The account when the gate has just been set up. -/
def Life.begin (fs : Files) (l : Life ν) : Acct (AXG ν) ν := Acct.init ⟨AX.setup l.conf fs, l.env, 0⟩

/-- What a process has seen in the end: its account and the answers it got. -/
structure Seen (ν : Type) where
  account : Acct (AXG ν) ν
  answers : List (Py (Option Str))

/-- The processes one after the other, each with its day: what each has seen, and the files in the end. -/
def runLives : List (Str × Life ν) → Files → List (Str × Seen ν) × Files
  | [], fs => ([], fs)
  | (d, l) :: ls, fs =>
    let a := (l.begin fs).run (axGate ν) l.ops
    let r := runLives ls a.gate.ax.files
    ((d, ⟨a, (l.begin fs).answers (axGate ν) l.ops⟩) :: r.1, r.2)

/-- The same was seen. -/
structure Seen.Same (x y : Seen ν) : Prop where
  account : SameAccount x.account y.account
  answers : y.answers = x.answers

end Jq
