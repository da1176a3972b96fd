import Verif.Model.Account
import Verif.Spec.Account
/-! The portfolio as a function of what the gate reported (C89). -/
namespace Jq
variable {γ ν : Type} [PyNum ν]

/-- A balance report with cash and positions. -/
def Complete (r : Py (BalInfo ν)) (cash : CashInfo ν) (is : List (PosInfo ν)) : Prop := r = .ok ⟨some cash, some is⟩

def completeReport : Py (BalInfo ν) → Option (CashInfo ν × List (PosInfo ν))
  | .ok ⟨some c, some is⟩ => some (c, is)
  | _ => none

/-- The complete balance reports that the gate gives in the course of the operations, in order. -/
def reports (G : Gate γ ν) : Acct γ ν → List (AOp ν) → List (CashInfo ν × List (PosInfo ν))
  | _, [] => []
  | a, op :: ops => (match op with
      | .syncBalance => (completeReport (G.balance a.gate).2).toList
      | _ => []) ++ reports G (a.step G op).1 ops

/-- The last of the reported figures that counts as true, else the first value. -/
def lastTruthy (first : ν) (figures : List (Option ν)) : ν := ((figures.filterMap id).filter PyNum.truthy).getLast?.getD first

/-- `ps` are the positions of the entries before the first malformed one. -/
def GoodPrefix (is : List (PosInfo ν)) (ps : List (Pos ν)) : Prop :=
  ∃ good rest, is = good ++ rest ∧ AllRel PosInfo.Says good ps ∧ ∀ bad ∈ rest.head?, ∀ p, ¬ bad.Says p

end Jq
