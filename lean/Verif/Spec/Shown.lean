import Verif.Spec.Process
import Verif.Spec.Flow
/-! Specification vocabulary for the orders of a process (C65). -/
namespace Jq
variable {ν : Type} [CellNum ν] [Store ν]

/-- The orders whose ids were returned by a sequence of operations. -/
def acksOf (a : Acct (AXG ν) ν) : List (AOp ν) → List (Ack ν)
  | [] => []
  | op :: ops => op.acks (a.step (axGate ν) op).2 ++ acksOf (a.step (axGate ν) op).1 ops

/-- The ids that a sequence of operations draws are new, and the broker has reported on none of them before it is drawn; the
clock gives dates that exist. -/
def FreshFor (R U : Nat → Option Str) : List Str → Acct (AXG ν) ν → List (AOp ν) → Prop
  | _, _, [] => True
  | used, a, op :: ops =>
    (∀ id ∈ op.draws, id ∉ used) ∧
    (∀ k ∈ op.asks, k.now.ok ∧ ¬ RejectedIn k.id ((R a.gate.n).getD []) ∧ ¬ UpdatedIn k.id ((U a.gate.n).getD [])) ∧
    FreshFor R U (used ++ op.draws) (a.step (axGate ν) op).1 ops

end Jq
