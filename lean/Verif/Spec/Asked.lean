import Verif.Spec.Flow
/-! Specification vocabulary for the orders of a process with any gate (C65). -/
namespace Jq
variable {γ ν : Type} [PyNum ν]

/-- The orders whose ids were returned by a sequence of operations. -/
def acksIn (G : Gate γ ν) (a : Acct γ ν) : List (AOp ν) → List (Ack ν)
  | [] => []
  | op :: ops => op.acks (a.step G op).2 ++ acksIn G (a.step G op).1 ops

/-- The ids that a sequence of operations draws are new, and the broker has reported on none of them before it is drawn; the clock
gives dates that exist.  `num` is the number of calls that the gate has had. -/
def FreshIn (R U : Nat → Option Str) (num : γ → Nat) (G : Gate γ ν) : List Str → Acct γ ν → List (AOp ν) → Prop
  | _, _, [] => True
  | used, a, op :: ops =>
    (∀ id ∈ op.draws, id ∉ used) ∧
    (∀ k ∈ op.asks, k.now.ok ∧ ¬ RejectedIn k.id ((R (num a.gate)).getD []) ∧ ¬ UpdatedIn k.id ((U (num a.gate)).getD [])) ∧
    FreshIn R U num G (used ++ op.draws) (a.step G op).1 ops

end Jq
