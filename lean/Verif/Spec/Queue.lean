import Verif.Model.Queue
/-! Specification vocabulary for the message queue (C01). -/
namespace Jq

/-- `m` must be delivered before `x`: earlier, or at the same time with higher priority, or with
the same priority and created first. -/
def Before {κ} (m x : Msg κ) : Prop :=
  m.time < x.time ∨
  (m.time = x.time ∧ x.priority < m.priority) ∨
  (m.time = x.time ∧ m.priority = x.priority ∧ m.seq < x.seq)

/-- The messages created by a list of client operations when `n` were created before: the k-th
creation gets number `n + k`. -/
def created {κ} (n : Nat) : List (QOp κ) → List (Msg κ)
  | [] => []
  | .new t p d :: os => ⟨t, p, n + 1, d⟩ :: created (n + 1) os
  | _ :: os => created n os

/-- The messages delivered, in order. -/
def delivered {κ} : List (QRes κ) → List (Msg κ)
  | [] => []
  | .popped m :: rs => m :: delivered rs
  | _ :: rs => delivered rs

end Jq
