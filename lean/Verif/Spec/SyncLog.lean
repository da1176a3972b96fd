import Verif.Model.TradeGate
import Verif.Spec.OrderSync
/-! Specification vocabulary for the log (C85). -/
namespace Jq

/-- The line says that the cancellation of the order `id` was refused, and why. -/
def IsRefusedCancel (raw id msg : Str) : Prop := ∃ t c, lineKind 6 raw = .fields [t, c!"2", id, c!"1", c, msg]

/-- The refused cancellations of a result file, in order. -/
inductive RefusedCancels : List (Str × Nat) → List (Str × Str) → Prop
  | nil : RefusedCancels [] []
  | refused {raw : Str} {n : Nat} {ls : List (Str × Nat)} {rs : List (Str × Str)} {id msg : Str} : IsRefusedCancel raw id msg →
      RefusedCancels ls rs → RefusedCancels ((raw, n) :: ls) ((id, msg) :: rs)
  | other {raw : Str} {n : Nat} {ls : List (Str × Nat)} {rs : List (Str × Str)} : (∀ id msg, ¬ IsRefusedCancel raw id msg) →
      RefusedCancels ls rs → RefusedCancels ((raw, n) :: ls) rs

/-- The result file during the day `D`: `R i` at the `i`-th call of the gate.  The broker appends whole lines; lines may be of any kind. -/
structure ResultFile (D : Str) (env : Nat → Env) (R : Nat → Option Str) : Prop where
  day : ∀ i, (env i).day = D
  results : ∀ i fs, (env i).ext fs (.results D) = R i
  grow : ∀ i, ∃ more, (R (i + 1)).getD [] = (R i).getD [] ++ more
  whole : ∀ i, WholeLines ((R i).getD [])

/-- A synchronisation of the account is completed: the gate answers, and every order that it reports can be loaded and has an id. -/
def Completes {γ ν : Type} [PyNum ν] (G : Gate γ ν) (a : Acct γ ν) : Prop :=
  ∃ g infos, G.orders a.gate = (g, .ok infos) ∧ ∀ i ∈ infos, i.orderId.isSome = true ∧ ∃ o, Order.load i = .ok o

end Jq
