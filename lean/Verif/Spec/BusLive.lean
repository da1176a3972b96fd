import Verif.Model.BusLive
import Verif.Spec.Bus
/-! Specification vocabulary for emissions during which the bus changes (C81). -/
namespace Jq

variable {C K σ : Type} [DecidableEq C] [DecidableEq K]

/-- No callback unregisters itself or one that was called before it for the same class and priority. -/
def NeverBack (log : List (BusCall C K)) : Prop :=
  ∀ before e after, log = before ++ e :: after → ∀ k, .unregister e.cls k ∈ e.ops →
    k ≠ e.cb ∧ ∀ e' ∈ before, e'.cls = e.cls → e'.prio = e.prio → k ≠ e'.cb

/-- Calling the callbacks of a list in turn, up to the first exception: those called, the state, the exception. -/
def callInTurn (act : BusAct C K σ) : List K → σ → List K × σ × Option PyErr
  | [], st => ([], st, none)
  | k :: ks, st =>
    match act k st with
    | (st, _, some e) => ([k], st, some e)
    | (st, _, none) =>
      match callInTurn act ks st with
      | (called, st, e) => (k :: called, st, e)

/-- How often a callback was called for a class and a priority. -/
def timesCalled (log : List (BusCall C K)) (c : C) (p : Int) (k : K) : Nat :=
  (log.filter fun e => decide (e.cls = c ∧ e.prio = p ∧ e.cb = k)).length

/-- How often it is registered for them after a history. -/
def timesRegistered (ops : List (BusOp C K)) (c : C) (p : Int) (k : K) : Nat :=
  ((inForce ops).filter fun r => decide (r = ⟨c, p, k⟩)).length

end Jq
