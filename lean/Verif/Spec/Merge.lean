import Verif.Model.Sources
/-! Specification vocabulary for the order of firing (C05). -/
namespace Jq

/-- `a` may fire before `b`: earlier time, or same time and at least the priority. -/
def FireLe (a b : Int × Int) : Prop := a.1 < b.1 ∨ (a.1 = b.1 ∧ b.2 ≤ a.2)

/-- Each source delivers its events in firing order.  (True for every `run_daily` source: one event
class, times per day sorted; see C07.) -/
def Sources.Sorted {ε} (S : Sources ε) : Prop :=
  ∀ i n a b, S.ev i n = some a → S.ev i (n + 1) = some b → FireLe a b

/-- The environment of these executions: no other thread pushes messages. -/
def Label.isInternal {κ} : Label κ → Bool
  | .external .. => false
  | _ => true

/-- The events fired, as (source, (time, priority)), oldest first. -/
def LoopSt.firedEvents {σ ε} (s : LoopSt σ Nat ε) : List (Nat × (Int × Int)) :=
  s.fired.map fun f => (f.1.data, (f.1.time, f.1.priority))

/-- The first `n` events of source `i`. -/
def firstEvents {ε} (S : Sources ε) (i n : Nat) : List (Option (Int × Int)) :=
  (List.range n).map (S.ev i)

end Jq
