import Verif.Model.Timers
import Verif.Spec.EventSource
/-! Specification vocabulary for repeating timers (C11, C54). -/
namespace Jq

/-- The times of day `start + k * step`, `k = 0, 1, …`, that are `≤ end`, fractions of a second dropped. -/
def stepTimes (step : Int) (p : Int × Int) : List Int :=
  (List.range ((p.2 - p.1) / step + 1).toNat).map fun (k : Nat) => (p.1 + k * step) / secUs * secUs

/-- Start and end of every period are times of day (`datetime.time`). -/
def PeriodsInDay (ps : Periods) : Prop := ∀ p ∈ ps, 0 ≤ p.1 ∧ p.1 < dayUs ∧ 0 ≤ p.2 ∧ p.2 < dayUs

end Jq
