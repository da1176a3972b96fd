import Verif.Model.Millis
import Verif.Model.Loop
/-!
# The times that a strategy can ask for

Models `loop.py:116-118`, `152-160`, which `context.py:75-83` and `api.py:14-22` hand on unchanged to the user's `context`.  Datetimes are
microseconds since the epoch; `rnd` is the rounding of float operations.
-/
namespace Jq
variable {σ κ ε : Type}

/-- `loop.py:116-118` `int(time.time() * 1000)`; `t` is what `time.time()` returned, in seconds. -/
def clockMillis (rnd : Rat → Rat) (t : Rat) : Int := (rnd (t * 1000)).floor

/-- `loop.py:152-154` `current_dt`. -/
def currentDt (rnd : Rat → Rat) (t : Rat) : Int := floatDt rnd (clockMillis rnd t)

/-- `loop.py:156-160` `strategy_dt`. -/
def LoopSt.strategyDt (rnd : Rat → Rat) (s : LoopSt σ κ ε) : Option Int :=
  match s.strategyTime with
  | none => none
  | some t => if t = 0 then none else some (floatDt rnd t)

end Jq
