import Verif.Props.C09_TimeExpr
import Verif.Model.EventSource
import Verif.Model.Bus
import Verif.Model.Heapq
import Verif.Model.Queue
import Verif.Model.Cli
import Verif.Model.Millis
import Verif.Model.Retry
import Verif.Model.Order
import Verif.Model.Account
/-!
# The tests of the repository, run on the model

The assertions of `/repo/tests` were written by the authors of the code.  Here they are checked on the model: a model that
fails one of them does not describe the code.  They are tests of the model, not proofs of properties; the test of a whole
run (`tests/strategies/schedule.py`) is in `Props/C63_Schedule.lean`, where it is proved for all clocks.

Left out: assertions about the attributes of a fresh `EventSource` or `EventBus` that only restate the defaults, and
`test_thread_safe_q` (that ten threads do not raise is part of C02).
-/
namespace Jq

/-- 2023-06-04. -/
private def jun4 : Int := 19512
private def hms (h m s : Int) : Int := (h * 3600 + m * 60 + s) * secUs
private def histCfg : ECfg := ⟨true, 365, defaultPeriods⟩
private def liveCfg : ECfg := ⟨false, 365, defaultPeriods⟩

/-- The results of successive calls of `get_next_event`. -/
private def nexts (cfg : ECfg) (start en : Option Int) (now : Int) (entries : List (Str × Nat)) (n : Nat) :
    Option (List (Py (Option (Int × Nat)))) :=
  ((ESrc.build cfg start en now entries).1.getMany cfg 1000 (fun _ _ => now / dayUs) n).map (·.2)

/-! ## `tests/scheduler/test_event_source.py` -/

-- `test_reset_events`: `setup` makes the days
example : let s : ESrc Nat := ((ESrc.setup liveCfg (jun4 * dayUs) { start := none, endAt := none }).1.resetIfNeeded liveCfg jun4).1
    s.need = false ∧ s.daily = [] ∧ s.events = [] ∧ s.days ≠ [] := by decide +kernel

-- `test_get_days`
example : (((ESrc.setup ⟨false, 2, defaultPeriods⟩ (jun4 * dayUs) { start := none, endAt := none }).1 : ESrc Nat).getDays ⟨false, 2, defaultPeriods⟩ jun4).2 =
    .ok [jun4, jun4 + 1] := by decide

-- `test_daily`: expressions are kept as they are, also wrong ones
example : let s := (ESrc.build liveCfg none none (jun4 * dayUs)
      [(c!"09:30:00", 1), (c!"every_minute", 1), (c!"open-30", 1), (c!"close-30", 1)]).1
    s.daily = [(c!"09:30:00", 1), (c!"every_minute", 1), (c!"open-30", 1), (c!"close-30", 1)] ∧ s.need = true := by decide +kernel

-- `test_gen_events`
example : ((ESrc.build histCfg (some (jun4 * dayUs + hms 8 0 0)) none (jun4 * dayUs + hms 20 0 0)
      [(c!"09:30:00", 1), (c!"open", 2), (c!"open-30m", 3), (c!"14:30:00", 4), (c!"close-30m", 5), (c!"close", 6)]).1.genEvents
        histCfg (fun _ => jun4) 1000).map (·.1.events) =
    some [(jun4 * dayUs + hms 9 0 0, 3), (jun4 * dayUs + hms 9 30 0, 1), (jun4 * dayUs + hms 9 30 0, 2),
      (jun4 * dayUs + hms 14 30 0, 4), (jun4 * dayUs + hms 14 30 0, 5), (jun4 * dayUs + hms 15 0 0, 6)] := by decide +kernel

-- `test_start` with a start in the past
example : nexts histCfg (some (jun4 * dayUs + hms 10 0 0)) none (20000 * dayUs) [(c!"09:30:00", 1), (c!"10:00:00", 2)] 4 =
    some [.ok (some (jun4 * dayUs + hms 10 0 0, 2)), .ok (some ((jun4 + 1) * dayUs + hms 9 30 0, 1)),
      .ok (some ((jun4 + 1) * dayUs + hms 10 0 0, 2)), .ok (some ((jun4 + 2) * dayUs + hms 9 30 0, 1))] := by decide +kernel

-- `test_start`, `peek_next_event` twice
example :
    let p := (ESrc.build histCfg (some (jun4 * dayUs + hms 10 0 0)) none (20000 * dayUs) [(c!"09:30:00", 1), (c!"10:00:00", 2)]).1.getMany histCfg 1000
      (fun _ _ => 20000) 3
    let q := p.bind fun x => x.1.peek histCfg (fun _ => 20000) 1000
    q.map (·.2) = some (.ok (some ((jun4 + 2) * dayUs + hms 9 30 0, 1))) ∧
    (q.bind fun x => x.1.peek histCfg (fun _ => 20000) 1000).map (·.2) = some (.ok (some ((jun4 + 2) * dayUs + hms 9 30 0, 1))) := by
  decide +kernel

-- `test_start` and `test_end` where history starts are off: the start given is not used; now is 11:05:07.123456
example : nexts liveCfg (some (jun4 * dayUs + hms 10 0 0)) none (20000 * dayUs + hms 11 5 7 + 123456)
      [(c!"11:15:07", 1), (c!"11:25:07", 2)] 4 =
    some [.ok (some (20000 * dayUs + hms 11 15 7, 1)), .ok (some (20000 * dayUs + hms 11 25 7, 2)),
      .ok (some (20001 * dayUs + hms 11 15 7, 1)), .ok (some (20001 * dayUs + hms 11 25 7, 2))] := by decide +kernel

-- `test_end`
example : nexts histCfg (some (jun4 * dayUs + hms 10 0 0)) (some ((jun4 + 1) * dayUs + hms 10 0 0)) (20000 * dayUs)
      [(c!"09:30:00", 1), (c!"10:00:00", 2), (c!"10:00:01", 3)] 5 =
    some [.ok (some (jun4 * dayUs + hms 10 0 0, 2)), .ok (some (jun4 * dayUs + hms 10 0 1, 3)),
      .ok (some ((jun4 + 1) * dayUs + hms 9 30 0, 1)), .ok (some ((jun4 + 1) * dayUs + hms 10 0 0, 2)), .ok none] := by decide +kernel

example : (((ESrc.build histCfg (some (jun4 * dayUs + hms 10 0 0)) (some ((jun4 + 1) * dayUs + hms 10 0 0)) (20000 * dayUs)
      [(c!"09:30:00", 1), (c!"10:00:00", 2), (c!"10:00:01", 3)]).1.getMany histCfg 1000 (fun _ _ => 20000) 5).bind fun x =>
        x.1.peek histCfg (fun _ => 20000) 1000).map (·.2) = some (.ok none) := by decide +kernel

/-! ## `tests/scheduler/test_bus.py` (callbacks are named by what they return) -/

private def bus1 : Bus Nat Int :=
  ((((((Bus.register [] 1 0 0).register 1 1 1).register 1 (-1) (-1)).register 1 (-3) (-1)).register 1 (-2) (-1)).register 2 10 0).register 2 11 1

example : bus1.emit (fun c c' => c == c') 1 = [1, 0, -1, -3, -2] ∧ bus1.emit (fun c c' => c == c') 2 = [11, 10] := by decide

example : let b : Bus Nat Int := (((((Bus.register [] 1 0 0).register 1 1 1).register 1 (-1) (-1)).register 2 10 0).register 2 11 1).unregister 1 (-1)
    b.emit (fun c c' => c == c') 1 = [1, 0] ∧ b.emit (fun c c' => c == c') 2 = [11, 10] := by decide

/-! ## `tests/scheduler/test_queue.py` -/

/-- `(time, -priority, …)` as tuples. -/
private def tupLt (a b : (Int × Int) × Nat) : Bool := decide (a.1.1 < b.1.1 ∨ a.1.1 = b.1.1 ∧ a.1.2 < b.1.2)
private def popAll (lt : α → α → Bool) : Nat → List α → List α
  | 0, _ => []
  | n + 1, h => match heappop lt h with
    | none => []
    | some (x, h) => x :: popAll lt n h

example : (popAll tupLt 5 (heappush tupLt (heappush tupLt (heappush tupLt (heappush tupLt (heappush tupLt [] ((1, 1), 1)) ((1, 2), 2))
    ((-1, 3), 3)) ((2, 1), 4)) ((2, -1), 5))).map (·.2) = [3, 1, 2, 5, 4] := by decide +kernel

-- the same on the queue of messages (whose second key is the priority with the sign changed)
example : ((qrun {} [.new 1 (-1) 1, .new 1 (-2) 2, .new (-1) (-3) 3, .new 2 (-1) 4, .new 2 1 5, .pop, .pop, .pop, .pop, .pop, .pop]).2.map fun
      | .popped m => some m.data
      | .pushed => none
      | .empty => some 0) =
    [none, none, none, none, none, some 3, some 1, some 2, some 5, some 4, some 0] := by decide +kernel

/-! ## `tests/scheduler/test_utils.py`, `tests/account/test_utils.py` -/

-- `test_dt_to_milliseconds`, whose author is in the zone UTC+8
example : dtToMillis (19660 * dayUs - hms 8 0 0) = 1698595200000 := by decide

example : parseTaskInfo [c!"sudo", c!"-E", c!"python", c!"-m", c!"jqtrade", c!"start_task", c!"-c",
      c!"tests/scheduler/strategies/strategy_demo.py", c!"-n", c!"demo", c!"--debug", c!"-o", c!"demo.log", c!"-e", c!"AAAA=1;BBB=2"] =
    .ok ⟨true, some c!"AAAA=1;BBB=2", some c!"demo.log", some c!"tests/scheduler/strategies/strategy_demo.py", some c!"demo"⟩ := by decide +kernel

example : parseTaskInfo [c!"python", c!"-m", c!"jqtrade", c!"start_task", c!"-c", c!"tests/scheduler/strategies/strategy_demo.py", c!"-n", c!"demo"] =
    .ok ⟨false, none, none, some c!"tests/scheduler/strategies/strategy_demo.py", some c!"demo"⟩ := by decide +kernel

example : parseTaskInfo [c!"python", c!"-m", c!"jqtrade", c!"start_task", c!"-c", c!"tests/scheduler/strategies/strategy_demo.py", c!"-n", c!"demo",
      c!"--debug", c!"-o", c!"demo.log", c!"-e", c!"AAAA=1;BBB=2"] =
    .ok ⟨true, some c!"AAAA=1;BBB=2", some c!"demo.log", some c!"tests/scheduler/strategies/strategy_demo.py", some c!"demo"⟩ := by decide +kernel

/-- `test_simple_retry`: a function that counts its calls and raises `ValueError`. -/
private def failing (n : Nat) : Nat × Except PyErr Unit := (n + 1, .error .valueError)

example : simpleRetry (fun _ => true) 3 failing 0 = (4, .error .valueError) ∧
    simpleRetry (fun e => e = .typeError) 3 failing 0 = (1, .error .valueError) ∧
    simpleRetry (fun e => e = .valueError) 3 failing 0 = (4, .error .valueError) := by decide

/-! ## `tests/account/test_order.py`, `tests/account/test_position.py` (prices in thousandths) -/

private def testOrder : OrderInfo Int :=
  { code := some c!"000001.XSHE", price := some 11110, amount := some 1000, action := some c!"open", orderId := some c!"2333333",
    status := some c!"canceled", style := some (.obj (.limit 11110)), createTime := some (.dt ⟨2023, 11, 7, 13, 10, 33, 0⟩),
    entrustTime := some (.dt ⟨2023, 11, 7, 13, 10, 33, 500⟩), side := some c!"long", avgCost := some 11115, filled := some 800,
    dealBalance := some 8890000, canceled := some 200 }

example : ∃ o, Order.load testOrder = .ok o ∧ o.code = c!"000001.XSHE" ∧ o.price = 11110 ∧ o.amount = 1000 ∧ o.action = .opened ∧
    o.orderId = c!"2333333" ∧ o.status = some .canceled ∧ o.style = some (.limit 11110) ∧
    o.createTime = some ⟨2023, 11, 7, 13, 10, 33, 0⟩ ∧ o.entrustTime = some ⟨2023, 11, 7, 13, 10, 33, 500⟩ ∧ o.side = some .long ∧
    o.avgCost = some 11115 ∧ o.filled = 800 ∧ o.dealBalance = 8890000 ∧ o.canceled = 200 := ⟨_, rfl, by decide⟩

example : (∀ s ∈ Status.all, Status.get s.name = .ok s) ∧ Status.get c!"bad status" = .error .valueError ∧
    Side.get c!"long" = .ok .long ∧ Side.get c!"short" = .ok .short ∧ Side.get c!"bad side" = .error .valueError ∧
    (∀ a : Action, Action.get a.name = .ok a) ∧ Action.get c!"bad action" = .error .valueError := by
  refine ⟨by decide, by decide, by decide, by decide, by decide, fun a => ?_, by decide⟩
  cases a <;> rfl

example : Style.get (.name c!"market") (0 : Int) = .ok (.market 0) ∧ Style.get (.name c!"limit") (10 : Int) = .ok (.limit 10) ∧
    Style.get (.name c!"bad style") (10 : Int) = .error .valueError := by decide

end Jq
