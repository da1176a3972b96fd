import Verif.Props.C63_Run
import Verif.Props.C09_TimeExpr
import Verif.Lemmas.Startup
/-!
# C63: runs over whole days, and the repository's test of a whole run

`tests/strategies/schedule.py` schedules twenty-two functions, runs them from 2023-10-01 to 2023-11-01 and asserts the time of day in
each function and the number of its calls at the end.  `tests/test_strategies.py:118-165` runs it with `ENABLE_HISTORY_START`.
The test runs it once; here the assertions are proved for every run: whatever the clock reads (also while the process is set
up) and whenever the loop wakes up.
-/
namespace Jq

section
variable {α : Type}

private theorem rawDay_whole (a b d : Int) (hd : a ≤ d ∧ d < b) (os : List Int) (h : ∀ o ∈ os, 0 < o ∧ o < dayUs) :
    rawDay (a * dayUs) (some (b * dayUs)) (os.map fun o => (o, ())) d = os.map fun o => (d * dayUs + o, ()) := by
  rw [rawDay, List.map_map, List.filter_eq_self.2]
  · rfl
  · intro e he
    obtain ⟨o, ho, rfl⟩ := List.mem_map.1 he
    obtain ⟨h1, h2⟩ := h o ho
    simp only [Function.comp, Option.all_some, Bool.and_eq_true, decide_eq_true_eq]
    simp only [dayUs, secUs] at *
    omega

private theorem rawDay_last (a b : Int) (os : List Int) (h : ∀ o ∈ os, 0 < o ∧ o < dayUs) :
    rawDay (a * dayUs) (some (b * dayUs)) (os.map fun o => (o, ())) b = [] := by
  rw [rawDay, List.filter_eq_nil_iff]
  intro e he
  obtain ⟨x, hx, rfl⟩ := List.mem_map.1 he
  obtain ⟨o, ho, rfl⟩ := List.mem_map.1 hx
  have := (h o ho).1
  simp only [Option.all_some, Bool.and_eq_true, decide_eq_true_eq]
  omega

private theorem daysFromTo_last (a b : Int) (h : a ≤ b) : daysFromTo a b = daysFromTo a (b - 1) ++ [b] := by
  have e : (b - a + 1).toNat = (b - 1 - a + 1).toNat + 1 := by omega
  simp only [daysFromTo]
  rw [e, List.range_succ, List.map_append]
  congr 1
  simp only [List.map_cons, List.map_nil, List.cons.injEq, and_true]
  omega

private theorem eventsOf_whole (a b : Int) (os : List Int) (h : ∀ o ∈ os, 0 < o ∧ o < dayUs) (ds : List Int) (hds : ∀ d ∈ ds, a ≤ d ∧ d < b) :
    (eventsOf (a * dayUs) (some (b * dayUs)) (os.map fun o => (o, ())) ds).length = ds.length * os.length := by
  induction ds with
  | nil => simp [eventsOf]
  | cons d ds ih =>
    have h1 := ih fun x hx => hds x (List.mem_cons_of_mem _ hx)
    have h2 : (dayEvents (a * dayUs) (some (b * dayUs)) (os.map fun o => (o, ())) d).length = os.length := by
      rw [dayEvents, (sortBy_perm _ _).length_eq, rawDay_whole a b d (hds d List.mem_cons_self) os h, List.length_map]
    simp only [eventsOf, List.flatMap_cons, List.length_append, List.length_cons] at h1 ⊢
    rw [h1, h2, Nat.succ_mul]
    omega

/-- The due times of something from midnight to midnight: its times of day, once for each day, at these times and in this
range. -/
theorem c63_whole_days (a b : Int) (hab : a ≤ b) (os : List Int) (h : ∀ o ∈ os, 0 < o ∧ o < dayUs) :
    (dueTimes (a * dayUs) (some (b * dayUs)) os a b).length = (b - a).toNat * os.length ∧
    ∀ t ∈ dueTimes (a * dayUs) (some (b * dayUs)) os a b, t % dayUs ∈ os ∧ a ≤ t / dayUs ∧ t / dayUs < b := by
  refine ⟨?_, ?_⟩
  · have hl : (daysFromTo a (b - 1)).length = (b - a).toNat := by simp [daysFromTo]; omega
    rw [dueTimes, List.length_map, daysFromTo_last a b hab, eventsOf, List.flatMap_append, List.length_append]
    have h1 := eventsOf_whole a b os h (daysFromTo a (b - 1)) fun d hd => by have := daysFromTo_mem.1 hd; omega
    rw [eventsOf, hl] at h1
    rw [h1]
    have h2 : dayEvents (a * dayUs) (some (b * dayUs)) (os.map fun o => (o, ())) b = [] := by
      rw [dayEvents, rawDay_last a b os h]; rfl
    simp [h2]
  · intro t ht
    simp only [dueTimes, eventsOf, List.mem_map, List.mem_flatMap] at ht
    obtain ⟨e, ⟨d, hd, he⟩, rfl⟩ := ht
    have he := (sortBy_perm _ _).mem_iff.1 he
    have hd := daysFromTo_mem.1 hd
    have hlt : d < b := by
      rcases Int.lt_or_eq_of_le hd.2 with h' | rfl
      · exact h'
      · rw [rawDay_last a d os h] at he; simp at he
    rw [rawDay_whole a b d ⟨hd.1, hlt⟩ os h] at he
    obtain ⟨o, ho, rfl⟩ := List.mem_map.1 he
    obtain ⟨h1, h2⟩ := h o ho
    simp only
    have e1 : (d * dayUs + o) % dayUs = o := by simp only [dayUs, secUs] at *; omega
    have e2 : (d * dayUs + o) / dayUs = d := by simp only [dayUs, secUs] at *; omega
    rw [e1, e2]
    exact ⟨ho, hd.1, hlt⟩

example : dueTimes (5 * dayUs) (some (7 * dayUs)) [3600 * secUs, 7200 * secUs] 5 7 =
    [5 * dayUs + 3600 * secUs, 5 * dayUs + 7200 * secUs, 6 * dayUs + 3600 * secUs, 6 * dayUs + 7200 * secUs] := by decide

private theorem calls_count (fn : Nat → Nat) (fired : List (Msg Nat × Int)) (i : Nat) :
    (fired.flatMap fun f => [Cb.user f.1.data (some (fn f.1.data))]).count (.user i (some (fn i))) = (firingsIn fired i).length := by
  induction fired with
  | nil => rfl
  | cons f fs ih =>
    simp only [List.flatMap_cons, List.count_append, ih, firingsIn, List.length_map, List.filter_cons]
    by_cases h : f.1.data = i
    · simp [h, Nat.add_comm]
    · simp [h]

/-- **C63 for whole days**: the loop of a process without an account, with history starts and from midnight to midnight, if it ended
by itself and no function raised, has called the function of every task once per day for each of its times of day, and at
those times. -/
theorem c63_calls_per_day (cfg : ECfg) (hhis : cfg.historyStart = true) (fuel0 fuel : Nat) (today : Int) (ns : Dict Str Nat) (ts : List TaskDesc)
    (s1 : SchedSt) (hsched : SchedSt.schedule fuel0 today cfg.periods ns ts {} = some s1)
    (hin : PeriodsInDay cfg.periods) (hsec : WholeSeconds cfg.periods)
    (fn : Nat → Nat) (hfn : ∀ i (hi : i < ts.length), dget ns ts[i].name = some (fn i))
    (os : Nat → List Int) (hos : ∀ i (hi : i < ts.length), TaskTimes cfg.periods ts[i] (os i))
    (hday : ∀ i, i < ts.length → ∀ o ∈ os i, 0 < o ∧ o < dayUs)
    (a b : Int) (hab : a ≤ b) (nows : Nat → Int) (dates : Nat → Nat → Int) (act : Cb → α → α × Option PyErr) (a0 : α)
    (hact : ∀ i, i < ts.length → ∀ x, (act (.user i (some (fn i))) x).2 = none) (hf : (b - a + 1).toNat + 1 ≤ fuel) :
    let R : RunEnv α := ⟨cfg, fuel, s1.bus, s1.classes, dates, act⟩
    ∃ l0, runStart R 0 (taskSources cfg (some (a * dayUs)) (some (b * dayUs)) nows s1.sources) (runEmpty a0) = (l0, none) ∧
      ∀ ls s, l0.run (runExec R) ls = some s → (∀ l ∈ ls, l.isInternal = true) → (∀ l ∈ ls, l.isQuiet = true) → s.halted = true →
        ∀ i, i < ts.length →
          s.world.calls.count (.user i (some (fn i))) = (b - a).toNat * (os i).length ∧
          ∀ t ∈ firingsOf s i, t % dayUs ∈ os i ∧ a ≤ t / dayUs ∧ t / dayUs < b := by
  intro R
  have hdiv : ∀ x : Int, x * dayUs / dayUs = x := fun x => by simp only [dayUs, secUs]; omega
  have hst : ∀ i, effectiveStart cfg (some (a * dayUs)) (nows i) = a * dayUs := fun i => by simp [effectiveStart, hhis]
  obtain ⟨l0, h0, h1⟩ := c63_run_with_end cfg fuel0 fuel today ns ts {} s1 ⟨rfl, rfl, by simp [dkeys], by simp [dkeys]⟩ hsched hin hsec fn hfn os hos []
    0 (some (a * dayUs)) (b * dayUs) (by simp) (by simp) nows dates act a0 (by simp [Bus.emit]) (by simp)
    (by intro i _; rw [hst, hdiv, hdiv]; exact hf)
  refine ⟨l0, h0, ?_⟩
  intro ls s hs hint hq hh i hi
  obtain ⟨hr, -, h2⟩ := h1 ls s hs hint
  have h3 := h2 hq hact hh i (by simpa using hi)
  have e : ∀ j, (bySource (([] : List (TimerSetup × ESrc Str)).map (·.1) |>.map fun _ => (0 : Int)) (fun i => effectiveStart cfg (some (a * dayUs)) (nows i)) j) = a * dayUs := by
    intro j; simp [bySource, hst]
  have e2 : bySource ((([] : List (TimerSetup × ESrc Str)).map (·.1)).map TimerSetup.times) os i = os i := by simp [bySource]
  simp only [e, e2, hdiv] at h3
  have hw := c63_whole_days a b hab (os i) (hday i hi)
  refine ⟨?_, ?_⟩
  · rw [hr.calls]
    have : (fun f : Msg Nat × Int => srcCbs ([] : List TimerSetup) (({} : SchedSt).bus.emit sameClass c!"AccountSyncEvent") fn f.1.data) =
        fun f => [Cb.user f.1.data (some (fn f.1.data))] := by
      funext f; simp [srcCbs, bySource]
    simp only [List.map_nil]
    rw [this, calls_count]
    show (firingsOf s i).length = _
    rw [h3, hw.1]
  · rw [h3]; exact hw.2

end

/-! Two functions on two days: the loop ends by itself. -/

private def twoCfg : ECfg := ⟨true, 365, [(34200 * secUs, 34260 * secUs)]⟩
private def twoTasks : List TaskDesc := [⟨c!"f", c!"close+0m"⟩, ⟨c!"g", c!"every_minute"⟩]
private def twoNs : Dict Str Nat := [(c!"f", 0), (c!"g", 1)]
private def twoSched : SchedSt := (SchedSt.schedule 10 5 twoCfg.periods twoNs twoTasks {}).getD {}
private def twoEnv : RunEnv Nat := ⟨twoCfg, 1000, twoSched.bus, twoSched.classes, fun _ _ => 9, fun _ n => (n + 1, none)⟩
private def twoStart : LoopSt (RunW Nat) Nat PyErr × Option PyErr :=
  runStart twoEnv 0 (taskSources twoCfg (some (5 * dayUs)) (some (7 * dayUs)) (fun _ => 9 * dayUs) twoSched.sources) (runEmpty 0)
private def twoLabels : List (Label Nat) :=
  .wakeNotify :: (List.range 6).flatMap (fun _ => [.pop, .clock 800000000 []]) ++ [.pop]

example : SchedSt.schedule 10 5 twoCfg.periods twoNs twoTasks {} = some twoSched ∧ PeriodsInDay twoCfg.periods ∧
    WholeSeconds twoCfg.periods ∧ (∀ i (hi : i < twoTasks.length), dget twoNs twoTasks[i].name = some i) ∧
    TaskTimes twoCfg.periods twoTasks[0] [34260 * secUs] ∧ TaskTimes twoCfg.periods twoTasks[1] [34200 * secUs, 34260 * secUs] ∧
    (twoStart.1.run (runExec twoEnv) twoLabels).map (fun s => (s.halted, s.world.calls.count (.user 0 (some 0)), s.world.calls.count (.user 1 (some 1)),
      firingsOf s 0)) = some (true, 2, 4, [5 * dayUs + 34260 * secUs, 6 * dayUs + 34260 * secUs]) ∧
    (∀ l ∈ twoLabels, l.isQuiet = true ∧ l.isInternal = true) := by
  refine ⟨rfl, ?_, ?_, by decide, ⟨_, rfl, rfl⟩, ?_, by decide +kernel, by decide⟩
  · intro p hp; simp [twoCfg] at hp; subst hp; decide
  · intro p hp; simp [twoCfg] at hp; subst hp; decide
  · show _ = twoCfg.periods.flatMap (stepTimes (60 * secUs)); decide

/-- `tests/strategies/schedule.py:42-71`: the functions with their times, and the times of day at which they say they run, in seconds. -/
def scheduleTest : List (Str × Str × List Int) := [
  (c!"func_0800", c!"08:00:00", [28800]), (c!"func_0900", c!"09:00:00", [32400]),
  (c!"func_open_sub_1h", c!"open-1h", [30600]), (c!"func_open_sub_30m", c!"open-30m", [32400]),
  (c!"func_open_sub_30s", c!"open-30s", [34170]), (c!"func_open", c!"open", [34200]),
  (c!"func_open_add_30s", c!"open+30s", [34230]), (c!"func_open_add_30m", c!"open+30m", [36000]),
  (c!"func_open_add_1h", c!"open+1h", [37800]),
  (c!"func_1100", c!"11:00:00", [39600]), (c!"func_1200", c!"12:00:00", [43200]), (c!"func_1300", c!"13:00:00", [46800]),
  (c!"func_1400", c!"14:00:00", [50400]), (c!"func_1500", c!"15:00:00", [54000]),
  (c!"func_close_sub_1h", c!"close-1h", [50400]), (c!"func_close_sub_30m", c!"close-30m", [52200]),
  (c!"func_close_sub_30s", c!"close-30s", [53970]), (c!"func_close", c!"close", [54000]),
  (c!"func_close_add_30s", c!"close+30s", [54030]), (c!"func_close_add_30m", c!"close+30m", [55800]),
  (c!"func_close_add_1h", c!"close+1h", [57600]),
  (c!"func_every_minute", c!"every_minute",
    (List.range 121).map (fun (k : Nat) => 34200 + 60 * (k : Int)) ++ (List.range 121).map (fun (k : Nat) => 46800 + 60 * (k : Int)))]

/-- The tasks that `run_daily` records (`strategy.py:133-145`). -/
def scheduleTasks : List TaskDesc := scheduleTest.map fun x => ⟨x.1, timeAlias x.2.1⟩

/-- The names in the module, each with a function of its own. -/
def scheduleNames : Dict Str Nat := scheduleTest.zipIdx.map fun x => (x.1.1, x.2)

/-- The settings of the test: 2023-10-01 to 2023-11-01, as days. -/
def scheduleCfg : ECfg := ⟨true, 365, defaultPeriods⟩
/-- The times of day of the functions. -/
def scheduleTimes (i : Nat) : List Int := ((scheduleTest[i]?.map (·.2.2)).getD []).map (· * secUs)

private theorem schedule_fns : ∀ i (hi : i < scheduleTasks.length), dget scheduleNames scheduleTasks[i].name = some (id i) := by decide +kernel

private theorem schedule_each : ∀ i (hi : i < scheduleTasks.length),
    (scheduleTasks[i].time = c!"every_minute" ∧ scheduleTimes i = scheduleCfg.periods.flatMap (stepTimes (60 * secUs))) ∨
    (scheduleTasks[i].time ≠ c!"every_minute" ∧ entryTime scheduleCfg.periods 0 scheduleTasks[i].time = .ok ((scheduleTimes i).headD 0) ∧
      scheduleTimes i = [(scheduleTimes i).headD 0]) := by decide +kernel

private theorem schedule_times (i : Nat) (hi : i < scheduleTasks.length) : TaskTimes scheduleCfg.periods scheduleTasks[i] (scheduleTimes i) := by
  rcases schedule_each i hi with ⟨h1, h2⟩ | ⟨h1, h2, h3⟩
  · rw [TaskTimes, if_pos h1]; exact h2
  · rw [TaskTimes, if_neg h1]; exact ⟨_, h2, h3⟩

private theorem schedule_in_day : ∀ i, i < scheduleTasks.length → ∀ o ∈ scheduleTimes i, 0 < o ∧ o < dayUs := by decide +kernel

/-- **The test `tests/strategies/schedule.py` passes in every run** that ends by itself: each function was called 31 times, the one for every
minute 242 · 31 times, and always at the time of day that it asserts. -/
theorem c63_schedule_test {α : Type} (today : Int) (nows : Nat → Int) (dates : Nat → Nat → Int) (act : Cb → α → α × Option PyErr) (a0 : α)
    (hact : ∀ i f x, (act (.user i f) x).2 = none) (fuel : Nat) (hf : 33 ≤ fuel) :
    ∃ s1, SchedSt.schedule 1000 today scheduleCfg.periods scheduleNames scheduleTasks {} = some s1 ∧
      let R : RunEnv α := ⟨scheduleCfg, fuel, s1.bus, s1.classes, dates, act⟩
      ∃ l0, runStart R 0 (taskSources scheduleCfg (some (19631 * dayUs)) (some (19662 * dayUs)) nows s1.sources) (runEmpty a0) = (l0, none) ∧
        ∀ ls s, l0.run (runExec R) ls = some s → (∀ l ∈ ls, l.isInternal = true) → (∀ l ∈ ls, l.isQuiet = true) → s.halted = true →
          ∀ i, i < 22 →
            s.world.calls.count (.user i (some i)) = (if i = 21 then 242 * 31 else 31) ∧
            ∀ t ∈ firingsOf s i, t % dayUs ∈ scheduleTimes i := by
  obtain ⟨s1, hs⟩ := schedule_some 1000 today scheduleCfg.periods scheduleNames (by decide +kernel) scheduleTasks {}
  refine ⟨s1, hs, ?_⟩
  obtain ⟨l0, h0, h1⟩ := c63_calls_per_day scheduleCfg rfl 1000 fuel today scheduleNames scheduleTasks s1 hs
    (by intro p hp; revert p; decide) (by intro p hp; revert p; decide) id
    schedule_fns scheduleTimes schedule_times schedule_in_day 19631 19662 (by decide) nows dates act a0 (fun i _ x => hact _ _ x) (by omega)
  refine ⟨l0, h0, ?_⟩
  intro ls s hr hint hq hh i hi
  obtain ⟨h2, h3⟩ := h1 ls s hr hint hq hh i hi
  refine ⟨?_, fun t ht => (h3 t ht).1⟩
  rw [show (Cb.user i (some i)) = Cb.user i (some (id i)) from rfl, h2]
  clear h2 h3
  revert i
  decide +kernel

end Jq
