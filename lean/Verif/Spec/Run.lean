import Verif.Model.Run
import Verif.Spec.Timers
import Verif.Spec.Merge
/-! Specification vocabulary for a whole run (C63, C65). -/
namespace Jq

/-- The times of day (offsets from midnight) that a task asks for: every minute of the trading periods, or the one
time that its expression denotes. -/
def TaskTimes (mp : Periods) (t : TaskDesc) (os : List Int) : Prop :=
  if t.time = c!"every_minute" then os = mp.flatMap (stepTimes (60 * secUs))
  else ∃ o, entryTime mp 0 t.time = .ok o ∧ os = [o]

/-- The datetimes at which something is due on the days `a` to `b`: its times of day on each of them, in order, between
the start and the end. -/
def dueTimes (st : Int) (en : Option Int) (os : List Int) (a b : Int) : List Int :=
  (eventsOf st en (os.map fun o => (o, ())) (daysFromTo a b)).map (·.1)

/-- The same without an end, on the windows of `count` days that begin on the days `ws`. -/
def windowsDue (count : Nat) (st : Int) (os : List Int) (ws : List Int) : List Int :=
  ws.flatMap fun w => dueTimes st none os w (w + count - 1)

/-- The firings of source `i` in a log, oldest first: the scheduled datetime of each (the loop has milliseconds). -/
def firingsIn (fired : List (Msg Nat × Int)) (i : Nat) : List Int :=
  (fired.filter (fun f => f.1.data = i)).map fun f => millisToDt f.1.time

/-- The firings of source `i` so far. -/
def firingsOf {σ ε} (s : LoopSt σ Nat ε) (i : Nat) : List Int := firingsIn s.fired i

/-- The bounds of the trading periods are whole seconds. -/
def WholeSeconds (mp : Periods) : Prop := ∀ p ∈ mp, p.1 % secUs = 0 ∧ p.2 % secUs = 0

/-- What a synchronisation timer is made from: the time at which it is made, the interval and the periods
(`sync_internal`, `sync_period`). -/
structure TimerSetup where
  now : Int
  step : Int
  periods : Periods

/-- The times of day at which it synchronises (C54). -/
def TimerSetup.times (t : TimerSetup) : List Int :=
  if t.periods = [] then stepTimes t.step (t.now % dayUs / secUs * secUs + t.step, 86399 * secUs)
  else t.periods.flatMap (stepTimes t.step)

/-- `src` is the source of a timer made from `t`, which has at least one time of day. -/
def TimerSetup.Makes (t : TimerSetup) (ctxStart : Int) (en : Option Int) (src : ESrc Str) : Prop :=
  0 < t.step ∧ PeriodsInDay t.periods ∧ t.times ≠ [] ∧
    ∃ fuel, syncTimerSource fuel ctxStart en t.now t.step t.periods c!"AccountSyncEvent" = some src

/-- The sources of a process in the order in which they are scheduled: first the timers of the account (one for each
`set_options` that sets up an account; usually one), then the tasks.  This is a value for each source, given those for
the timers and for the tasks. -/
def bySource {β : Type} (timers : List β) (tasks : Nat → β) (j : Nat) : β :=
  if h : j < timers.length then timers[j] else tasks (j - timers.length)

/-- Which source goes first at the same time: the account (2), then `every_minute` tasks (1), then the others (0). -/
def srcPrio (timers : List TimerSetup) (ts : List TaskDesc) : Nat → Int :=
  bySource (timers.map fun _ => 2) fun i => if (ts[i]?.map (·.time)) = some c!"every_minute" then 1 else 0

/-- What a firing of source `j` calls: the callbacks of the account, or the function of the task. -/
def srcCbs (timers : List TimerSetup) (accCbs : List Cb) (fn : Nat → Nat) : Nat → List Cb :=
  bySource (timers.map fun _ => accCbs) fun i => [.user i (some (fn i))]

/-- What a run shows when source `j < k` is due at the datetimes `due j`, has priority `prio j` and calls `cbs j`. -/
structure RunsAsDue {α : Type} (act : Cb → α → α × Option PyErr) (a0 : α) (k : Nat) (prio : Nat → Int) (cbs : Nat → List Cb)
    (due : Nat → List Int) (s : LoopSt (RunW α) Nat PyErr) : Prop where
  /-- no poll of a source runs for ever -/
  returns : s.world.hung = false
  /-- every firing calls what belongs to its source, and nothing else is called -/
  calls : s.world.calls = s.fired.flatMap fun f => cbs f.1.data
  /-- the state is the result of these calls -/
  state : s.world.st = s.world.calls.foldl (fun a cb => (act cb a).1) a0
  /-- only the sources fire, none before its time -/
  sources : ∀ f ∈ s.fired, f.1.data < k ∧ f.1.time ≤ f.2
  /-- each source fires at its due times from the first on, none skipped, none repeated, none added -/
  fires : ∀ j, j < k → firingsOf s j <+: due j
  /-- when something fires, no source is behind: its next due time is later, or the same without a higher priority -/
  next : ∀ before f after, s.fired = before ++ f :: after → ∀ j, j < k → ∀ t, (due j)[(firingsIn before j).length]? = some t →
    millisToDt f.1.time < t ∨ (millisToDt f.1.time = t ∧ prio j ≤ prio f.1.data)

/-- Everything fires in order of scheduled time, at the same time by priority. -/
def InOrder {σ ε} (prio : Nat → Int) (s : LoopSt σ Nat ε) : Prop :=
  s.fired.Pairwise fun a b => a.1.time < b.1.time ∨ (a.1.time = b.1.time ∧ prio b.1.data ≤ prio a.1.data)

end Jq
