import Verif.Props.C78_NoAccount
/-!
# C78: trading periods that are not periods

The start of a process with a task `every_minute` when the trading periods, given or configured, are not periods of two times.
-/
namespace Jq
variable {γ ν μ : Type} [PyNum ν]

/-- A value is not a list of pairs of times: it begins with the periods `good`, and then looking for a period raises `e`. -/
inductive NotPeriods : PerVal → Periods → PyErr → Prop where
  | falsy : NotPeriods .falsy [] .typeError
  | scalar : NotPeriods .scalar [] .typeError
  /-- The first thing in the list that is not a pair of times has no length. -/
  | scalarIn (good : Periods) (rest : List PairVal) :
      NotPeriods (.seq (good.map (fun q => .seq [.time q.1, .time q.2]) ++ .other :: rest)) good .typeError
  /-- It is a text. -/
  | textIn (good : Periods) (w : Str) (rest : List PairVal) :
      NotPeriods (.seq (good.map (fun q => .seq [.time q.1, .time q.2]) ++ .text w :: rest)) good .valueError
  /-- It has one or no element, or more than two, or one of two is not a time. -/
  | listIn (good : Periods) (xs : List TimeVal) (h : ∀ a b, xs ≠ [.time a, .time b]) (rest : List PairVal) :
      NotPeriods (.seq (good.map (fun q => .seq [.time q.1, .time q.2]) ++ .seq xs :: rest)) good .valueError

/-- The value for the trading periods after some calls of `set_options`: that of the last call that is understood, as it is kept, or
the configured one if that call gives none or there is no such call. -/
def MarketValue (E : StartEnv γ ν) (calls : List (Opts × OptInputs γ)) (v : PerVal) : Prop :=
  (∃ before o inp after o', calls = before ++ (o, inp) :: after ∧ KeptOptions o o' ∧ (∀ c ∈ after, ¬ Understood c.1) ∧
    (o'.marketPeriod = some v ∨ (o'.marketPeriod = none ∧ E.cfg.marketPeriod = v))) ∨
  ((∀ c ∈ calls, ¬ Understood c.1) ∧ E.cfg.marketPeriod = v)

omit [PyNum ν] in
theorem marketValue_kept {E : StartEnv γ ν} {calls : List (Opts × OptInputs γ)} {v : PerVal} (h : MarketValue E calls v) :
    E.cfg.market (optionsAfter {} calls) = v := by
  rcases h with ⟨before, o, inp, after, o', rfl, hk, hr, hp⟩ | ⟨hr, hp⟩
  · have e : optionsAfter {} (before ++ (o, inp) :: after) = o' := by
      have : optionsAfter {} (before ++ (o, inp) :: after) = optionsAfter o' after := by
        simp only [optionsAfter, List.foldl_append, List.foldl_cons, (parse_iff _ _).2 hk]
      rw [this, optionsAfter_refused _ _ hr]
    rw [e, ProcCfg.market]
    rcases hp with hp | ⟨hp, hc⟩
    · rw [hp]; rfl
    · rw [hp]; exact hc
  · rw [optionsAfter_refused _ _ hr, ProcCfg.market]
    exact hp

private theorem pairTimes_bad (fuel : Nat) (day step : Int) (p : PairVal) (e : PyErr) (hp : minutePair p = .error e) (rest : List PairVal)
    (good : Periods) : pairTimes fuel day step (good.map (fun q => .seq [.time q.1, .time q.2]) ++ p :: rest) =
      (periodTimes fuel day step good).map fun _ => .error e := by
  induction good with
  | nil => simp [pairTimes, hp, periodTimes]
  | cons q good ih =>
    simp only [List.map_cons, List.cons_append, pairTimes, minutePair, periodTimes]
    cases timesLoop (day * dayUs + q.2) step fuel (day * dayUs + q.1) with
    | none => rfl
    | some ts =>
      simp only [ih]
      cases periodTimes fuel day step good <;> rfl

private theorem times_bad {v : PerVal} {good : Periods} {e : PyErr} (h : NotPeriods v good e) (fuel : Nat) (day step : Int) :
    v.times fuel day step = (periodTimes fuel day step good).map fun _ => .error e := by
  cases h with
  | falsy => rfl
  | scalar => rfl
  | scalarIn good rest => exact pairTimes_bad _ _ _ _ _ rfl _ _
  | textIn good w rest => exact pairTimes_bad _ _ _ _ _ rfl _ _
  | listIn good xs h rest =>
    refine pairTimes_bad _ _ _ _ _ ?_ _ _
    match xs, h with
    | [], _ => rfl
    | [a], _ => cases a <;> rfl
    | [.time a, .time b], h => exact absurd rfl (h a b)
    | [.time _, .text _], _ => rfl
    | [.time _, .other], _ => rfl
    | [.text _, _], _ => rfl
    | [.other, _], _ => rfl
    | a :: b :: _ :: _, _ => cases a <;> cases b <;> rfl

theorem createClass_sources (s : SchedSt) (c : Str) (p : Int) : (s.createClass c p).sources = s.sources := by
  simp only [SchedSt.createClass]; split <;> rfl

private theorem registerSync_sources (n : Nat) (nb no : Bool) (s : SchedSt) : (s.registerSync n nb no).sources = s.sources := by
  cases nb <;> cases no <;> simp [SchedSt.registerSync, createClass_sources]

omit [PyNum ν] in
private theorem timer_strat (E : StartEnv γ ν) (n : Nat) (o : Opts) (now : Int) (s s1 : StartSt γ ν μ) (r : Py Unit)
    (h : s.timer E n o now = some (s1, r)) :
    s1.strat = s.strat ∧ s1.sched.sources = s.sched.sources ∧ (s.loop.world.hung = false → s1.loop.world.hung = false) := by
  simp only [StartSt.timer] at h
  split at h
  · cases h
  · simp only [Option.some.injEq, Prod.mk.injEq] at h
    rw [← h.1]
    exact ⟨rfl, createClass_sources .., id⟩
  · split at h
    · cases h
    · rename_i hh
      split at h
      all_goals
        simp only [Option.some.injEq, Prod.mk.injEq] at h
        rw [← h.1]
        exact ⟨rfl, registerSync_sources .., fun _ => by simpa using hh⟩

private theorem setOptions_strat (E : StartEnv γ ν) (o : Opts) (inp : OptInputs γ) (s s' : StartSt γ ν μ) (r : Py Unit) (ha : s.strat.allowed = true)
    (hs : s.setOptions E o inp = some (s', r)) :
    s'.strat.allowed = true ∧ s'.strat.schedules = s.strat.schedules ∧ s'.strat.options = optionsAfter s.strat.options [(o, inp)] ∧
      s'.sched.sources = s.sched.sources ∧ (s.loop.world.hung = false → s'.loop.world.hung = false) := by
  simp only [StartSt.setOptions, show (!s.strat.allowed) = false by rw [ha]; rfl, Bool.false_eq_true, if_false] at hs
  simp only [optionsAfter, List.foldl_cons, List.foldl_nil]
  cases hp : o.parse with
  | error e =>
    simp only [hp, Option.some.injEq, Prod.mk.injEq] at hs
    rw [← hs.1]; exact ⟨ha, rfl, rfl, rfl, id⟩
  | ok o' =>
    simp only [hp] at hs
    split at hs
    · simp only [Option.some.injEq, Prod.mk.injEq] at hs
      rw [← hs.1]; exact ⟨ha, rfl, rfl, rfl, id⟩
    · split at hs
      · split at hs
        · simp only [Option.some.injEq, Prod.mk.injEq] at hs
          rw [← hs.1]; exact ⟨ha, rfl, rfl, rfl, id⟩
        · split at hs
          · simp only [Option.some.injEq, Prod.mk.injEq] at hs
            rw [← hs.1]; exact ⟨ha, rfl, rfl, rfl, id⟩
          · split at hs
            · simp only [Option.some.injEq, Prod.mk.injEq] at hs
              rw [← hs.1]; exact ⟨ha, rfl, rfl, rfl, id⟩
            · simp only [StartSt.accountSetup] at hs
              split at hs
              · cases hs
              · rename_i t rt ht
                simp only [Option.some.injEq, Prod.mk.injEq] at hs
                rw [← hs.1]
                split at ht
                · obtain ⟨k1, k2, k3⟩ := timer_strat E _ o' inp.now _ _ _ ht
                  simp only [k1, k2]; exact ⟨ha, trivial, trivial, trivial, k3⟩
                · simp only [Option.some.injEq, Prod.mk.injEq] at ht
                  rw [← ht.1]; exact ⟨ha, rfl, rfl, rfl, id⟩
      · simp only [Option.some.injEq, Prod.mk.injEq] at hs
        rw [← hs.1]; exact ⟨ha, rfl, rfl, rfl, id⟩

/-- Whatever `process_initialize` does, the tasks are those that it adds and the options those of the last call that is understood. -/
theorem init_strat (E : StartEnv γ ν) (p : InitProg γ ν μ) : ∀ (s s' : StartSt γ ν μ) (m : μ) (e : Option PyErr),
    s.strat.allowed = true → p.run E s = some (s', m, e) →
    s'.strat.schedules = s.strat.schedules ++ p.tasks E s ∧ s'.strat.options = optionsAfter s.strat.options (p.optionCalls E s) ∧
      s'.sched.sources = s.sched.sources ∧ (s.loop.world.hung = false → s'.loop.world.hung = false) := by
  induction p with
  | done m e =>
    intro s s' m' e' _ h
    simp only [InitProg.run, Option.some.injEq, Prod.mk.injEq] at h
    rw [← h.1]; exact ⟨by simp [InitProg.tasks], rfl, rfl, id⟩
  | runDaily f t next ih =>
    intro s s' m e ha h
    have e1 := runDaily_tasks s ha f t
    simp only [InitProg.run, e1] at h
    obtain ⟨h1, h2, h3, h4⟩ := ih _ _ _ _ _ (by exact ha) h
    refine ⟨?_, ?_, h3, h4⟩
    · simp only [h1, InitProg.tasks, e1, StartSt.withTasks, List.append_assoc]; rfl
    · simp only [h2, InitProg.optionCalls, e1]; rfl
  | setOptions o inp next ih =>
    intro s s' m e ha h
    simp only [InitProg.run] at h
    cases hs : s.setOptions E o inp with
    | none => simp only [hs] at h; cases h
    | some q =>
      obtain ⟨s1, r⟩ := q
      obtain ⟨k1, k2, k3, k4, k5⟩ := setOptions_strat E o inp s s1 r ha hs
      simp only [hs] at h
      obtain ⟨h1, h2, h3, h4⟩ := ih _ _ _ _ _ _ k1 h
      refine ⟨?_, ?_, h3.trans k4, fun x => h4 (k5 x)⟩
      · simp only [h1, InitProg.tasks, hs, k2]
      · simp only [h2, InitProg.optionCalls, hs, k3]; rfl
  | call c next ih =>
    intro s s' m e ha h
    simp only [InitProg.run] at h
    obtain ⟨h1, h2, h3, h4⟩ := ih _ _ _ _ _ _ (by exact ha) h
    exact ⟨by simp only [h1, InitProg.tasks], by simp only [h2, InitProg.optionCalls], h3, h4⟩

/-- The tasks before the first `every_minute` are scheduled, then the exception is raised. -/
private theorem scheduleOf_bad {v : PerVal} {good : Periods} {e : PyErr} (h : NotPeriods v good e) (fuel : Nat) (today : Int) (ns : Dict Str Nat)
    (ts : List TaskDesc) (hm : ∃ t ∈ ts, t.time = c!"every_minute") : ∀ s : SchedSt,
    SchedSt.scheduleOf fuel today v ns ts s = none ∨ ∃ s', SchedSt.scheduleOf fuel today v ns ts s = some (s', .error e) := by
  induction ts with
  | nil => obtain ⟨t, ht, _⟩ := hm; cases ht
  | cons t ts ih =>
    intro s
    simp only [SchedSt.scheduleOf, SchedSt.schedOneOf]
    by_cases ht : t.time = c!"every_minute"
    · rw [if_pos ht]
      rw [times_bad h fuel today minUs]
      cases periodTimes fuel today minUs good with
      | some ts => exact Or.inr ⟨_, rfl⟩
      | none => exact Or.inl rfl
    · rw [if_neg ht]
      refine ih ?_ _
      obtain ⟨u, hu, hut⟩ := hm
      rcases List.mem_cons.1 hu with rfl | hu
      · exact absurd hut ht
      · exact ⟨u, hu, hut⟩

/-- C78: if a task is to run every minute and the trading periods are not periods, the process does not start its loop: whatever
`process_initialize` did, and whether or not it set up an account, the process ends with an exception. -/
theorem c78_bad_period (E : StartEnv γ ν) (p : InitProg γ ν μ) (m0 : μ) (s : StartSt γ ν μ) (m : μ)
    (hr : p.run E (E.entered m0) = some (s, m, none)) (v : PerVal) (hv : MarketValue E (p.optionCalls E (E.entered m0)) v)
    (good : Periods) (e : PyErr) (hb : NotPeriods v good e)
    (t : TaskDesc) (ht : t ∈ p.tasks E (E.entered m0)) (hm : t.time = c!"every_minute")
    (ns : Dict Str Nat) (fns : Nat → μ → Ctx γ ν → Prog γ ν μ) (today : Int) (nows : Nat → Int) :
    ∀ l R, E.start (some p) m0 ns fns today nows ≠ some (l, R, none) := by
  intro l R h
  obtain ⟨h1, h2, -, -⟩ := init_strat E p _ _ _ _ rfl hr
  have ho : E.cfg.market s.strat.options = v := by rw [h2]; exact marketValue_kept hv
  simp only [StartEnv.start] at h
  rw [show ({ E.fresh m0 with strat := { (E.fresh m0).strat with allowed := true } } : StartSt γ ν μ) = E.entered m0 from rfl, hr] at h
  simp only [ho] at h
  rcases scheduleOf_bad hb E.fuel today ns s.strat.schedules ⟨t, by rw [h1]; exact List.mem_append_right _ ht, hm⟩ s.sched with hs | ⟨sc, hs⟩
  · simp only [hs] at h; cases h
  · simp only [hs] at h
    split at h
    · cases h
    · split at h <;> simp_all

/-- And if the first task is to run every minute, it ends with the exception that says so; nothing has been queued for any task. -/
theorem c78_bad_period_first (E : StartEnv γ ν) (p : InitProg γ ν μ) (m0 : μ) (s : StartSt γ ν μ) (m : μ)
    (hr : p.run E (E.entered m0) = some (s, m, none)) (v : PerVal) (hv : MarketValue E (p.optionCalls E (E.entered m0)) v)
    (good : Periods) (e : PyErr) (hb : NotPeriods v good e) (hf : (good.flatMap (stepTimes minUs)).length < E.fuel)
    (t : TaskDesc) (ts : List TaskDesc) (ht : p.tasks E (E.entered m0) = t :: ts) (hm : t.time = c!"every_minute")
    (ns : Dict Str Nat) (fns : Nat → μ → Ctx γ ν → Prog γ ν μ) (today : Int) (nows : Nat → Int) :
    ∃ l R, E.start (some p) m0 ns fns today nows = some (l, R, some e) ∧ l.queue = s.loop.queue := by
  obtain ⟨h1, h2, h3, h4⟩ := init_strat E p _ _ _ _ rfl hr
  have ho : E.cfg.market s.strat.options = v := by rw [h2]; exact marketValue_kept hv
  have hsch : s.strat.schedules = t :: ts := by rw [h1, ht]; rfl
  have hsrc : s.sched.sources = [] := h3
  have hh : s.loop.world.hung = false := h4 rfl
  obtain ⟨xs, hx⟩ := periodTimes_some today minUs (by decide) E.fuel good hf
  simp only [StartEnv.start]
  rw [show ({ E.fresh m0 with strat := { (E.fresh m0).strat with allowed := true } } : StartSt γ ν μ) = E.entered m0 from rfl, hr]
  simp only [ho, hsch, SchedSt.scheduleOf, SchedSt.schedOneOf, hm, if_true, times_bad hb, hx, Option.map_some, createClass_sources, hsrc,
    taskSources, List.mapIdx_nil, runStart, hh, Bool.false_eq_true, if_false]
  exact ⟨_, _, rfl, rfl⟩

/-! ### A concrete case

`set_options(market_period=None)` hides the configured periods. -/

private def zEnv : StartEnv Nat Int :=
  ⟨⟨false, 365, .ofPeriods [(34200 * secUs, 41400 * secUs)], false, true, true, .error .valueError, .falsy⟩, 1000,
    ⟨fun g _ => (g, .ok ()), fun g _ => (g, .ok ()), fun g => (g + 1, .error .runtimeError), fun g => (g + 100, .error .runtimeError)⟩,
    fun _ => false, fun _ g => (g + 10000, .ok ()), 5 * dayUs + 28800 * secUs, none, fun _ _ => 5⟩
private def zInp : OptInputs Nat := { gateCtor := .ok 0, now := 0 }
private def zProg (v : Option PerVal) : InitProg Nat Int Nat :=
  .setOptions { marketPeriod := v } zInp fun _ _ => .runDaily ⟨2, some c!"g", true⟩ c!"every_minute" fun _ => .done 70 none

example : (((zProg (some .falsy)).run zEnv (zEnv.entered 0)).map (·.2.2)) = some none ∧
    MarketValue zEnv ((zProg (some .falsy)).optionCalls zEnv (zEnv.entered 0)) .falsy ∧ NotPeriods .falsy [] .typeError ∧
    (zProg (some .falsy)).tasks zEnv (zEnv.entered 0) = [⟨c!"g", c!"every_minute"⟩] :=
  ⟨by decide +kernel, Or.inl ⟨[], { marketPeriod := some .falsy }, zInp, [], { marketPeriod := some .falsy }, rfl,
    (parse_iff _ _).1 (by decide +kernel), by simp, Or.inl rfl⟩, .falsy, by decide +kernel⟩

example : NotPeriods (.seq [.seq [.time 5, .time 7], .seq [.time 8]]) [(5, 7)] .valueError ∧ NotPeriods (.seq [.text c!"9:30"]) [] .valueError :=
  ⟨.listIn [(5, 7)] [.time 8] nofun [], .textIn [] _ []⟩

example : (zEnv.start (some (zProg (some .falsy))) 0 [(c!"g", 8)] (fun _ m _ => .done m none) 5 (fun _ => 0)).map (·.2.2) =
      some (some .typeError) ∧
    (zEnv.start (some (zProg none)) 0 [(c!"g", 8)] (fun _ m _ => .done m none) 5 (fun _ => 0)).map (·.2.2) = some none := by
  decide +kernel

end Jq
