import Verif.Props.C78_BadPeriod
/-!
# C78: exceptions while a process starts

`process_initialize` raises, or a task has a time that is none.
-/
namespace Jq
variable {γ ν μ : Type} [PyNum ν]

/-- C78: an exception that `process_initialize` does not catch ends the process; nothing has been called. -/
theorem c78_init_raises (E : StartEnv γ ν) (p : InitProg γ ν μ) (m0 : μ) (s : StartSt γ ν μ) (m : μ) (e : PyErr)
    (hr : p.run E (E.entered m0) = some (s, m, some e)) (ns : Dict Str Nat) (fns : Nat → μ → Ctx γ ν → Prog γ ν μ) (today : Int)
    (nows : Nat → Int) : ∃ R, E.start (some p) m0 ns fns today nows = some (s.loop, R, some e) := by
  simp only [StartEnv.start]
  rw [show ({ E.fresh m0 with strat := { (E.fresh m0).strat with allowed := true } } : StartSt γ ν μ) = E.entered m0 from rfl, hr]
  exact ⟨_, rfl⟩

/-- There is a day on which the tasks of the process could run. -/
def SomeDay (E : StartEnv γ ν) (now : Int) : Prop :=
  match E.ctxEnd with
  | none => 1 ≤ E.cfg.count
  | some en => (if E.cfg.historyStart then E.ctxStart else now) / dayUs ≤ en / dayUs

private theorem dayRange_cons (d n : Int) (h : 0 < n) : ∃ x xs, dayRange d n = x :: xs := by
  cases hx : dayRange d n with
  | nil =>
    simp only [dayRange, List.map_eq_nil_iff, List.range_eq_nil] at hx
    omega
  | cons x xs => exact ⟨x, xs, rfl⟩

omit [PyNum ν] in
/-- The first poll of the source of such a task raises. -/
private theorem bad_peek (E : StartEnv γ ν) (qs : Periods) (now : Int) (expr : Str) (c : Str) (e : PyErr) (he : entryTime qs 0 expr = .error e)
    (hd : SomeDay E now) (hf : 0 < E.fuel) : ∃ src,
      ESrc.build (E.ecfg qs) (some E.ctxStart) E.ctxEnd now [(expr, c)] = (src, .ok ()) ∧
      ∀ clock, ∃ s', src.peek (E.ecfg qs) clock E.fuel = some (s', .error e) := by
  obtain ⟨n, hn⟩ : ∃ n, E.fuel = n + 1 := ⟨E.fuel - 1, by omega⟩
  have hday : ∀ d, entryTime qs d expr = .error e := by intro d; rw [entryTime_day, he]; rfl
  have loop : ∀ clock st (d : Int) (ds : List Int) en nd hh,
      ESrc.genLoop (E.ecfg qs) clock (n + 1) 0 (⟨[(expr, c)], [], d :: ds, st, en, nd, hh⟩ : ESrc Str) =
        some (⟨[(expr, c)], [], ds, st, en, nd, hh⟩, .error e) := by
    intro clock st d ds en nd hh
    have ha : (⟨[(expr, c)], [], ds, st, en, nd, hh⟩ : ESrc Str).addEvents (E.ecfg qs) d [(expr, c)] =
        (⟨[(expr, c)], [], ds, st, en, nd, hh⟩, .error e) := by
      simp only [ESrc.addEvents, ESrc.addEvent, StartEnv.ecfg, hday]
    simp [ESrc.genLoop, ha]
  have peeks : ∀ clock (st : Int) (evs : List (Int × Str)) (ds0 : List Int) hh, (E.ctxEnd = none → E.cfg.historyStart = true → 1 ≤ E.cfg.count) →
      (E.ctxEnd = none → E.cfg.historyStart = false → 1 ≤ E.cfg.count) →
      (∀ en, E.ctxEnd = some en → st / dayUs ≤ en / dayUs) →
      ∃ s', (⟨[(expr, c)], evs, ds0, some st, E.ctxEnd, true, hh⟩ : ESrc Str).peek (E.ecfg qs) clock E.fuel = some (s', .error e) := by
    intro clock st evs ds0 hh0 c1 c2 c3
    cases hend : E.ctxEnd with
    | none =>
      cases hh : E.cfg.historyStart with
      | true =>
        obtain ⟨x, xs, hx⟩ := dayRange_cons (st / dayUs) E.cfg.count (by have := c1 hend hh; omega)
        have h1 : (⟨[(expr, c)], evs, ds0, some st, none, true, hh0⟩ : ESrc Str).resetIfNeeded (E.ecfg qs) (clock 0) =
            (⟨[(expr, c)], [], x :: xs, some st, none, false, true⟩, .ok ()) := by
          simp [ESrc.resetIfNeeded, ESrc.getDays, StartEnv.ecfg, hh, hx]
        exact ⟨_, by simp only [ESrc.peek, ESrc.genEvents, h1, hn, loop, ne_eq, not_true_eq_false, if_false]; rfl⟩
      | false =>
        obtain ⟨x, xs, hx⟩ := dayRange_cons (clock 0) E.cfg.count (by have := c2 hend hh; omega)
        have h1 : (⟨[(expr, c)], evs, ds0, some st, none, true, hh0⟩ : ESrc Str).resetIfNeeded (E.ecfg qs) (clock 0) =
            (⟨[(expr, c)], [], x :: xs, some st, none, false, true⟩, .ok ()) := by
          simp [ESrc.resetIfNeeded, ESrc.getDays, StartEnv.ecfg, hh, hx]
        exact ⟨_, by simp only [ESrc.peek, ESrc.genEvents, h1, hn, loop, ne_eq, not_true_eq_false, if_false]; rfl⟩
    | some en =>
      obtain ⟨x, xs, hx⟩ := dayRange_cons (st / dayUs) (en / dayUs - st / dayUs + 1) (by have := c3 en hend; omega)
      have h1 : (⟨[(expr, c)], evs, ds0, some st, some en, true, hh0⟩ : ESrc Str).resetIfNeeded (E.ecfg qs) (clock 0) =
          (⟨[(expr, c)], [], x :: xs, some st, some en, false, true⟩, .ok ()) := by
        simp [ESrc.resetIfNeeded, ESrc.getDays, hx]
      exact ⟨_, by simp only [ESrc.peek, ESrc.genEvents, h1, hn, loop, ne_eq, not_true_eq_false, if_false]; rfl⟩
  have cN : E.ctxEnd = none → 1 ≤ E.cfg.count := by
    intro h; simpa only [SomeDay, h] using hd
  have cS : ∀ en, E.ctxEnd = some en → (if E.cfg.historyStart then E.ctxStart else now) / dayUs ≤ en / dayUs := by
    intro en h; simpa only [SomeDay, h] using hd
  have hst : ∃ ds h, ESrc.build (E.ecfg qs) (some E.ctxStart) E.ctxEnd now [(expr, c)] =
      (⟨[(expr, c)], [], ds, some (if E.cfg.historyStart then E.ctxStart else now), E.ctxEnd, true, h⟩, .ok ()) := by
    cases hh : E.cfg.historyStart <;> cases hend : E.ctxEnd <;>
      simp [ESrc.build, ESrc.setup, ESrc.resetIfNeeded, ESrc.getDays, StartEnv.ecfg, hh, ESrc.addDaily]
  obtain ⟨ds, h, hst⟩ := hst
  exact ⟨_, hst, fun clock => peeks clock _ _ _ _ (fun a _ => cN a) (fun a _ => cN a) cS⟩

omit [PyNum ν] in
/-- A set-up that is successful has polled every source. -/
private theorem runStart_polls {α : Type} (R : RunEnv α) : ∀ (srcs : List (ESrc Str × Py Unit)) (i : Nat)
    (l l' : LoopSt (RunW α) Nat PyErr), runStart R i srcs l = (l', none) →
    ∀ s ∈ srcs, ∃ clock, ∀ s' e, s.1.peek R.cfg clock R.fuel ≠ some (s', .error e) := by
  intro srcs
  induction srcs with
  | nil => intro i l l' _ s hs; cases hs
  | cons x srcs ih =>
    intro i l l' h s hs
    obtain ⟨src, r⟩ := x
    cases r with
    | error e => simp [runStart] at h
    | ok u =>
      simp only [runStart] at h
      cases hp : runPush R i { l.world with srcs := fun j => if j = i then src else l.world.srcs j } with
      | mk w ae =>
        obtain ⟨acts, err⟩ := ae
        rw [hp] at h
        cases err with
        | some e => simp at h
        | none =>
          rcases List.mem_cons.1 hs with rfl | hs
          · refine ⟨R.dates l.world.polls, fun s' e he => ?_⟩
            simp only [runPush, if_true, he, Prod.mk.injEq, reduceCtorEq, and_false] at hp
          · exact ih _ _ _ h s hs

/-- The source of a task that does not run every minute. -/
private theorem scheduleOf_has (fuel : Nat) (today : Int) (v : PerVal) (ns : Dict Str Nat) : ∀ (ts : List TaskDesc) (s s' : SchedSt),
    SchedSt.scheduleOf fuel today v ns ts s = some (s', .ok ()) →
    (∀ x ∈ s.sources, x ∈ s'.sources) ∧ ∀ t ∈ ts, t.time ≠ c!"every_minute" → ∃ c, (c, [(t.time, c)]) ∈ s'.sources := by
  intro ts
  induction ts with
  | nil =>
    intro s s' h
    simp only [SchedSt.scheduleOf, Option.some.injEq, Prod.mk.injEq, and_true] at h
    subst h
    exact ⟨fun _ h => h, fun _ h => nomatch h⟩
  | cons t ts ih =>
    intro s s' h
    simp only [SchedSt.scheduleOf] at h
    split at h
    · cases h
    · simp at h
    · rename_i s1 h1
      obtain ⟨k1, k2⟩ := ih _ _ h
      simp only [SchedSt.schedOneOf] at h1
      split at h1
      · rename_i hm
        split at h1
        · cases h1
        · simp at h1
        · simp only [Option.some.injEq, Prod.mk.injEq, and_true] at h1
          subst h1
          refine ⟨fun x hx => k1 x ?_, fun u hu hne => ?_⟩
          · simp only [createClass_sources]; exact List.mem_append_left _ hx
          · rcases List.mem_cons.1 hu with rfl | hu
            · exact absurd hm hne
            · exact k2 u hu hne
      · simp only [Option.some.injEq, Prod.mk.injEq, and_true] at h1
        subst h1
        refine ⟨fun x hx => k1 x ?_, fun u hu hne => ?_⟩
        · simp only [createClass_sources]; exact List.mem_append_left _ hx
        · rcases List.mem_cons.1 hu with rfl | hu
          · exact ⟨_, k1 _ (by simp only [createClass_sources]; exact List.mem_append_right _ (List.mem_singleton.2 rfl))⟩
          · exact k2 u hu hne

/-- C78: a process one of whose tasks has a time that is none (`entryTime`, see C09 and C10) does not start its loop, if there is a day at
all. -/
theorem c78_bad_time (E : StartEnv γ ν) (p : InitProg γ ν μ) (m0 : μ) (s : StartSt γ ν μ) (m : μ)
    (hr : p.run E (E.entered m0) = some (s, m, none)) (qs : Periods) (hv : MarketValue E (p.optionCalls E (E.entered m0)) (.ofPeriods qs))
    (t : TaskDesc) (ht : t ∈ p.tasks E (E.entered m0)) (hm : t.time ≠ c!"every_minute") (e : PyErr) (he : entryTime qs 0 t.time = .error e)
    (ns : Dict Str Nat) (fns : Nat → μ → Ctx γ ν → Prog γ ν μ) (today : Int) (nows : Nat → Int) (hd : ∀ i, SomeDay E (nows i))
    (hf : 0 < E.fuel) : ∀ l R, E.start (some p) m0 ns fns today nows ≠ some (l, R, none) := by
  intro l R h
  obtain ⟨h1, h2, -, -⟩ := init_strat E p _ _ _ _ rfl hr
  have ho : E.cfg.market s.strat.options = .ofPeriods qs := by rw [h2]; exact marketValue_kept hv
  have hts : t ∈ s.strat.schedules := by rw [h1]; exact List.mem_append_right _ ht
  simp only [StartEnv.start] at h
  rw [show ({ E.fresh m0 with strat := { (E.fresh m0).strat with allowed := true } } : StartSt γ ν μ) = E.entered m0 from rfl, hr] at h
  simp only [ho, forEntries_ofPeriods] at h
  cases hs : SchedSt.scheduleOf E.fuel today (.ofPeriods qs) ns s.strat.schedules s.sched with
  | none => simp only [hs] at h; cases h
  | some q =>
    obtain ⟨sc, r⟩ := q
    simp only [hs] at h
    generalize hst : runStart _ s.sources (taskSources (E.ecfg qs) (some E.ctxStart) E.ctxEnd nows sc.sources) _ = q at h
    obtain ⟨l1, err⟩ := q
    simp only at h
    split at h
    · cases h
    · split at h
      · simp at h
      · simp at h
      · obtain ⟨c, hc⟩ := (scheduleOf_has _ _ _ _ _ _ _ hs).2 t hts hm
        obtain ⟨i, hi, hic⟩ := List.mem_iff_getElem.1 hc
        have hmem : ESrc.build (E.ecfg qs) (some E.ctxStart) E.ctxEnd (nows i) [(t.time, c)] ∈
            taskSources (E.ecfg qs) (some E.ctxStart) E.ctxEnd nows sc.sources :=
          List.mem_iff_getElem.2 ⟨i, by simpa [taskSources] using hi, by simp [taskSources, hic]⟩
        obtain ⟨clock, hclock⟩ := runStart_polls _ _ _ _ _ hst _ hmem
        obtain ⟨src, hb, hp⟩ := bad_peek E qs (nows i) t.time c e he (hd i) hf
        obtain ⟨s', hs'⟩ := hp clock
        rw [hb] at hclock
        exact hclock s' e hs'

private theorem scheduleOf_some (fuel : Nat) (today : Int) (qs : Periods) (hf : (qs.flatMap (stepTimes minUs)).length < fuel) (ns : Dict Str Nat) :
    ∀ (ts : List TaskDesc) (s : SchedSt), ∃ s' more, SchedSt.scheduleOf fuel today (.ofPeriods qs) ns ts s = some (s', .ok ()) ∧
      s'.sources = s.sources ++ more := by
  obtain ⟨xs, hx⟩ := periodTimes_some today minUs (by decide) fuel qs hf
  intro ts
  induction ts with
  | nil => intro s; exact ⟨s, [], rfl, by simp⟩
  | cons t ts ih =>
    intro s
    have one : ∃ s1 x, s.schedOneOf fuel today (.ofPeriods qs) ns t = some (s1, .ok ()) ∧ s1.sources = s.sources ++ [x] := by
      by_cases hm : t.time = c!"every_minute"
      · exact ⟨_, _, by simp only [SchedSt.schedOneOf, hm, if_true, times_ofPeriods, hx, Option.map_some]; rfl, by simp only [createClass_sources]; rfl⟩
      · exact ⟨_, _, by simp only [SchedSt.schedOneOf, hm, if_false]; rfl, by simp only [createClass_sources]; rfl⟩
    obtain ⟨s1, x, h1, h2⟩ := one
    obtain ⟨s', more, h3, h4⟩ := ih s1
    exact ⟨s', x :: more, by simp only [SchedSt.scheduleOf, h1, h3], by rw [h4, h2]; simp⟩

/-- And if it is the first task, the process ends with the exception that says what is wrong with the time; nothing has been queued for any
task. -/
theorem c78_bad_time_first (E : StartEnv γ ν) (p : InitProg γ ν μ) (m0 : μ) (s : StartSt γ ν μ) (m : μ)
    (hr : p.run E (E.entered m0) = some (s, m, none)) (qs : Periods) (hv : MarketValue E (p.optionCalls E (E.entered m0)) (.ofPeriods qs))
    (hf : (qs.flatMap (stepTimes minUs)).length < E.fuel)
    (t : TaskDesc) (ts : List TaskDesc) (ht : p.tasks E (E.entered m0) = t :: ts) (hm : t.time ≠ c!"every_minute") (e : PyErr)
    (he : entryTime qs 0 t.time = .error e)
    (ns : Dict Str Nat) (fns : Nat → μ → Ctx γ ν → Prog γ ν μ) (today : Int) (nows : Nat → Int) (hd : SomeDay E (nows 0)) :
    ∃ l R, E.start (some p) m0 ns fns today nows = some (l, R, some e) ∧ l.queue = s.loop.queue := by
  obtain ⟨h1, h2, h3, h4⟩ := init_strat E p _ _ _ _ rfl hr
  have ho : E.cfg.market s.strat.options = .ofPeriods qs := by rw [h2]; exact marketValue_kept hv
  have hsch : s.strat.schedules = t :: ts := by rw [h1, ht]; rfl
  have hsrc : s.sched.sources = [] := h3
  have hh : s.loop.world.hung = false := h4 rfl
  obtain ⟨s1, c, e1, e2⟩ : ∃ s1 c, s.sched.schedOneOf E.fuel today (.ofPeriods qs) ns t = some (s1, .ok ()) ∧ s1.sources = [(c, [(t.time, c)])] :=
    ⟨_, _, by simp only [SchedSt.schedOneOf, hm, if_false]; rfl, by simp only [createClass_sources, hsrc]; rfl⟩
  obtain ⟨sc, more, e3, e4⟩ := scheduleOf_some E.fuel today qs hf ns ts s1
  rw [e2] at e4
  obtain ⟨src, hb, hp⟩ := bad_peek E qs (nows 0) t.time c e he hd (by omega)
  simp only [StartEnv.start]
  rw [show ({ E.fresh m0 with strat := { (E.fresh m0).strat with allowed := true } } : StartSt γ ν μ) = E.entered m0 from rfl, hr]
  obtain ⟨s', hs'⟩ := hp (E.dates s.loop.world.polls)
  simp only [ho, hsch, SchedSt.scheduleOf, e1, e3, forEntries_ofPeriods, taskSources, e4, List.singleton_append, List.mapIdx_cons, hb, runStart, runPush,
    if_true, hs', List.foldl_nil, RunW.polled, hh, Bool.false_eq_true, if_false]
  exact ⟨_, _, rfl, rfl⟩

/-! ### Concrete cases -/

private def wEnv (en : Option Int) : StartEnv Nat Int :=
  ⟨⟨false, 365, .ofPeriods [(34200 * secUs, 41400 * secUs)], false, true, true, .error .valueError, .falsy⟩, 1000,
    ⟨fun g _ => (g, .ok ()), fun g _ => (g, .ok ()), fun g => (g + 1, .error .runtimeError), fun g => (g + 100, .error .runtimeError)⟩,
    fun _ => false, fun _ g => (g + 10000, .ok ()), 5 * dayUs, en, fun _ _ => 5⟩
private def wProg (time : Str) : InitProg Nat Int Nat :=
  .runDaily ⟨1, some c!"f", true⟩ time fun _ => .runDaily ⟨2, some c!"g", true⟩ c!"every_minute" fun _ => .done 70 none
private def wRaise : InitProg Nat Int Nat :=
  .runDaily ⟨1, some c!"f", true⟩ c!"open" fun _ => .call .syncOrders fun _ r =>
    .done 70 (match r with | .ok _ => none | .error e => some e)
private def wStart (en : Option Int) (p : InitProg Nat Int Nat) : Option (Option PyErr) :=
  ((wEnv en).start (some p) 0 [(c!"f", 7), (c!"g", 8)] (fun _ m _ => .done m none) 5 (fun _ => 6 * dayUs)).map (·.2.2)

example : (((wProg c!"open+5x").run (wEnv none) ((wEnv none).entered 0)).map (·.2.2)) = some none ∧
    MarketValue (wEnv none) ((wProg c!"open+5x").optionCalls (wEnv none) ((wEnv none).entered 0)) (.ofPeriods [(34200 * secUs, 41400 * secUs)]) ∧
    (wProg c!"open+5x").tasks (wEnv none) ((wEnv none).entered 0) = [⟨c!"f", c!"open+5x"⟩, ⟨c!"g", c!"every_minute"⟩] ∧
    entryTime [(34200 * secUs, 41400 * secUs)] 0 c!"open+5x" = .error .invalidParam ∧ SomeDay (wEnv none) (6 * dayUs) :=
  ⟨by decide +kernel, Or.inr ⟨by simp [wProg, InitProg.optionCalls], rfl⟩, by decide +kernel, by decide +kernel, by simp [SomeDay, wEnv]⟩

/-- With another base than `open` and `close`, a minute 99, no such time; with good times; with an exception in `process_initialize`; and
with wrong times but an end before the start, which is not noticed. -/
example : wStart none (wProg c!"noon+5m") = some (some .keyError) ∧ wStart none (wProg c!"10:99") = some (some .valueError) ∧
    wStart none (wProg c!"noon") = some (some .invalidParam) ∧ wStart none (wProg c!"10:59") = some none ∧
    wStart none wRaise = some (some .invalidCall) ∧
    wStart (some (5 * dayUs)) (wProg c!"noon") = some none := by
  decide +kernel

example : ¬ SomeDay (wEnv (some (5 * dayUs))) (6 * dayUs) := by
  simp [SomeDay, wEnv, dayUs, secUs]

end Jq
