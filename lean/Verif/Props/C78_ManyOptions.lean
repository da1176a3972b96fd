import Verif.Lemmas.ManyOptions
/-!
# C78 with any number of calls of `set_options`

They may succeed, fail and be caught, make accounts, replace them, or switch the account off.
-/
namespace Jq
variable {γ ν μ : Type} [PyNum ν]

/-- C66: a call of `set_options` that is refused or fails, whatever the reason, or does not ask for an account, adds no callback. -/
theorem c66_other_set_options (E : StartEnv γ ν) (p : InitProg γ ν μ) (m0 : μ) (s : StartSt γ ν μ) (m : μ) (e : Option PyErr)
    (hp : p.run E (E.entered m0) = some (s, m, e)) (o : Opts) (inp : OptInputs γ) (s' : StartSt γ ν μ) (r : Py Unit)
    (hs : s.setOptions E o inp = some (s', r)) (hr : r ≠ .ok () ∨ s'.ctx.useAccount = false) : s'.syncCbs = s.syncCbs := by
  obtain ⟨h0, hn0⟩ := entered_many E m0
  obtain ⟨_, _, _, accs, _, _, h⟩ := init_many E m0 p _ _ _ _ _ h0 hn0 hp
  have hn := init_numbered E p _ _ _ _ hn0 hp
  rw [setOptions_cbs E m0 o inp s s' r _ h hn hs, if_neg, List.append_nil]
  rintro ⟨h1, h2⟩
  rcases hr with hr | hr
  · exact hr h1
  · rw [hr] at h2; cases h2

/-- The process starts. -/
private theorem start_many (E : StartEnv γ ν) (p : InitProg γ ν μ) (m0 : μ) (s : StartSt γ ν μ) (m : μ)
    (hrun : p.run E (E.entered m0) = some (s, m, none))
    (mqs : Periods) (hm : MarketAfter E (p.optionCalls E (E.entered m0)) mqs)
    (accs : List (TimerSetup × ESrc Str)) (I : ManyInv E m0 s (accs.map (·.2)))
    (hopt : s.strat.options = optionsAfter {} (p.optionCalls E (E.entered m0))) (hts : s.strat.schedules = p.tasks E (E.entered m0))
    (ns : Dict Str Nat) (fns : Nat → μ → Ctx γ ν → Prog γ ν μ) (today : Int) (nows : Nat → Int) (s1 : SchedSt)
    (hsched : SchedSt.schedule E.fuel today mqs ns (p.tasks E (E.entered m0)) s.sched = some s1)
    (l0 : LoopSt (RunW (PSt γ ν μ)) Nat PyErr)
    (hl0 : runStart ⟨E.ecfg mqs, E.fuel, s1.bus, s1.classes, E.dates, procAct E.G E.udig fns⟩ 0
      (accs.map (fun x => (x.2, .ok ())) ++ taskSources (E.ecfg mqs) (some E.ctxStart) E.ctxEnd nows s1.sources)
      (runEmpty ⟨s.ctx, m, s.olds⟩) = (l0, none)) (hh0 : l0.world.hung = false) :
    E.start (some p) m0 ns fns today nows =
      some (l0, ⟨E.ecfg mqs, E.fuel, s1.bus, s1.classes, E.dates, procAct E.G E.udig fns⟩, none) := by
  have hmk := marketAfter_kept hm
  have hfe : (E.cfg.market s.strat.options).forEntries = mqs := by rw [hopt, hmk, forEntries_ofPeriods]
  have hsc : SchedSt.scheduleOf E.fuel today (E.cfg.market s.strat.options) ns s.strat.schedules s.sched = some (s1, .ok ()) := by
    rw [hts, hopt, hmk, scheduleOf_ofPeriods, hsched]; rfl
  have hl := I.loop ⟨E.ecfg mqs, E.fuel, s1.bus, s1.classes, E.dates, procAct E.G E.udig fns⟩ ⟨rfl, rfl⟩ rfl rfl
    (fun h => c12_keeps_classes _ _ _ _ _ _ _ I.sync.init hsched accEvent 2 (I.cls h))
  have h2 := runStart_st ⟨E.ecfg mqs, E.fuel, s1.bus, s1.classes, E.dates, procAct E.G E.udig fns⟩
    ((accs.map (·.2)).map fun x => (x, .ok ())) (⟨s.ctx, m, s.olds⟩ : PSt γ ν μ) 0 (runEmpty ⟨⟨false, none⟩, m0, []⟩)
  rw [hl] at h2
  have h3 : runStart ⟨E.ecfg mqs, E.fuel, s1.bus, s1.classes, E.dates, procAct E.G E.udig fns⟩ 0
      ((accs.map (·.2)).map fun x => (x, .ok ())) (runEmpty (⟨s.ctx, m, s.olds⟩ : PSt γ ν μ)) = (setSt s.loop ⟨s.ctx, m, s.olds⟩, none) := h2
  have htail : runStart ⟨E.ecfg mqs, E.fuel, s1.bus, s1.classes, E.dates, procAct E.G E.udig fns⟩ s.sources
      (taskSources (E.ecfg mqs) (some E.ctxStart) E.ctxEnd nows s1.sources)
      { s.loop with world := { s.loop.world with st := ⟨s.ctx, m, s.olds⟩ } } = (l0, none) := by
    rw [← hl0, show accs.map (fun x => (x.2, Except.ok (ε := PyErr) ())) = (accs.map (·.2)).map fun x => (x, .ok ()) by simp,
      runStart_append _ _ _ _ _ _ h3, I.count]
    simp only [List.length_map, Nat.zero_add]
    rfl
  simp only [StartEnv.start]
  rw [show ({ E.fresh m0 with strat := { (E.fresh m0).strat with allowed := true } } : StartSt γ ν μ) = E.entered m0 from rfl, hrun]
  simp only [hsc]
  rw [hfe, htail]
  simp only [hh0, Bool.false_eq_true, if_false]

/-- What `process_initialize` leaves. -/
private theorem after_init (E : StartEnv γ ν) (p : InitProg γ ν μ) (m0 : μ) (s : StartSt γ ν μ) (m : μ)
    (hrun : p.run E (E.entered m0) = some (s, m, none))
    (T : Opts × OptInputs γ → TimerSetup) (hT : ∀ c ∈ p.timerCalls E (E.entered m0), TimerFrom E c.1 c.2.now (T c)) :
    s.strat.options = optionsAfter {} (p.optionCalls E (E.entered m0)) ∧ s.strat.schedules = p.tasks E (E.entered m0) ∧
      s.sched.bus.emit sameClass c!"AccountSyncEvent" = p.syncCalls E (E.entered m0) ∧
      (∀ cb ∈ p.syncCalls E (E.entered m0), ∃ i, cb = .account i) ∧
      ∃ accs : List (TimerSetup × ESrc Str), accs.map (·.1) = (p.timerCalls E (E.entered m0)).map T ∧
        (∀ x ∈ accs, x.1.Makes E.ctxStart E.ctxEnd x.2) ∧ ManyInv E m0 s (accs.map (·.2)) := by
  obtain ⟨h0, hn0⟩ := entered_many E m0
  obtain ⟨h1, h2, h3, accs, h4, h5, h6⟩ := init_many E m0 p _ _ _ _ _ h0 hn0 hrun
  have hn := init_numbered E p _ _ _ _ hn0 hrun
  have h3 : s.syncCbs = p.syncCalls E (E.entered m0) := h3
  refine ⟨h1, h2, h3, fun cb hcb => ?_, accs.map fun x => (T x.1, x.2), ?_, ?_, ?_⟩
  · rw [← h3] at hcb
    obtain ⟨i, _, hi⟩ := hn.below cb hcb
    exact ⟨i, hi⟩
  · rw [← h4]; simp
  · intro x hx
    obtain ⟨y, hy, rfl⟩ := List.mem_map.1 hx
    obtain ⟨o', hk, hs⟩ := h5 y hy
    exact timerSource_makes E hk (hT y.1 (by rw [← h4]; exact List.mem_map_of_mem hy)) hs
  · rw [List.map_map]; exact h6

/-- C78 with an end date and any number of calls of `set_options`.  `process_initialize` may do anything as long as it returns; it
leaves the context `s.ctx`, the replaced accounts `s.olds` and the user's variables `m`.  The process starts its loop.  From then on,
whatever the clock reads and whatever the gate answers or raises, the tasks run at the times that they ask for, by the trading periods
given last or configured; each call of `set_options` that returned with an account to be synchronised has a timer of its own, and
every event of every timer synchronises all these accounts, in the order of the calls, before the tasks that are due at the same
time.  If the account is switched off in the end, nothing happens to any of them.  If the loop ends by itself and no function of the
user raised, nothing has been left out. -/
theorem c78_any_options_with_end (E : StartEnv γ ν) (p : InitProg γ ν μ) (m0 : μ) (s : StartSt γ ν μ) (m : μ)
    (hrun : p.run E (E.entered m0) = some (s, m, none))
    (mqs : Periods) (hm : MarketAfter E (p.optionCalls E (E.entered m0)) mqs) (hin : PeriodsInDay mqs) (hsec : WholeSeconds mqs)
    (T : Opts × OptInputs γ → TimerSetup) (hT : ∀ c ∈ p.timerCalls E (E.entered m0), TimerFrom E c.1 c.2.now (T c))
    (ts : List TaskDesc) (hts : ts = p.tasks E (E.entered m0))
    (ns : Dict Str Nat) (fn : Nat → Nat) (hfn : ∀ i (hi : i < ts.length), dget ns ts[i].name = some (fn i))
    (os : Nat → List Int) (hos : ∀ i (hi : i < ts.length), TaskTimes mqs ts[i] (os i))
    (endT : Int) (hend : E.ctxEnd = some endT) (fns : Nat → μ → Ctx γ ν → Prog γ ν μ) (today : Int) (nows : Nat → Int)
    (hf1 : (mqs.flatMap (stepTimes minUs)).length < E.fuel)
    (hf2 : p.timerCalls E (E.entered m0) ≠ [] → (endT / dayUs - E.ctxStart / dayUs + 1).toNat + 1 ≤ E.fuel)
    (hf3 : ∀ i, i < ts.length → (endT / dayUs - effectiveStart (E.ecfg mqs) (some E.ctxStart) (nows i) / dayUs + 1).toNat + 1 ≤ E.fuel) :
    let timers := (p.timerCalls E (E.entered m0)).map T
    let cbs := p.syncCalls E (E.entered m0)
    let p0 : PSt γ ν μ := ⟨s.ctx, m, s.olds⟩
    let st := bySource (timers.map fun _ => E.ctxStart) fun i => effectiveStart (E.ecfg mqs) (some E.ctxStart) (nows i)
    let due : Nat → List Int := fun j => dueTimes (st j) (some endT) (bySource (timers.map TimerSetup.times) os j)
      (st j / dayUs) (endT / dayUs)
    ∃ l0 R, E.start (some p) m0 ns fns today nows = some (l0, R, none) ∧
      ∀ ls t, l0.run (runExec R) ls = some t → (∀ l ∈ ls, l.isInternal = true) →
        RunsAsDue (procAct E.G E.udig fns) p0 (timers.length + ts.length) (srcPrio timers ts) (srcCbs timers cbs fn) due t ∧
        InOrder (srcPrio timers ts) t ∧
        SyncedBeforeTasks timers.length due t ∧
        (∀ a0, s.ctx = ⟨true, some a0⟩ → ∃ ops, AccountsInRun E.G E.udig fns cbs timers fn p0 ⟨a0, s.olds⟩ t ops) ∧
        (s.ctx.useAccount = false → t.world.st.ctx = s.ctx ∧ t.world.st.olds = s.olds) ∧
        ((∀ l ∈ ls, l.isQuiet = true) → NeverRaise E.G E.udig fns → t.halted = true →
          ∀ j, j < timers.length + ts.length → firingsOf t j = due j) := by
  intro timers cbs p0 st due
  obtain ⟨i1, i2, i3, i4, accs, i5, i6, I⟩ := after_init E p m0 s m hrun T hT
  obtain ⟨s1, hsched⟩ := schedule_some E.fuel today mqs ns hf1 ts s.sched
  obtain ⟨l0, hl0, hr⟩ := c63_run_with_end (E.ecfg mqs) E.fuel E.fuel today ns ts s.sched s1 I.sync.init hsched hin hsec fn hfn os hos
    accs E.ctxStart (some E.ctxStart) endT (fun x hx => by rw [← hend]; exact i6 x hx) (fun h => I.cls (by simpa using h)) nows E.dates
    (procAct E.G E.udig fns) p0
    (fun cb hcb => by
      rw [i3] at hcb
      obtain ⟨i, rfl⟩ := i4 cb hcb
      exact ⟨⟨i, rfl⟩, fun a => procAct_account E.G E.udig fns a i⟩)
    (fun h => hf2 (by
      intro e
      rw [e] at i5
      exact h (by simpa using i5))) hf3
  rw [i3, i5] at hr
  have hh0 : l0.world.hung = false := (hr [] l0 rfl (by simp)).1.returns
  refine ⟨l0, _, start_many E p m0 s m hrun mqs hm accs I i1 i2 ns fns today nows s1 (by rw [← hts]; exact hsched) l0
    (by rw [hend]; exact hl0) hh0, fun ls t ht hl => ?_⟩
  obtain ⟨r1, r2, r3⟩ := hr ls t ht hl
  refine ⟨r1, r2, ?_, fun a0 ha => ?_, fun hoff => ?_, fun hq hnr => r3 hq fun i _ q => hnr (fn i) q.mem q.ctx⟩
  · refine c65_synced_before_tasks _ p0 timers ts _ due t r1 r2 fun j hj => ?_
    have hj' : j < accs.length := by rw [← List.length_map (f := (·.1)), i5]; exact hj
    obtain ⟨m1, m2, _⟩ := i6 _ (List.getElem_mem hj')
    have e : bySource (timers.map TimerSetup.times) os j = (accs[j]).1.times := by
      simp only [timers, ← i5, bySource, List.length_map, hj', dite_true, List.getElem_map]
    simp only [due, dueTimes_map, e, List.pairwise_map]
    exact c07_events_in_order _ _ _ _ _ (timer_span m1 m2)
  · exact c83_accounts_in_run E.G E.udig fns cbs i4 timers fn _ _ due p0 a0 ha t r1
  · have := (c83_switched_off E.G E.udig fns cbs i4 timers fn p0 hoff t.fired t.fired.length).2
    rw [stateAfter, List.take_length, ← r1.calls] at this
    rw [r1.state]
    exact this

/-- The same in live mode, with the windows of C63. -/
theorem c78_any_options_live (E : StartEnv γ ν) (p : InitProg γ ν μ) (m0 : μ) (s : StartSt γ ν μ) (m : μ)
    (hrun : p.run E (E.entered m0) = some (s, m, none))
    (mqs : Periods) (hm : MarketAfter E (p.optionCalls E (E.entered m0)) mqs) (hin : PeriodsInDay mqs) (hsec : WholeSeconds mqs)
    (T : Opts × OptInputs γ → TimerSetup) (hT : ∀ c ∈ p.timerCalls E (E.entered m0), TimerFrom E c.1 c.2.now (T c))
    (ts : List TaskDesc) (hts : ts = p.tasks E (E.entered m0))
    (ns : Dict Str Nat) (fn : Nat → Nat) (hfn : ∀ i (hi : i < ts.length), dget ns ts[i].name = some (fn i))
    (os : Nat → List Int) (hos : ∀ i (hi : i < ts.length), TaskTimes mqs ts[i] (os i))
    (hlive : E.cfg.historyStart = false) (hcount : 1 ≤ E.cfg.count)
    (hend : E.ctxEnd = none) (fns : Nat → μ → Ctx γ ν → Prog γ ν μ) (today : Int) (nows : Nat → Int)
    (hne : ∀ j, j < ((p.timerCalls E (E.entered m0)).map T).length + ts.length → ∀ u v,
      dueTimes (bySource (((p.timerCalls E (E.entered m0)).map T).map fun _ => E.ctxStart) nows j) none
        (bySource (((p.timerCalls E (E.entered m0)).map T).map TimerSetup.times) os j) (E.dates u v) (E.dates u v + E.cfg.count - 1) ≠ [])
    (hf1 : (mqs.flatMap (stepTimes minUs)).length < E.fuel) (hf3 : 2 * E.cfg.count + 2 ≤ E.fuel) :
    let timers := (p.timerCalls E (E.entered m0)).map T
    let cbs := p.syncCalls E (E.entered m0)
    let p0 : PSt γ ν μ := ⟨s.ctx, m, s.olds⟩
    let st := bySource (timers.map fun _ => E.ctxStart) nows
    let due : List Int → Nat → List Int := fun ws j => windowsDue E.cfg.count (st j) (bySource (timers.map TimerSetup.times) os j) ws
    ∃ l0 R, E.start (some p) m0 ns fns today nows = some (l0, R, none) ∧
      ∀ ls t, l0.run (runExec R) ls = some t → (∀ l ∈ ls, l.isInternal = true) →
        ∃ ws : Nat → List Int, (∀ j, ∀ w ∈ ws j, ∃ u v, w = E.dates u v) ∧
          (∀ j, j < timers.length + ts.length → (firingsOf t j).length < (due [E.dates j 0] j).length → ws j = []) ∧
          RunsAsDue (procAct E.G E.udig fns) p0 (timers.length + ts.length) (srcPrio timers ts) (srcCbs timers cbs fn)
            (fun j => due (E.dates j 0 :: ws j) j) t ∧
          (∀ a0, s.ctx = ⟨true, some a0⟩ → ∃ ops, AccountsInRun E.G E.udig fns cbs timers fn p0 ⟨a0, s.olds⟩ t ops) ∧
          (s.ctx.useAccount = false → t.world.st.ctx = s.ctx ∧ t.world.st.olds = s.olds) ∧
          ((∀ j, j < timers.length + ts.length → (E.dates j 0 :: ws j).Pairwise fun v w : Int => v + E.cfg.count ≤ w) →
            InOrder (srcPrio timers ts) t ∧ SyncedBeforeTasks timers.length (fun j => due (E.dates j 0 :: ws j) j) t) := by
  intro timers cbs p0 st due
  obtain ⟨i1, i2, i3, i4, accs, i5, i6, I⟩ := after_init E p m0 s m hrun T hT
  have hlen : accs.length = timers.length := by rw [← List.length_map (f := (·.1)), i5]
  obtain ⟨s1, hsched⟩ := schedule_some E.fuel today mqs ns hf1 ts s.sched
  obtain ⟨l0, hl0, hr⟩ := c63_live_run (E.ecfg mqs) ⟨hlive, hcount⟩ E.fuel E.fuel today ns ts s.sched s1 I.sync.init hsched hin hsec fn hfn
    os hos accs E.ctxStart (some E.ctxStart) (fun x hx => by rw [← hend]; exact i6 x hx) (fun h => I.cls (by simpa using h)) nows E.dates
    (procAct E.G E.udig fns) p0
    (fun cb hcb => by
      rw [i3] at hcb
      obtain ⟨i, rfl⟩ := i4 cb hcb
      exact ⟨⟨i, rfl⟩, fun a => procAct_account E.G E.udig fns a i⟩)
    (fun j hj => by rw [i5]; exact hne j (by rw [hlen] at hj; exact hj)) hf3
  rw [i3, i5] at hr
  have hh0 : l0.world.hung = false := by
    obtain ⟨_, _, _, h, _⟩ := hr [] l0 rfl (by simp)
    exact h.returns
  refine ⟨l0, _, start_many E p m0 s m hrun mqs hm accs I i1 i2 ns fns today nows s1 (by rw [← hts]; exact hsched) l0
    (by rw [hend]; exact hl0) hh0, fun ls t ht hl => ?_⟩
  obtain ⟨ws, r0, r1, r2, r3⟩ := hr ls t ht hl
  refine ⟨ws, r0, r1, r2, fun a0 ha => ?_, fun hoff => ?_, fun hsep => ⟨r3 hsep, ?_⟩⟩
  · exact c83_accounts_in_run E.G E.udig fns cbs i4 timers fn _ _ _ p0 a0 ha t r2
  · have := (c83_switched_off E.G E.udig fns cbs i4 timers fn p0 hoff t.fired t.fired.length).2
    rw [stateAfter, List.take_length, ← r2.calls] at this
    rw [r2.state]
    exact this
  · refine c65_synced_before_tasks _ p0 timers ts _ _ t r2 (r3 hsep) fun j hj => ?_
    have hj' : j < accs.length := by rw [hlen]; exact hj
    obtain ⟨m1, m2, _⟩ := i6 _ (List.getElem_mem hj')
    have e : bySource (timers.map TimerSetup.times) os j = (accs[j]).1.times := by
      simp only [timers, ← i5, bySource, List.length_map, hj', dite_true, List.getElem_map]
    simp only [due, e]
    exact windowsDue_sorted (timer_span m1 m2) (hsep j (by omega))

/-! ### A concrete case

An account, one whose gate cannot be set up (caught), and one with other periods that synchronises its orders only; before, between and
after them tasks and an order. -/

private def zEnv (en : Option Int) : StartEnv Nat Int :=
  ⟨⟨false, 365, .ofPeriods [(0, 60 * secUs)], true, true, true, .ok (30 * secUs), .ofPeriods [(34230 * secUs, 34260 * secUs)]⟩, 1000,
    ⟨fun g _ => (g, .ok ()), fun g _ => (g, .ok ()), fun g => (g + 1, .error .runtimeError), fun g => (g + 100, .error .runtimeError)⟩,
    fun _ => false, fun _ g => (g + 10000, if g = 9 then .error .osError else .ok ()), 5 * dayUs + 28800 * secUs, en, fun _ _ => 5⟩
private def zNow : Int := 5 * dayUs + 28800 * secUs
private def zInp (g : Nat) : OptInputs Nat := { gateCtor := .ok g, now := zNow }
private def zOpts1 : Opts := { accountNo := some c!"1" }
private def zOpts2 : Opts where
  marketPeriod := some (.seq [.seq [.text c!"9:30:00", .text c!"09:31:00"]])
  syncBalance := some false
  syncInternal := some (.ok (60 * secUs))
  syncPeriod := some (.seq [.seq [.text c!"09:31:00", .text c!"09:31:00"]])
  accountNo := some c!"2"
private def zProg : InitProg Nat Int Nat :=
  .runDaily ⟨1, some c!"f", true⟩ c!"close" fun _ => .setOptions zOpts1 (zInp 0) fun _ _ => .setOptions zOpts1 (zInp 9) fun _ _ =>
    .setOptions zOpts2 (zInp 50) fun _ _ => .runDaily ⟨2, some c!"g", true⟩ c!"every_minute" fun _ =>
      .call (.order 2 ⟨2021, 3, 4, 9, 0, 0, 0⟩ c!"000001.XSHE" (.int 100) .falsy .falsy) fun _ _ => .done 70 none
private def zTimer1 : TimerSetup := ⟨zNow, 30 * secUs, [(34230 * secUs, 34260 * secUs)]⟩
private def zTimer2 : TimerSetup := ⟨zNow, 60 * secUs, [(34260 * secUs, 34260 * secUs)]⟩
private def zT (c : Opts × OptInputs Nat) : TimerSetup := if c.1.syncBalance = none then zTimer1 else zTimer2
private def zEnd : Int := 6 * dayUs + 43200 * secUs
private def zFns : Nat → Nat → Ctx Nat Int → Prog Nat Int Nat
  | 7, m, _ => .call (.order m ⟨2021, 3, 4, 9, 0, 0, 0⟩ c!"000001.XSHE" (.int 100) .falsy .falsy) fun _ _ => .done (m + 1) none
  | _, m, _ => .done m none

/-- The hypotheses are met … -/
example (en : Option Int) (hen : en = none ∨ en = some zEnd) : (∃ s m, zProg.run (zEnv en) ((zEnv en).entered 0) = some (s, m, none)) ∧
    zProg.timerCalls (zEnv en) ((zEnv en).entered 0) = [(zOpts1, zInp 0), (zOpts2, zInp 50)] ∧
    (∀ c ∈ zProg.timerCalls (zEnv en) ((zEnv en).entered 0), TimerFrom (zEnv en) c.1 c.2.now (zT c)) ∧
    MarketAfter (zEnv en) (zProg.optionCalls (zEnv en) ((zEnv en).entered 0)) [(34200 * secUs, 34260 * secUs)] ∧
    zProg.tasks (zEnv en) ((zEnv en).entered 0) = [⟨c!"f", c!"close+0m"⟩, ⟨c!"g", c!"every_minute"⟩] ∧
    zProg.syncCalls (zEnv en) ((zEnv en).entered 0) = [.account 0, .account 1, .account 5] := by
  have hc : zProg.timerCalls (zEnv en) ((zEnv en).entered 0) = [(zOpts1, zInp 0), (zOpts2, zInp 50)] := by
    rcases hen with rfl | rfl <;> rfl
  have hin : ∀ a : Int, 0 ≤ a → a ≤ 34260 * secUs → PeriodsInDay [(a, 34260 * secUs)] := by
    intro a h1 h2 q hq
    simp only [List.mem_singleton] at hq
    subst hq
    simp only [secUs] at h2
    simp only [dayUs, secUs]
    omega
  refine ⟨?_, hc, ?_, ?_, ?_, ?_⟩
  · have h1 : ((zProg.run (zEnv en) ((zEnv en).entered 0)).map (·.2.2)) = some none := by
      rcases hen with rfl | rfl <;> decide +kernel
    cases hr : zProg.run (zEnv en) ((zEnv en).entered 0) with
    | none => rw [hr] at h1; cases h1
    | some x =>
      obtain ⟨s, m, e⟩ := x
      rw [hr] at h1
      simp only [Option.map_some, Option.some.injEq] at h1
      subst h1
      exact ⟨s, m, rfl⟩
  · rw [hc]
    intro c hm
    simp only [List.mem_cons, List.not_mem_nil, or_false] at hm
    rcases hm with rfl | rfl
    · exact ⟨rfl, Or.inr ⟨rfl, rfl⟩, Or.inl (.configured rfl), by decide, hin _ (by decide) (by decide), by decide⟩
    · exact ⟨rfl, Or.inl rfl, Or.inl (.given ((convPairs_iff _ _).1 (by decide +kernel))), by decide, hin _ (by decide) (by decide),
        by decide⟩
  · refine Or.inl ⟨[(zOpts1, zInp 0), (zOpts1, zInp 9)], zOpts2, zInp 50, [], ?_, ⟨{ zOpts2 with
      marketPeriod := some (.ofPeriods [(34200 * secUs, 34260 * secUs)])
      syncPeriod := some (.ofPeriods [(34260 * secUs, 34260 * secUs)]) }, (parse_iff _ _).1 (by decide +kernel)⟩, by simp,
      .given ((convPairs_iff _ _).1 (by decide +kernel))⟩
    rcases hen with rfl | rfl <;> rfl
  · rcases hen with rfl | rfl <;> rfl
  · rcases hen with rfl | rfl <;> rfl

set_option synthInstance.maxHeartbeats 200000 in
set_option synthInstance.maxSize 1000 in
/-- … and the run. -/
example : ((zEnv (some zEnd)).start (some zProg) 0 [(c!"f", 7), (c!"g", 8)] zFns 5 (fun _ => zNow)).bind (fun x =>
      (x.1.run (runExec x.2.1) (.wakeNotify :: (List.range 12).flatMap (fun _ => [.pop, .clock 700000000 []]) ++ [.pop])).map fun s =>
        (x.2.2.isNone, s.halted, s.fired.map (·.1.data), s.world.st.mem, s.world.st.ctx.acct.map fun a => (a.gate, dkeys a.orders),
          s.world.st.olds.map (·.gate))) =
    some (true, true, [3, 0, 1, 0, 3, 2, 3, 0, 1, 0, 3, 2], 72, some (11356, [c!"2", c!"70", c!"71"]), [11256, 10009]) := by
  decide +kernel

end Jq
