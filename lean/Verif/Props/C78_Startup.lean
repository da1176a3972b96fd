import Verif.Lemmas.Startup
import Verif.Props.C65_Process
/-!
# C78: from `process_initialize` to the whole run
-/
namespace Jq
variable {γ ν μ : Type} [PyNum ν]

omit [PyNum ν] in
private theorem want_need (E : StartEnv γ ν) {o o' : Opts} (hk : KeptOptions o o') :
    E.cfg.needBalance o' = wantBalance E o ∧ E.cfg.needOrders o' = wantOrders E o := by
  simp only [ProcCfg.needBalance, ProcCfg.needOrders, wantBalance, wantOrders, hk.same.2.1, hk.same.2.2.1]
  constructor
  · cases o.syncBalance <;> rfl
  · cases o.syncOrder <;> rfl

/-- The sources of the timers. -/
private def accOf (E : StartEnv γ ν) (o : Opts) (t : TimerSetup) (src : ESrc Str) : Option (TimerSetup × ESrc Str) :=
  if wantBalance E o || wantOrders E o then some (t, src) else none

/-- If the timer and, after `process_initialize`, everything can be scheduled on an empty loop, the process starts. -/
private theorem start_works (E : StartEnv γ ν) (p : InitProg γ ν μ) (m0 : μ) (o o' : Opts) (inp : OptInputs γ) (g : γ) (s : StartSt γ ν μ)
    (m : μ) (W : WorkingInit E p m0 o o' inp g s m) (mqs : Periods) (hm : E.cfg.market o' = .ofPeriods mqs)
    (acc : Option (TimerSetup × ESrc Str)) (hacc0 : acc.isSome = (wantBalance E o || wantOrders E o))
    (hacc : ∀ x ∈ acc, E.timerSource o' inp.now = some (.ok x.2) ∧ x.2.AllOf accEvent)
    (ns : Dict Str Nat) (fns : Nat → μ → Ctx γ ν → Prog γ ν μ) (today : Int) (nows : Nat → Int) (s1 : SchedSt)
    (hsched : SchedSt.schedule E.fuel today mqs ns (p.tasks E (E.entered m0))
      (SchedSt.accountSetup 0 (wantBalance E o) (wantOrders E o) {}) = some s1)
    (lt : LoopSt (RunW (PSt γ ν μ)) Nat PyErr)
    (hlt : runStart ⟨E.ecfg mqs, E.fuel, (SchedSt.accountSetup 0 (wantBalance E o) (wantOrders E o) {}).bus,
      (SchedSt.accountSetup 0 (wantBalance E o) (wantOrders E o) {}).classes, E.dates, fun _ p => (p, none)⟩ 0
      (acc.toList.map fun x => (x.2, .ok ())) (runEmpty ⟨⟨false, none⟩, m0, []⟩) = (lt, none)) (hht : lt.world.hung = false)
    (l0 : LoopSt (RunW (PSt γ ν μ)) Nat PyErr)
    (hl0 : runStart ⟨E.ecfg mqs, E.fuel, s1.bus, s1.classes, E.dates, procAct E.G E.udig fns⟩ 0
      (acc.toList.map (fun x => (x.2, .ok ())) ++ taskSources (E.ecfg mqs) (some E.ctxStart) E.ctxEnd nows s1.sources)
      (runEmpty ⟨⟨true, some (initialAccount E p m0 o o' g)⟩, m, []⟩) = (l0, none)) (hh0 : l0.world.hung = false) :
    E.start (some p) m0 ns fns today nows =
      some (l0, ⟨E.ecfg mqs, E.fuel, s1.bus, s1.classes, E.dates, procAct E.G E.udig fns⟩, none) := by
  obtain ⟨w1, w2⟩ := want_need E W.kept
  have hfe : (E.cfg.market o').forEntries = mqs := by rw [hm, forEntries_ofPeriods]
  obtain ⟨i1, i2, i3, i4, i5, i6, i7⟩ := init_works E p m0 o o' inp g s m W acc (by rw [hacc0, w1, w2]) (fun x hx => (hacc x hx).1) lt
    (by rw [StartEnv.timerEnv, hfe, w1, w2]; exact hlt) hht
  rw [w1, w2] at i3 i4
  have hacct : s.ctx = ⟨true, some (initialAccount E p m0 o o' g)⟩ := by
    rw [i4, StartEnv.account, initialAccount, Acct.run_append]
  have hruns := W.runs
  have hsc : SchedSt.scheduleOf E.fuel today (E.cfg.market s.strat.options) ns s.strat.schedules s.sched = some (s1, .ok ()) := by
    rw [i1, i2, i3, hm, scheduleOf_ofPeriods, hsched]; rfl
  have htail : runStart ⟨E.ecfg mqs, E.fuel, s1.bus, s1.classes, E.dates, procAct E.G E.udig fns⟩ s.sources
      (taskSources (E.ecfg mqs) (some E.ctxStart) E.ctxEnd nows s1.sources)
      { s.loop with world := { s.loop.world with st := ⟨s.ctx, m, s.olds⟩ } } = (l0, none) := by
    rw [i5, i6, i7, ← hl0]
    have h2 := runStart_st ⟨E.ecfg mqs, E.fuel, (SchedSt.accountSetup 0 (wantBalance E o) (wantOrders E o) {}).bus,
      (SchedSt.accountSetup 0 (wantBalance E o) (wantOrders E o) {}).classes, E.dates, fun _ p => (p, none)⟩
      (acc.toList.map fun x => (x.2, .ok ())) (⟨s.ctx, m, []⟩ : PSt γ ν μ) 0 (runEmpty ⟨⟨false, none⟩, m0, []⟩)
    rw [hlt] at h2
    have h3 : runStart ⟨E.ecfg mqs, E.fuel, s1.bus, s1.classes, E.dates, procAct E.G E.udig fns⟩ 0
        (acc.toList.map fun x => (x.2, .ok ())) (runEmpty (⟨s.ctx, m, []⟩ : PSt γ ν μ)) = (setSt lt ⟨s.ctx, m, []⟩, none) := by
      refine Eq.trans ?_ h2
      cases acc with
      | none => rfl
      | some x =>
        simp only [Option.isSome_some] at hacc0
        refine runStart_congr
          (R := ⟨E.ecfg mqs, E.fuel, s1.bus, s1.classes, E.dates, procAct E.G E.udig fns⟩)
          (R' := ⟨E.ecfg mqs, E.fuel, (SchedSt.accountSetup 0 (wantBalance E o) (wantOrders E o) {}).bus,
            (SchedSt.accountSetup 0 (wantBalance E o) (wantOrders E o) {}).classes, E.dates, fun _ p => (p, none)⟩)
          (c := accEvent) rfl rfl rfl ?_ 0 x.2 (hacc x rfl).2 (runEmpty ⟨s.ctx, m, []⟩)
        have hc := accountSetup_class _ _ hacc0.symm
        exact (c12_keeps_classes _ _ _ _ _ _ _ (accountSetup_init _ _) hsched accEvent 2 hc).trans hc.symm
    rw [← hacct, runStart_append _ _ _ _ _ _ h3]
    simp only [List.length_map, Nat.zero_add]
    rfl
  simp only [StartEnv.start]
  rw [show ({ E.fresh m0 with strat := { (E.fresh m0).strat with allowed := true } } : StartSt γ ν μ) = E.entered m0 from rfl, hruns]
  simp only [hsc]
  rw [i1, hfe, htail]
  simp only [hh0, Bool.false_eq_true, if_false]

omit [PyNum ν] in
private theorem timers_acc (E : StartEnv γ ν) (o : Opts) (t : TimerSetup) (src : ESrc Str) :
    (accOf E o t src).toList.map (·.1) = timersOf E o t ∧ (accOf E o t src).isSome = (wantBalance E o || wantOrders E o) := by
  simp only [accOf, timersOf]
  cases wantBalance E o || wantOrders E o <;> exact ⟨rfl, rfl⟩

/-- C78 with an end date.  `process_initialize` may do anything as long as it works; then the process starts its loop, with an
account that is new, set up, synchronised and has undergone what `process_initialize` did to it.  From then on, whatever the clock
reads and whatever the gate answers or raises, the tasks that `process_initialize` added run at the times that they ask for, by the
trading periods given or configured; the account is synchronised at the times of the timer given or configured, before the tasks
that are due at the same time; and if the loop ends by itself and no function of the user raised, nothing has been left out. -/
theorem c78_process_with_end (E : StartEnv γ ν) (p : InitProg γ ν μ) (m0 : μ) (o o' : Opts) (inp : OptInputs γ) (g : γ) (s : StartSt γ ν μ)
    (m : μ) (W : WorkingInit E p m0 o o' inp g s m)
    (mqs : Periods) (hm : PeriodsFrom E.cfg.marketPeriod o.marketPeriod mqs) (hin : PeriodsInDay mqs) (hsec : WholeSeconds mqs)
    (t : TimerSetup) (ht : (wantBalance E o || wantOrders E o) = true → TimerFrom E o inp.now t)
    (ts : List TaskDesc) (hts : ts = p.tasks E (E.entered m0))
    (ns : Dict Str Nat) (fn : Nat → Nat) (hfn : ∀ i (hi : i < ts.length), dget ns ts[i].name = some (fn i))
    (os : Nat → List Int) (hos : ∀ i (hi : i < ts.length), TaskTimes mqs ts[i] (os i))
    (endT : Int) (hend : E.ctxEnd = some endT) (fns : Nat → μ → Ctx γ ν → Prog γ ν μ) (today : Int) (nows : Nat → Int)
    (hf1 : (mqs.flatMap (stepTimes minUs)).length < E.fuel)
    (hf2 : (wantBalance E o || wantOrders E o) = true → t.times.length < E.fuel ∧ (endT / dayUs - E.ctxStart / dayUs + 1).toNat + 1 ≤ E.fuel)
    (hf3 : ∀ i, i < ts.length → (endT / dayUs - effectiveStart (E.ecfg mqs) (some E.ctxStart) (nows i) / dayUs + 1).toNat + 1 ≤ E.fuel) :
    let timers := timersOf E o t
    let a0 := initialAccount E p m0 o o' g
    let p0 : PSt γ ν μ := ⟨⟨true, some a0⟩, m, []⟩
    let st := bySource (timers.map fun _ => E.ctxStart) fun i => effectiveStart (E.ecfg mqs) (some E.ctxStart) (nows i)
    let due : Nat → List Int := fun j => dueTimes (st j) (some endT) (bySource (timers.map TimerSetup.times) os j)
      (st j / dayUs) (endT / dayUs)
    ∃ l0 R, E.start (some p) m0 ns fns today nows = some (l0, R, none) ∧
      ∀ ls s, l0.run (runExec R) ls = some s → (∀ l ∈ ls, l.isInternal = true) →
        RunsAsDue (procAct E.G E.udig fns) p0 (timers.length + ts.length) (srcPrio timers ts)
          (srcCbs timers (accCbs (wantBalance E o) (wantOrders E o)) fn) due s ∧
        InOrder (srcPrio timers ts) s ∧
        (∃ ops, AccountInRun E.G E.udig fns (wantBalance E o) (wantOrders E o) timers fn p0 a0 s ops) ∧
        SyncedBeforeTasks timers.length due s ∧
        ((∀ l ∈ ls, l.isQuiet = true) → NeverRaise E.G E.udig fns → s.halted = true →
          ∀ j, j < timers.length + ts.length → firingsOf s j = due j) := by
  intro timers a0 p0 st due
  have hmk : E.cfg.market o' = .ofPeriods mqs := periodsFrom_kept hm W.kept.market
  obtain ⟨src, hsrc⟩ : ∃ src, (wantBalance E o || wantOrders E o) = true → E.timerSource o' inp.now = some (.ok src) ∧
      src.AllOf accEvent ∧ t.Makes E.ctxStart E.ctxEnd src := by
    by_cases h : (wantBalance E o || wantOrders E o) = true
    · obtain ⟨src, h1⟩ := timer_made W.kept (ht h) (hf2 h).1
      exact ⟨src, fun _ => h1⟩
    · exact ⟨{ start := none, endAt := none }, fun h' => absurd h' h⟩
  obtain ⟨e1, e2⟩ := timers_acc E o t src
  have hacc : ∀ x ∈ accOf E o t src, x = (t, src) ∧ (wantBalance E o || wantOrders E o) = true := by
    intro x hx
    simp only [accOf] at hx
    split at hx
    · rename_i h; exact ⟨(Option.some.inj hx).symm, h⟩
    · cases hx
  obtain ⟨s1, hsched⟩ := schedule_some E.fuel today mqs ns hf1 ts (SchedSt.accountSetup 0 (wantBalance E o) (wantOrders E o) {})
  have hmakes : ∀ x ∈ accOf E o t src, x.1.Makes E.ctxStart (some endT) x.2 := by
    intro x hx
    obtain ⟨rfl, h⟩ := hacc x hx
    rw [← hend]; exact (hsrc h).2.2
  have hfa : (accOf E o t src).isSome → (endT / dayUs - E.ctxStart / dayUs + 1).toNat + 1 ≤ E.fuel := by
    intro h; rw [e2] at h; exact (hf2 h).2
  obtain ⟨lt, hlt, hlt2⟩ := c63_run_with_end (E.ecfg mqs) E.fuel E.fuel today ns [] _ _
    (accountSetup_init (wantBalance E o) (wantOrders E o)) rfl hin hsec (fun _ => 0) (by simp) (fun _ => []) (by simp)
    (accOf E o t src).toList E.ctxStart (some E.ctxStart) endT (fun x hx => hmakes x (Option.mem_toList.1 hx))
    (fun h => accountSetup_class _ _ (by rw [← e2]; cases hx : accOf E o t src <;> simp_all)) nows E.dates (fun _ p => (p, none))
    (⟨⟨false, none⟩, m0, []⟩ : PSt γ ν μ)
    (fun cb hcb => ⟨((accountSetup_silent E.G E.udig fns _ _) cb hcb).1, fun _ => rfl⟩)
    (fun h => hfa (by cases hx : accOf E o t src <;> simp_all)) (by simp)
  have hsrcs : (SchedSt.accountSetup 0 (wantBalance E o) (wantOrders E o) {}).sources = [] := (accountSetup_init _ _).2.1
  rw [hsrcs] at hlt
  simp only [taskSources, List.mapIdx_nil, List.append_nil] at hlt
  obtain ⟨l0, hl0, hrun⟩ := c65_process_with_end E.G E.udig fns (wantBalance E o) (wantOrders E o) p0 a0 rfl rfl (E.ecfg mqs) E.fuel E.fuel
    today ns ts s1 hsched hin hsec fn hfn os hos (accOf E o t src) E.ctxStart (some E.ctxStart) endT e2 hmakes nows E.dates hfa hf3
  have hh0 : l0.world.hung = false := (hrun [] l0 rfl (by simp)).1.returns
  have hht : lt.world.hung = false := (hlt2 [] lt rfl (by simp)).1.returns
  refine ⟨l0, _, start_works E p m0 o o' inp g s m W mqs hmk (accOf E o t src) e2
    (fun x hx => by obtain ⟨rfl, h⟩ := hacc x hx; exact ⟨(hsrc h).1, (hsrc h).2.1⟩) ns fns today nows s1 (by rw [← hts]; exact hsched) lt hlt hht
    l0 (by rw [hend]; exact hl0) hh0, ?_⟩
  rw [e1] at hrun
  exact hrun

/-- C78 in live mode (what `start_task` runs), for ever, with the windows of C63. -/
theorem c78_process_live (E : StartEnv γ ν) (p : InitProg γ ν μ) (m0 : μ) (o o' : Opts) (inp : OptInputs γ) (g : γ) (s : StartSt γ ν μ)
    (m : μ) (W : WorkingInit E p m0 o o' inp g s m)
    (mqs : Periods) (hm : PeriodsFrom E.cfg.marketPeriod o.marketPeriod mqs) (hin : PeriodsInDay mqs) (hsec : WholeSeconds mqs)
    (t : TimerSetup) (ht : (wantBalance E o || wantOrders E o) = true → TimerFrom E o inp.now t)
    (ts : List TaskDesc) (hts : ts = p.tasks E (E.entered m0))
    (ns : Dict Str Nat) (fn : Nat → Nat) (hfn : ∀ i (hi : i < ts.length), dget ns ts[i].name = some (fn i))
    (os : Nat → List Int) (hos : ∀ i (hi : i < ts.length), TaskTimes mqs ts[i] (os i))
    (hlive : E.cfg.historyStart = false) (hcount : 1 ≤ E.cfg.count)
    (hend : E.ctxEnd = none) (fns : Nat → μ → Ctx γ ν → Prog γ ν μ) (today : Int) (nows : Nat → Int)
    (hne : ∀ j, j < (timersOf E o t).length + ts.length → ∀ p q,
      dueTimes (bySource ((timersOf E o t).map fun _ => E.ctxStart) nows j) none
        (bySource ((timersOf E o t).map TimerSetup.times) os j) (E.dates p q) (E.dates p q + E.cfg.count - 1) ≠ [])
    (hf1 : (mqs.flatMap (stepTimes minUs)).length < E.fuel)
    (hf2 : (wantBalance E o || wantOrders E o) = true → t.times.length < E.fuel) (hf3 : 2 * E.cfg.count + 2 ≤ E.fuel) :
    let timers := timersOf E o t
    let a0 := initialAccount E p m0 o o' g
    let p0 : PSt γ ν μ := ⟨⟨true, some a0⟩, m, []⟩
    let st := bySource (timers.map fun _ => E.ctxStart) nows
    let due : List Int → Nat → List Int := fun ws j => windowsDue E.cfg.count (st j) (bySource (timers.map TimerSetup.times) os j) ws
    ∃ l0 R, E.start (some p) m0 ns fns today nows = some (l0, R, none) ∧
      ∀ ls s, l0.run (runExec R) ls = some s → (∀ l ∈ ls, l.isInternal = true) →
        ∃ ws : Nat → List Int, (∀ j, ∀ w ∈ ws j, ∃ p q, w = E.dates p q) ∧
          (∀ j, j < timers.length + ts.length → (firingsOf s j).length < (due [E.dates j 0] j).length → ws j = []) ∧
          RunsAsDue (procAct E.G E.udig fns) p0 (timers.length + ts.length) (srcPrio timers ts)
            (srcCbs timers (accCbs (wantBalance E o) (wantOrders E o)) fn) (fun j => due (E.dates j 0 :: ws j) j) s ∧
          (∃ ops, AccountInRun E.G E.udig fns (wantBalance E o) (wantOrders E o) timers fn p0 a0 s ops) ∧
          ((∀ j, j < timers.length + ts.length → (E.dates j 0 :: ws j).Pairwise fun v w : Int => v + E.cfg.count ≤ w) →
            InOrder (srcPrio timers ts) s ∧ SyncedBeforeTasks timers.length (fun j => due (E.dates j 0 :: ws j) j) s) := by
  intro timers a0 p0 st due
  have hmk : E.cfg.market o' = .ofPeriods mqs := periodsFrom_kept hm W.kept.market
  obtain ⟨src, hsrc⟩ : ∃ src, (wantBalance E o || wantOrders E o) = true → E.timerSource o' inp.now = some (.ok src) ∧
      src.AllOf accEvent ∧ t.Makes E.ctxStart E.ctxEnd src := by
    by_cases h : (wantBalance E o || wantOrders E o) = true
    · obtain ⟨src, h1⟩ := timer_made W.kept (ht h) (hf2 h)
      exact ⟨src, fun _ => h1⟩
    · exact ⟨{ start := none, endAt := none }, fun h' => absurd h' h⟩
  obtain ⟨e1, e2⟩ := timers_acc E o t src
  have hacc : ∀ x ∈ accOf E o t src, x = (t, src) ∧ (wantBalance E o || wantOrders E o) = true := by
    intro x hx
    simp only [accOf] at hx
    split at hx
    · rename_i h; exact ⟨(Option.some.inj hx).symm, h⟩
    · cases hx
  obtain ⟨s1, hsched⟩ := schedule_some E.fuel today mqs ns hf1 ts (SchedSt.accountSetup 0 (wantBalance E o) (wantOrders E o) {})
  have hmakes : ∀ x ∈ accOf E o t src, x.1.Makes E.ctxStart none x.2 := by
    intro x hx
    obtain ⟨rfl, h⟩ := hacc x hx
    rw [← hend]; exact (hsrc h).2.2
  have hl : (accOf E o t src).toList.length = timers.length := by rw [← List.length_map (f := (·.1)), e1]
  obtain ⟨lt, hlt, hlt2⟩ := c63_live_run (E.ecfg mqs) ⟨hlive, hcount⟩ E.fuel E.fuel today ns [] _ _
    (accountSetup_init (wantBalance E o) (wantOrders E o)) rfl hin hsec (fun _ => 0) (by simp) os (by simp)
    (accOf E o t src).toList E.ctxStart (some E.ctxStart) (fun x hx => hmakes x (Option.mem_toList.1 hx))
    (fun h => accountSetup_class _ _ (by rw [← e2]; cases hx : accOf E o t src <;> simp_all)) nows E.dates (fun _ p => (p, none))
    (⟨⟨false, none⟩, m0, []⟩ : PSt γ ν μ)
    (fun cb hcb => ⟨((accountSetup_silent E.G E.udig fns _ _) cb hcb).1, fun _ => rfl⟩)
    (fun j hj => by
      rw [e1]
      exact hne j (by rw [← hl]; simp only [List.length_nil] at hj; omega)) hf3
  have hsrcs : (SchedSt.accountSetup 0 (wantBalance E o) (wantOrders E o) {}).sources = [] := (accountSetup_init _ _).2.1
  rw [hsrcs] at hlt
  simp only [taskSources, List.mapIdx_nil, List.append_nil] at hlt
  obtain ⟨l0, hl0, hrun⟩ := c65_process_live E.G E.udig fns (wantBalance E o) (wantOrders E o) p0 a0 rfl rfl (E.ecfg mqs) ⟨hlive, hcount⟩
    E.fuel E.fuel today ns ts s1 hsched hin hsec fn hfn os hos (accOf E o t src) E.ctxStart (some E.ctxStart) e2 hmakes nows E.dates
    (fun j hj => by rw [e1]; exact hne j (by rw [← hl]; exact hj)) hf3
  have hh0 : l0.world.hung = false := by
    obtain ⟨_, _, _, h, _⟩ := hrun [] l0 rfl (by simp)
    exact h.returns
  have hht : lt.world.hung = false := by
    obtain ⟨_, _, _, h, _⟩ := hlt2 [] lt rfl (by simp)
    exact h.returns
  refine ⟨l0, _, start_works E p m0 o o' inp g s m W mqs hmk (accOf E o t src) e2
    (fun x hx => by obtain ⟨rfl, h⟩ := hacc x hx; exact ⟨(hsrc h).1, (hsrc h).2.1⟩) ns fns today nows s1 (by rw [← hts]; exact hsched) lt hlt hht
    l0 (by rw [hend]; exact hl0) hh0, ?_⟩
  rw [e1] at hrun
  exact hrun

/-! ### A concrete case

`process_initialize` tries to order before there is an account (refused, and caught), adds a task at the close, gives the trading
periods and the periods of the timer as texts, adds a task of every minute, tries to add something that cannot be called (refused),
and orders.  The configured periods are others. -/

private def xGate : Gate Nat Int :=
  ⟨fun g _ => (g, .ok ()), fun g _ => (g, .ok ()), fun g => (g + 1, .error .runtimeError), fun g => (g + 100, .error .runtimeError)⟩
private def xEnv (en : Option Int) : StartEnv Nat Int :=
  ⟨⟨false, 365, .ofPeriods [(0, 60 * secUs)], true, true, true, .error .valueError, .falsy⟩, 1000, xGate, fun _ => false, fun _ g => (g + 10000, .ok ()),
    5 * dayUs + 28800 * secUs, en, fun _ _ => 5⟩
private def xOpts : Opts where
  marketPeriod := some (.seq [.seq [.text c!"9:30:00", .text c!"09:31:00"]])
  syncInternal := some (.ok (30 * secUs))
  syncPeriod := some (.seq [.seq [.text c!"09:30:30", .time (34260 * secUs)]])
  accountNo := some c!"1"
private def xKept : Opts where
  marketPeriod := some (.ofPeriods [(34200 * secUs, 34260 * secUs)])
  syncInternal := some (.ok (30 * secUs))
  syncPeriod := some (.ofPeriods [(34230 * secUs, 34260 * secUs)])
  accountNo := some c!"1"
private def xInp : OptInputs Nat := { gateCtor := .ok 0, now := 5 * dayUs + 28800 * secUs }
private def xOrder (n : Nat) : ApiCall Int := .order n ⟨2021, 3, 4, 9, 0, 0, 0⟩ c!"000001.XSHE" (.int 100) .falsy .falsy
private def xProg : InitProg Nat Int Nat :=
  .call (xOrder 1) fun _ _ => .runDaily ⟨1, some c!"f", true⟩ c!"close" fun _ => .setOptions xOpts xInp fun _ _ =>
    .runDaily ⟨2, some c!"g", true⟩ c!"every_minute" fun _ => .runDaily ⟨3, some c!"h", false⟩ c!"open" fun _ =>
      .call (xOrder 2) fun _ _ => .done 70 none
private def xTimer : TimerSetup := ⟨5 * dayUs + 28800 * secUs, 30 * secUs, [(34230 * secUs, 34260 * secUs)]⟩
private def xEnd : Int := 6 * dayUs + 43200 * secUs
private def xNs : Dict Str Nat := [(c!"f", 7), (c!"g", 8)]
private def xFns : Nat → Nat → Ctx Nat Int → Prog Nat Int Nat
  | 7, m, _ => .call (xOrder m) fun _ _ => .call .syncOrders fun _ _ => .done (m + 1) none
  | _, m, _ => .done m none

private instance : DecidableEq (Str × Str) := inferInstance

private theorem xWorks (en : Option Int) (hen : en = none ∨ en = some xEnd) : ∃ s m, WorkingInit (xEnv en) xProg 0 xOpts xKept xInp 0 s m := by
  have h : ∃ s m, xProg.run (xEnv en) ((xEnv en).entered 0) = some (s, m, none) := by
    have h1 : ((xProg.run (xEnv en) ((xEnv en).entered 0)).map (·.2.2)) = some none := by
      rcases hen with rfl | rfl <;> decide +kernel
    cases hr : xProg.run (xEnv en) ((xEnv en).entered 0) with
    | none => rw [hr] at h1; cases h1
    | some x =>
      obtain ⟨s, m, e⟩ := x
      rw [hr] at h1
      simp only [Option.map_some, Option.some.injEq] at h1
      subst h1
      exact ⟨s, m, rfl⟩
  obtain ⟨s, m, hr⟩ := h
  refine ⟨s, m, hr, ?_, (parse_iff _ _).1 (by decide +kernel), rfl, rfl, rfl, rfl, rfl, rfl⟩
  rcases hen with rfl | rfl <;> rfl

/-- The hypotheses are met … -/
example : (∃ s m, WorkingInit (xEnv (some xEnd)) xProg 0 xOpts xKept xInp 0 s m) ∧ (∃ s m, WorkingInit (xEnv none) xProg 0 xOpts xKept xInp 0 s m) ∧
    PeriodsFrom (xEnv none).cfg.marketPeriod xOpts.marketPeriod [(34200 * secUs, 34260 * secUs)] ∧
    TimerFrom (xEnv none) xOpts xInp.now xTimer ∧
    xProg.tasks (xEnv (some xEnd)) ((xEnv (some xEnd)).entered 0) = [⟨c!"f", c!"close+0m"⟩, ⟨c!"g", c!"every_minute"⟩] := by
  have g1 : GivenPeriods [.seq [.text c!"9:30:00", .text c!"09:31:00"]] [(34200 * secUs, 34260 * secUs)] :=
    (convPairs_iff _ _).1 (by decide +kernel)
  have g2 : GivenPeriods [.seq [.text c!"09:30:30", .time (34260 * secUs)]] [(34230 * secUs, 34260 * secUs)] :=
    (convPairs_iff _ _).1 (by decide +kernel)
  refine ⟨xWorks _ (Or.inr rfl), xWorks _ (Or.inl rfl), .given g1, ⟨rfl, Or.inl rfl, Or.inl (.given g2), by decide, ?_, by decide⟩, by decide +kernel⟩
  intro p hp
  simp [xTimer] at hp
  subst hp; decide

private def xLabels : List (Label Nat) :=
  .wakeNotify :: (List.range 10).flatMap (fun _ => [.pop, .clock 700000000 []]) ++ [.pop]

/-- … and the run: the order made before the account is refused, the gate is set up once, there is one poll of each kind at
set-up, four by the timer, and two of the orders by the function; one order from `process_initialize` and two from the function. -/
example : ((xEnv (some xEnd)).start (some xProg) 0 xNs xFns 5 (fun _ => 5 * dayUs + 28800 * secUs)).bind (fun x =>
      (x.1.run (runExec x.2.1) xLabels).map fun s => (x.2.2, s.halted, s.fired.map (·.1.data), s.world.st.mem,
        s.world.st.ctx.acct.map fun a => (a.gate, dkeys a.orders))) =
    some (none, true, [2, 0, 0, 2, 1, 2, 0, 0, 2, 1], 72, some (10705, [c!"2", c!"70", c!"71"])) := by
  decide +kernel

end Jq
