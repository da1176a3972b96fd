import Verif.Lemmas.NoAccount
import Verif.Props.C78_Startup
/-!
# C78 without an account

`set_options` is not called, or does not ask for an account: the process runs its tasks and nothing else.
-/
namespace Jq
variable {γ ν μ : Type} [PyNum ν]

private theorem start_noAccount (E : StartEnv γ ν) (p : InitProg γ ν μ) (m0 : μ) (s : StartSt γ ν μ) (m : μ) (W : NoAccountInit E p m0 s m)
    (mqs : Periods) (hm : MarketAfter E (p.optionCalls E (E.entered m0)) mqs)
    (ns : Dict Str Nat) (fns : Nat → μ → Ctx γ ν → Prog γ ν μ) (today : Int) (nows : Nat → Int) (s1 : SchedSt)
    (hsched : SchedSt.schedule E.fuel today mqs ns (p.tasks E (E.entered m0)) {} = some s1)
    (l0 : LoopSt (RunW (PSt γ ν μ)) Nat PyErr)
    (hl0 : runStart ⟨E.ecfg mqs, E.fuel, s1.bus, s1.classes, E.dates, procAct E.G E.udig fns⟩ 0
      (taskSources (E.ecfg mqs) (some E.ctxStart) E.ctxEnd nows s1.sources) (runEmpty ⟨⟨false, none⟩, m, []⟩) = (l0, none))
    (hh0 : l0.world.hung = false) :
    E.start (some p) m0 ns fns today nows =
      some (l0, ⟨E.ecfg mqs, E.fuel, s1.bus, s1.classes, E.dates, procAct E.G E.udig fns⟩, none) := by
  obtain ⟨s', m', e', h1, h2, h3, h4, h5, h6, h7, h8⟩ := init_noAccount E p (E.entered m0) rfl rfl rfl W.none
  have hr := W.runs
  rw [h1] at hr
  simp only [Option.some.injEq, Prod.mk.injEq] at hr
  obtain ⟨rfl, rfl, rfl⟩ := hr
  have hmk := marketAfter_kept hm
  have ho : s'.strat.options = optionsAfter {} (p.optionCalls E (E.entered m0)) := h7
  have hfe : (E.cfg.market s'.strat.options).forEntries = mqs := by rw [ho, hmk, forEntries_ofPeriods]
  have hs : s'.strat.schedules = p.tasks E (E.entered m0) := h6
  have hc : s'.sched = {} := h3
  have hsc : SchedSt.scheduleOf E.fuel today (E.cfg.market s'.strat.options) ns s'.strat.schedules s'.sched = some (s1, .ok ()) := by
    rw [hs, hc, ho, hmk, scheduleOf_ofPeriods, hsched]; rfl
  simp only [StartEnv.start]
  rw [show ({ E.fresh m0 with strat := { (E.fresh m0).strat with allowed := true } } : StartSt γ ν μ) = E.entered m0 from rfl, h1]
  simp only [hsc]
  have hlp : ({ s'.loop with world := { s'.loop.world with st := ⟨s'.ctx, m', s'.olds⟩ } } : LoopSt (RunW (PSt γ ν μ)) Nat PyErr) =
      runEmpty ⟨⟨false, none⟩, m', []⟩ := by
    rw [h4, h2, h8]; rfl
  have h50 : s'.sources = 0 := h5
  rw [hfe, hlp, h50, hl0]
  simp only [hh0, Bool.false_eq_true, if_false]

private theorem afterInit_empty : AfterInit ({} : SchedSt) := ⟨rfl, rfl, by decide, by decide⟩

/-- C78 with an end date, when no account is asked for.  `process_initialize` may do anything: calls of the account API are refused,
any number of calls of `set_options` may succeed or fail.  The process starts its loop, the tasks that were added run at the times
that they ask for, by the trading periods given last or configured; there never is an account; and if the loop ends by itself and no
function of the user raised, nothing has been left out. -/
theorem c78_no_account_with_end (E : StartEnv γ ν) (p : InitProg γ ν μ) (m0 : μ) (s : StartSt γ ν μ) (m : μ) (W : NoAccountInit E p m0 s m)
    (mqs : Periods) (hm : MarketAfter E (p.optionCalls E (E.entered m0)) mqs) (hin : PeriodsInDay mqs) (hsec : WholeSeconds mqs)
    (ts : List TaskDesc) (hts : ts = p.tasks E (E.entered m0))
    (ns : Dict Str Nat) (fn : Nat → Nat) (hfn : ∀ i (hi : i < ts.length), dget ns ts[i].name = some (fn i))
    (os : Nat → List Int) (hos : ∀ i (hi : i < ts.length), TaskTimes mqs ts[i] (os i))
    (endT : Int) (hend : E.ctxEnd = some endT) (fns : Nat → μ → Ctx γ ν → Prog γ ν μ) (today : Int) (nows : Nat → Int)
    (hf1 : (mqs.flatMap (stepTimes minUs)).length < E.fuel)
    (hf2 : ∀ i, i < ts.length → (endT / dayUs - effectiveStart (E.ecfg mqs) (some E.ctxStart) (nows i) / dayUs + 1).toNat + 1 ≤ E.fuel) :
    let st : Nat → Int := fun i => effectiveStart (E.ecfg mqs) (some E.ctxStart) (nows i)
    let due : Nat → List Int := fun j => dueTimes (st j) (some endT) (os j) (st j / dayUs) (endT / dayUs)
    ∃ l0 R, E.start (some p) m0 ns fns today nows = some (l0, R, none) ∧
      ∀ ls s, l0.run (runExec R) ls = some s → (∀ l ∈ ls, l.isInternal = true) →
        RunsAsDue (procAct E.G E.udig fns) ⟨⟨false, none⟩, m, []⟩ ts.length (srcPrio [] ts) (fun i => [.user i (some (fn i))]) due s ∧
        InOrder (srcPrio [] ts) s ∧ s.world.st.ctx = ⟨false, none⟩ ∧
        ((∀ l ∈ ls, l.isQuiet = true) → NeverRaise E.G E.udig fns → s.halted = true → ∀ j, j < ts.length → firingsOf s j = due j) := by
  intro st due
  obtain ⟨s1, hsched⟩ := schedule_some E.fuel today mqs ns hf1 ts {}
  obtain ⟨l0, hl0, hrun⟩ := c63_run_with_end (E.ecfg mqs) E.fuel E.fuel today ns ts {} s1 afterInit_empty hsched hin hsec fn hfn os hos
    [] E.ctxStart (some E.ctxStart) endT (by simp) (by simp) nows E.dates (procAct E.G E.udig fns) (⟨⟨false, none⟩, m, []⟩ : PSt γ ν μ)
    (fun cb hcb => by simp [Bus.emit] at hcb) (by simp) hf2
  simp only [List.map_nil, List.nil_append, List.length_nil, Nat.zero_add] at hl0 hrun
  have hh0 : l0.world.hung = false := (hrun [] l0 rfl (by simp)).1.returns
  refine ⟨l0, _, start_noAccount E p m0 s m W mqs hm ns fns today nows s1 (by rw [← hts]; exact hsched) l0 (by rw [hend]; exact hl0) hh0, ?_⟩
  intro ls t ht hl
  obtain ⟨h1, h2, h3⟩ := hrun ls t ht hl
  refine ⟨h1, h2, ?_, fun hq hnr hh => h3 hq (fun i hi a => hnr (fn i) a.mem a.ctx) hh⟩
  rw [h1.state]
  exact calls_off _ _ _ _ _ rfl

/-- The same in live mode. -/
theorem c78_no_account_live (E : StartEnv γ ν) (p : InitProg γ ν μ) (m0 : μ) (s : StartSt γ ν μ) (m : μ) (W : NoAccountInit E p m0 s m)
    (mqs : Periods) (hm : MarketAfter E (p.optionCalls E (E.entered m0)) mqs) (hin : PeriodsInDay mqs) (hsec : WholeSeconds mqs)
    (ts : List TaskDesc) (hts : ts = p.tasks E (E.entered m0))
    (ns : Dict Str Nat) (fn : Nat → Nat) (hfn : ∀ i (hi : i < ts.length), dget ns ts[i].name = some (fn i))
    (os : Nat → List Int) (hos : ∀ i (hi : i < ts.length), TaskTimes mqs ts[i] (os i))
    (hlive : E.cfg.historyStart = false) (hcount : 1 ≤ E.cfg.count)
    (hend : E.ctxEnd = none) (fns : Nat → μ → Ctx γ ν → Prog γ ν μ) (today : Int) (nows : Nat → Int)
    (hne : ∀ j, j < ts.length → ∀ p q, dueTimes (nows j) none (os j) (E.dates p q) (E.dates p q + E.cfg.count - 1) ≠ [])
    (hf1 : (mqs.flatMap (stepTimes minUs)).length < E.fuel) (hf3 : 2 * E.cfg.count + 2 ≤ E.fuel) :
    let due : List Int → Nat → List Int := fun ws j => windowsDue E.cfg.count (nows j) (os j) ws
    ∃ l0 R, E.start (some p) m0 ns fns today nows = some (l0, R, none) ∧
      ∀ ls s, l0.run (runExec R) ls = some s → (∀ l ∈ ls, l.isInternal = true) →
        s.world.st.ctx = ⟨false, none⟩ ∧
        ∃ ws : Nat → List Int, (∀ j, ∀ w ∈ ws j, ∃ p q, w = E.dates p q) ∧
          (∀ j, j < ts.length → (firingsOf s j).length < (due [E.dates j 0] j).length → ws j = []) ∧
          RunsAsDue (procAct E.G E.udig fns) ⟨⟨false, none⟩, m, []⟩ ts.length (srcPrio [] ts) (fun i => [.user i (some (fn i))])
            (fun j => due (E.dates j 0 :: ws j) j) s ∧
          ((∀ j, j < ts.length → (E.dates j 0 :: ws j).Pairwise fun v w : Int => v + E.cfg.count ≤ w) → InOrder (srcPrio [] ts) s) := by
  intro due
  obtain ⟨s1, hsched⟩ := schedule_some E.fuel today mqs ns hf1 ts {}
  obtain ⟨l0, hl0, hrun⟩ := c63_live_run (E.ecfg mqs) ⟨hlive, hcount⟩ E.fuel E.fuel today ns ts {} s1 afterInit_empty hsched hin hsec fn hfn os hos
    [] E.ctxStart (some E.ctxStart) (by simp) (by simp) nows E.dates (procAct E.G E.udig fns) (⟨⟨false, none⟩, m, []⟩ : PSt γ ν μ)
    (fun cb hcb => by simp [Bus.emit] at hcb) (fun j hj => hne j (by simpa using hj)) hf3
  simp only [List.map_nil, List.nil_append, List.length_nil, Nat.zero_add] at hl0 hrun
  have hh0 : l0.world.hung = false := by
    obtain ⟨_, _, _, h, _⟩ := hrun [] l0 rfl (by simp)
    exact h.returns
  refine ⟨l0, _, start_noAccount E p m0 s m W mqs hm ns fns today nows s1 (by rw [← hts]; exact hsched) l0 (by rw [hend]; exact hl0) hh0, ?_⟩
  intro ls t ht hl
  obtain ⟨ws, h1, h2, h3, h4⟩ := hrun ls t ht hl
  refine ⟨?_, ws, h1, h2, h3, h4⟩
  rw [h3.state]
  exact calls_off _ _ _ _ _ rfl

/-! ### A concrete case

The configuration asks for an account, both calls say that there is none; the second cannot be understood, and is caught. -/

private def yEnv (en : Option Int) : StartEnv Nat Int :=
  ⟨⟨false, 365, .ofPeriods [(0, 60 * secUs)], true, true, true, .error .valueError, .falsy⟩, 1000,
    ⟨fun g _ => (g, .ok ()), fun g _ => (g, .ok ()), fun g => (g + 1, .error .runtimeError), fun g => (g + 100, .error .runtimeError)⟩,
    fun _ => false, fun _ g => (g + 10000, .ok ()), 5 * dayUs + 28800 * secUs, en, fun _ _ => 5⟩
private def yOpts : Opts := { useAccount := some false, marketPeriod := some (.seq [.seq [.text c!"9:30:00", .text c!"09:31:00"]]) }
private def yBad : Opts := { useAccount := some false, marketPeriod := some .scalar }
private def yInp : OptInputs Nat := { gateCtor := .ok 0, now := 0 }
private def yProg : InitProg Nat Int Nat :=
  .setOptions yOpts yInp fun _ _ => .call .syncOrders fun _ _ => .runDaily ⟨1, some c!"f", true⟩ c!"close" fun _ =>
    .setOptions yBad yInp fun _ _ => .runDaily ⟨2, some c!"g", true⟩ c!"every_minute" fun _ => .done 70 none
private def yEnd : Int := 6 * dayUs + 43200 * secUs
private def yFns : Nat → Nat → Ctx Nat Int → Prog Nat Int Nat
  | 7, m, _ => .call .syncOrders fun _ _ => .done (m + 1) none
  | _, m, _ => .done m none

example : (∃ s m, NoAccountInit (yEnv (some yEnd)) yProg 0 s m) ∧
    MarketAfter (yEnv (some yEnd)) (yProg.optionCalls (yEnv (some yEnd)) ((yEnv (some yEnd)).entered 0)) [(34200 * secUs, 34260 * secUs)] ∧
    yProg.tasks (yEnv (some yEnd)) ((yEnv (some yEnd)).entered 0) = [⟨c!"f", c!"close+0m"⟩, ⟨c!"g", c!"every_minute"⟩] := by
  refine ⟨?_, Or.inl ⟨[], yOpts, yInp, [(yBad, yInp)], rfl, ⟨{ yOpts with marketPeriod := some (.ofPeriods [(34200 * secUs, 34260 * secUs)]) },
    (parse_iff _ _).1 (by decide +kernel)⟩, ?_, .given ((convPairs_iff _ _).1 (by decide +kernel))⟩, by decide +kernel⟩
  · have h1 : ((yProg.run (yEnv (some yEnd)) ((yEnv (some yEnd)).entered 0)).map (·.2.2)) = some none := by decide +kernel
    cases hr : yProg.run (yEnv (some yEnd)) ((yEnv (some yEnd)).entered 0) with
    | none => rw [hr] at h1; cases h1
    | some x =>
      obtain ⟨s, m, e⟩ := x
      rw [hr] at h1
      simp only [Option.map_some, Option.some.injEq] at h1
      subst h1
      refine ⟨s, m, hr, ?_⟩
      intro c hc
      have : yProg.optionCalls (yEnv (some yEnd)) ((yEnv (some yEnd)).entered 0) = [(yOpts, yInp), (yBad, yInp)] := rfl
      rw [this] at hc
      simp only [List.mem_cons, List.not_mem_nil, or_false] at hc
      rcases hc with rfl | rfl <;> rfl
  · intro c hc
    simp only [List.mem_singleton] at hc
    subst hc
    rintro ⟨o', hk⟩
    have hm := hk.market
    generalize o'.marketPeriod = w at hm
    simp only [yBad] at hm
    cases hm with
    | some h => cases h

/-- … and the run: the function at the close is called on both days, the other one twice on each. -/
example : ((yEnv (some yEnd)).start (some yProg) 0 [(c!"f", 7), (c!"g", 8)] yFns 5 (fun _ => 5 * dayUs + 28800 * secUs)).bind (fun x =>
      (x.1.run (runExec x.2.1) (.wakeNotify :: (List.range 6).flatMap (fun _ => [.pop, .clock 700000000 []]) ++ [.pop])).map fun s =>
        (x.2.2, s.halted, s.fired.map (·.1.data), s.world.st.mem, s.world.st.ctx.acct.isNone)) =
    some (none, true, [1, 1, 0, 1, 1, 0], 72, true) := by
  decide +kernel

end Jq
