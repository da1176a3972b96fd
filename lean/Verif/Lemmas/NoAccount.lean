import Verif.Lemmas.Startup
/-! Lemmas for C78 without an account. -/
namespace Jq
variable {γ ν μ : Type} [PyNum ν]

/-- The options after some calls of `set_options`. -/
def optionsAfter (o0 : Opts) (calls : List (Opts × OptInputs γ)) : Opts :=
  calls.foldl (fun o c => match c.1.parse with | .ok o' => o' | .error _ => o) o0

/-- A call of `set_options` that does not ask for an account changes the options only. -/
theorem setOptions_off (E : StartEnv γ ν) (o : Opts) (inp : OptInputs γ) (s : StartSt γ ν μ) (ha : s.strat.allowed = true)
    (hc : s.strat.setupAccountCfg = E.cfg.setupAccount) (hx : s.ctx.useAccount = false) (hu : o.useAccount.getD E.cfg.setupAccount = false) :
    ∃ ua r, s.setOptions E o inp = some ({ s with strat := { s.strat with options := optionsAfter s.strat.options [(o, inp)], useAccount := ua } }, r) := by
  simp only [StartSt.setOptions, show (!s.strat.allowed) = false by rw [ha]; rfl, Bool.false_eq_true, if_false, optionsAfter, List.foldl_cons, List.foldl_nil]
  cases hp : o.parse with
  | error e => exact ⟨s.strat.useAccount, .error e, rfl⟩
  | ok o' =>
    have hk := (parse_iff _ _).1 hp
    simp only
    cases hm : inp.mkdir with
    | error e => exact ⟨s.strat.useAccount, _, rfl⟩
    | ok u =>
      have hu' : o'.useAccount.getD s.strat.setupAccountCfg = false := by rw [hk.same.1, hc]; exact hu
      simp only [hu', Bool.false_eq_true, if_false]
      refine ⟨some false, .ok (), ?_⟩
      rw [show ({ s.ctx with useAccount := false } : Ctx γ ν) = s.ctx by rw [← hx]]

theorem init_noAccount (E : StartEnv γ ν) (p : InitProg γ ν μ) : ∀ s : StartSt γ ν μ, s.strat.allowed = true →
    s.strat.setupAccountCfg = E.cfg.setupAccount → s.ctx.useAccount = false →
    (∀ c ∈ p.optionCalls E s, c.1.useAccount.getD E.cfg.setupAccount = false) →
    ∃ s' m e, p.run E s = some (s', m, e) ∧ s'.ctx = s.ctx ∧ s'.sched = s.sched ∧ s'.loop = s.loop ∧ s'.sources = s.sources ∧
      s'.strat.schedules = s.strat.schedules ++ p.tasks E s ∧ s'.strat.options = optionsAfter s.strat.options (p.optionCalls E s) ∧
      s'.olds = s.olds := by
  induction p with
  | done m e => intro s _ _ _ _; exact ⟨s, m, e, rfl, rfl, rfl, rfl, rfl, by simp [InitProg.tasks], rfl, rfl⟩
  | runDaily f t next ih =>
    intro s h hc hx hn
    have e1 := runDaily_tasks s h f t
    simp only [InitProg.optionCalls, e1] at hn
    obtain ⟨s', m, e, h1, h2, h3, h4, h5, h6, h7, h8⟩ := ih (s.strat.runDaily f t).2 (s.withTasks (dailyTask f t)) h hc hx hn
    refine ⟨s', m, e, ?_, h2, h3, h4, h5, ?_, ?_, h8⟩
    · simp only [InitProg.run, e1, h1]
    · simp only [h6, InitProg.tasks, e1, StartSt.withTasks, List.append_assoc]; rfl
    · simp only [h7, InitProg.optionCalls, e1]; rfl
  | setOptions o inp next ih =>
    intro s h hc hx hn
    simp only [InitProg.optionCalls, List.mem_cons, forall_eq_or_imp] at hn
    obtain ⟨ua, r, hs⟩ := setOptions_off E o inp s h hc hx hn.1
    rw [hs] at hn
    obtain ⟨s', m, e, h1, h2, h3, h4, h5, h6, h7, h8⟩ := ih _ r _ (by exact h) (by exact hc) (by exact hx) hn.2
    refine ⟨s', m, e, ?_, h2, h3, h4, h5, ?_, ?_, h8⟩
    · simp only [InitProg.run, hs, h1]
    · simp only [h6, InitProg.tasks, hs]
    · simp only [h7, InitProg.optionCalls, hs]; rfl
  | call c next ih =>
    intro s h hc hx hn
    have e1 := Ctx.call_off E.G E.udig c s.ctx hx
    have e2 : ({ s with ctx := (s.ctx.call E.G E.udig c).1 } : StartSt γ ν μ) = s := by rw [e1]
    simp only [InitProg.optionCalls, e2] at hn
    obtain ⟨s', m, e, h1, h2, h3, h4, h5, h6, h7, h8⟩ := ih _ _ s h hc hx hn
    refine ⟨s', m, e, ?_, h2, h3, h4, h5, ?_, ?_, h8⟩
    · simp only [InitProg.run, e2, h1]
    · simp only [h6, InitProg.tasks, e2]
    · simp only [h7, InitProg.optionCalls, e2]

omit [PyNum ν] in
theorem optionsAfter_refused (o0 : Opts) (calls : List (Opts × OptInputs γ)) (h : ∀ c ∈ calls, ¬ Understood c.1) :
    optionsAfter o0 calls = o0 := by
  induction calls generalizing o0 with
  | nil => rfl
  | cons c calls ih =>
    have hc := h c (List.mem_cons_self ..)
    simp only [optionsAfter, List.foldl_cons]
    cases hp : c.1.parse with
    | ok o' => exact absurd ⟨o', (parse_iff _ _).1 hp⟩ hc
    | error e => exact ih o0 fun d hd => h d (List.mem_cons_of_mem _ hd)

omit [PyNum ν] in
theorem marketAfter_kept {E : StartEnv γ ν} {calls : List (Opts × OptInputs γ)} {qs : Periods} (h : MarketAfter E calls qs) :
    E.cfg.market (optionsAfter {} calls) = .ofPeriods qs := by
  rcases h with ⟨before, o, inp, after, rfl, ⟨o', hk⟩, hr, hp⟩ | ⟨hr, hp⟩
  · have e : optionsAfter {} (before ++ (o, inp) :: after) = o' := by
      have : optionsAfter {} (before ++ (o, inp) :: after) = optionsAfter o' after := by
        simp only [optionsAfter, List.foldl_append, List.foldl_cons, (parse_iff _ _).2 hk]
      rw [this, optionsAfter_refused _ _ hr]
    rw [e]
    exact periodsFrom_kept hp hk.market
  · rw [optionsAfter_refused _ _ hr, ProcCfg.market]
    exact hp

/-! ## The run -/

theorem Prog.run_off (G : Gate γ ν) (udig : Char → Bool) (q : Prog γ ν μ) (x : Ctx γ ν) (h : x.useAccount = false) :
    (q.run G udig x).1 = x := by
  induction q with
  | done m e => rfl
  | call c next ih =>
    have e := Ctx.call_off G udig c x h
    simp only [Prog.run]
    rw [e]
    exact ih _ _

theorem procAct_off (G : Gate γ ν) (udig : Char → Bool) (fns : Nat → μ → Ctx γ ν → Prog γ ν μ) (cb : Cb) (q : PSt γ ν μ)
    (h : q.ctx = ⟨false, none⟩) : (procAct G udig fns cb q).1.ctx = ⟨false, none⟩ := by
  cases cb with
  | account k =>
    simp [procAct, PSt.sync, h]
  | user i f =>
    cases f with
    | none => exact h
    | some f =>
      simp only [procAct]
      rw [Prog.run_off _ _ _ _ (by rw [h])]
      exact h

theorem calls_off (G : Gate γ ν) (udig : Char → Bool) (fns : Nat → μ → Ctx γ ν → Prog γ ν μ) (cbs : List Cb) (q : PSt γ ν μ)
    (h : q.ctx = ⟨false, none⟩) : (cbs.foldl (fun a cb => (procAct G udig fns cb a).1) q).ctx = ⟨false, none⟩ := by
  induction cbs generalizing q with
  | nil => exact h
  | cons cb cbs ih => exact ih _ (procAct_off G udig fns cb q h)

end Jq
