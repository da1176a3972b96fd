import Verif.Lemmas.Startup
import Verif.Props.C83_ManyAccounts
/-!
# C66: what is called at a synchronisation event

After every call of `set_options` that `process_initialize` can make, in whatever order and with whatever outcome.
-/
namespace Jq
variable {γ ν μ : Type} [PyNum ν]

/-- What the bus calls at a synchronisation event. -/
def StartSt.syncCbs (s : StartSt γ ν μ) : List Cb := s.sched.bus.emit sameClass c!"AccountSyncEvent"

def busOf : List Cb → Bus Str Cb
  | [] => []
  | c :: cs => [(accEvent, [(0, c :: cs)])]

private theorem busOf_emit (cs : List Cb) : (busOf cs).emit sameClass c!"AccountSyncEvent" = cs := by
  cases cs with
  | nil => rfl
  | cons c cs => simp [busOf, Bus.emit, sameClass, accEvent, dkeys, sortBy, insertBy, dget]

private theorem busOf_register (cs : List Cb) (c : Cb) : (busOf cs).register accEvent c 0 = busOf (cs ++ [c]) := by
  cases cs with
  | nil => rfl
  | cons d cs => simp [busOf, Bus.register, dget, dset]

private theorem createClass_bus (s : SchedSt) (c : Str) (p : Int) : (s.createClass c p).bus = s.bus := by
  simp only [SchedSt.createClass]; split <;> rfl

private theorem registerSync_bus (n : Nat) (nb no : Bool) (s : SchedSt) (cs : List Cb) (h : s.bus = busOf cs) :
    (s.registerSync n nb no).bus = busOf (cs ++ cbsOf n nb no) := by
  cases nb <;> cases no <;> simp [SchedSt.registerSync, createClass_bus, h, busOf_register, cbsOf]

/-- The invariant of `process_initialize`. -/
structure Numbered (s : StartSt γ ν μ) : Prop where
  bus : s.sched.bus = busOf s.syncCbs
  count : s.accounts.length = s.strat.account.elim 0 (· + 1)
  below : ∀ cb ∈ s.syncCbs, ∃ i, i < 2 * s.accounts.length ∧ cb = .account i

theorem acct_isSome (G : Gate γ ν) (udig : Char → Bool) (c : ApiCall ν) (x : Ctx γ ν) :
    (x.call G udig c).1.acct.toList.length = x.acct.toList.length := by
  cases hx : x.acct with
  | some a => rw [Ctx.call_ops G udig c x a hx]; rfl
  | none =>
    have ha : ∃ e, x.account = .error e := by
      simp only [Ctx.account, hx]; split <;> exact ⟨_, rfl⟩
    obtain ⟨e, ha⟩ := ha
    have ho : ∀ idn now code amount style side, (x.order G udig idn now code amount style side).1 = x := by
      intro idn now code amount style side
      simp only [Ctx.order, ha]
      cases checkRequest udig code amount style side <;> rfl
    have hb : ∀ es, (x.batch G udig es).1 = x := by
      intro es
      induction es with
      | nil => rfl
      | cons e es ih =>
        have : (x.batchOne G udig e).1 = x := by
          simp only [Ctx.batchOne]
          cases e.code with
          | none => rfl
          | some code =>
            cases e.amount with
            | none => rfl
            | some amount =>
              have := ho e.idn e.now code amount e.style e.side
              simp only
              cases h : x.order G udig e.idn e.now code amount e.style e.side with
              | mk y r => rw [h] at this; cases r <;> exact this
        simp only [Ctx.batch, this]; exact ih
    have hc : ∀ ids, (x.batchCancel G ids).1 = x := by
      intro ids
      cases ids with
      | nil => rfl
      | cons id ids => simp only [Ctx.batchCancel, Ctx.cancel, ha]
    have : (x.call G udig c).1 = x := by
      cases c with
      | order => exact ho ..
      | cancel => simp only [Ctx.call, Ctx.cancel, ha]
      | batchSubmit es => exact hb es
      | batchCancel ids => exact hc ids
      | syncBalance => simp only [Ctx.call, Ctx.syncBalance, ha]
      | syncOrders => simp only [Ctx.call, Ctx.syncOrders, ha]
    rw [this, hx]

omit [PyNum ν] in
private theorem timer_numbered (E : StartEnv γ ν) (n : Nat) (o : Opts) (now : Int) (s s1 : StartSt γ ν μ) (r : Py Unit)
    (h : s.timer E n o now = some (s1, r)) :
    s1.ctx = s.ctx ∧ s1.olds = s.olds ∧ s1.strat = s.strat ∧
      ((s1.sched.bus = s.sched.bus ∧ ∃ e, r = .error e) ∨
       s1.sched.bus = (s.sched.registerSync n (E.cfg.needBalance o) (E.cfg.needOrders o)).bus) := by
  simp only [StartSt.timer] at h
  split at h
  · cases h
  · simp only [Option.some.injEq, Prod.mk.injEq] at h
    obtain ⟨rfl, rfl⟩ := h
    exact ⟨rfl, rfl, rfl, Or.inl ⟨createClass_bus .., _, rfl⟩⟩
  · split at h
    · cases h
    · split at h
      all_goals
        simp only [Option.some.injEq, Prod.mk.injEq] at h
        obtain ⟨rfl, rfl⟩ := h
        exact ⟨rfl, rfl, rfl, Or.inr rfl⟩

/-- What one call of `set_options` does to the accounts and the bus. -/
theorem setOptions_numbered (E : StartEnv γ ν) (o : Opts) (inp : OptInputs γ) (s s' : StartSt γ ν μ) (r : Py Unit) (h : Numbered s)
    (hs : s.setOptions E o inp = some (s', r)) :
    Numbered s' ∧
      ((s'.accounts.length = s.accounts.length ∧ s'.syncCbs = s.syncCbs ∧ s'.olds = s.olds ∧ (r = .ok () → s'.ctx.useAccount = false)) ∨
       (s'.olds = s.accounts ∧ s'.ctx.useAccount = true ∧ s'.ctx.acct.isSome = true ∧
        (s'.syncCbs = s.syncCbs ++ cbsOf s.accounts.length (wantBalance E o) (wantOrders E o) ∨
         (s'.syncCbs = s.syncCbs ∧ ∃ e, r = .error e)))) := by
  have same : ∀ (s' : StartSt γ ν μ), s'.sched = s.sched → s'.ctx.acct = s.ctx.acct → s'.olds = s.olds → s'.strat.account = s.strat.account →
      Numbered s' ∧ s'.accounts.length = s.accounts.length ∧ s'.syncCbs = s.syncCbs ∧ s'.olds = s.olds := by
    intro s' h1 h2 h3 h4
    have e1 : s'.accounts = s.accounts := by simp only [StartSt.accounts, h2, h3]
    have e2 : s'.syncCbs = s.syncCbs := by simp only [StartSt.syncCbs, h1]
    exact ⟨⟨by rw [h1, e2]; exact h.bus, by rw [e1, h4]; exact h.count, by rw [e1, e2]; exact h.below⟩, by rw [e1], e2, h3⟩
  simp only [StartSt.setOptions] at hs
  split at hs
  · simp only [Option.some.injEq, Prod.mk.injEq] at hs
    obtain ⟨rfl, rfl⟩ := hs
    obtain ⟨k1, k2, k3, k4⟩ := same s rfl rfl rfl rfl
    exact ⟨k1, Or.inl ⟨k2, k3, k4, nofun⟩⟩
  · split at hs
    · simp only [Option.some.injEq, Prod.mk.injEq] at hs
      obtain ⟨rfl, rfl⟩ := hs
      obtain ⟨k1, k2, k3, k4⟩ := same s rfl rfl rfl rfl
      exact ⟨k1, Or.inl ⟨k2, k3, k4, nofun⟩⟩
    · rename_i o' ho
      have hk := ((parse_iff _ _).1 ho).same
      have hnb : E.cfg.needBalance o' = wantBalance E o := by
        simp only [ProcCfg.needBalance, wantBalance, hk.2.1]; cases o.syncBalance <;> rfl
      have hno : E.cfg.needOrders o' = wantOrders E o := by
        simp only [ProcCfg.needOrders, wantOrders, hk.2.2.1]; cases o.syncOrder <;> rfl
      split at hs
      · simp only [Option.some.injEq, Prod.mk.injEq] at hs
        obtain ⟨rfl, rfl⟩ := hs
        obtain ⟨k1, k2, k3, k4⟩ := same { s with strat := { s.strat with options := o' } } rfl rfl rfl rfl
        exact ⟨k1, Or.inl ⟨k2, k3, k4, nofun⟩⟩
      · split at hs
        · rename_i hu
          have err : ∀ {t : StartSt γ ν μ} {e : PyErr}, some (t, Except.error e) = some (s', r) → t.sched = s.sched → t.ctx.acct = s.ctx.acct →
              t.olds = s.olds → t.strat.account = s.strat.account → Numbered s' ∧
                ((s'.accounts.length = s.accounts.length ∧ s'.syncCbs = s.syncCbs ∧ s'.olds = s.olds ∧ (r = .ok () → s'.ctx.useAccount = false)) ∨
                 (s'.olds = s.accounts ∧ s'.ctx.useAccount = true ∧ s'.ctx.acct.isSome = true ∧
                  (s'.syncCbs = s.syncCbs ++ cbsOf s.accounts.length (wantBalance E o) (wantOrders E o) ∨
                   (s'.syncCbs = s.syncCbs ∧ ∃ e, r = .error e)))) := by
            intro t e hs h1 h2 h3 h4
            simp only [Option.some.injEq, Prod.mk.injEq] at hs
            obtain ⟨rfl, rfl⟩ := hs
            obtain ⟨k1, k2, k3, k4⟩ := same t h1 h2 h3 h4
            exact ⟨k1, Or.inl ⟨k2, k3, k4, nofun⟩⟩
          split at hs
          · exact err hs rfl rfl rfl rfl
          · split at hs
            · exact err hs rfl rfl rfl rfl
            · split at hs
              · exact err hs rfl rfl rfl rfl
              · rename_i g _
                clear err
                simp only [StartSt.accountSetup] at hs
                split at hs
                · cases hs
                · rename_i t rt ht
                  -- the state after the timer
                  have key : t.ctx = ⟨true, s.ctx.acct⟩ ∧ t.olds = s.accounts ∧ t.strat.account = some (s.strat.account.elim 0 (· + 1)) ∧
                      ((t.sched.bus = s.sched.bus ∧ ((∃ e, (E.gateSetup o' g).2 = .error e) ∨ (∃ e, rt = .error e) ∨
                          (E.cfg.needBalance o' || E.cfg.needOrders o') = false)) ∨
                       t.sched.bus = busOf (s.syncCbs ++ cbsOf s.accounts.length (wantBalance E o) (wantOrders E o))) := by
                    by_cases hc : ((E.gateSetup o' g).2.isOk && (E.cfg.needBalance o' || E.cfg.needOrders o')) = true
                    · rw [if_pos hc] at ht
                      obtain ⟨h1, h2, h3, h4⟩ := timer_numbered E _ o' inp.now _ _ _ ht
                      refine ⟨by rw [h1, hu], h2, by rw [h3], ?_⟩
                      rcases h4 with ⟨h4, h5⟩ | h4
                      · exact Or.inl ⟨h4, Or.inr (Or.inl h5)⟩
                      · refine Or.inr ?_
                        rw [h4, ← h.count, hnb, hno]
                        exact registerSync_bus _ _ _ _ _ h.bus
                    · rw [if_neg hc] at ht
                      simp only [Option.some.injEq, Prod.mk.injEq] at ht
                      obtain ⟨rfl, rfl⟩ := ht
                      refine ⟨by rw [hu], rfl, rfl, Or.inl ⟨rfl, ?_⟩⟩
                      cases hg : (E.gateSetup o' g).2 with
                      | error e => exact Or.inl ⟨e, rfl⟩
                      | ok u =>
                        rw [hg] at hc
                        exact Or.inr (Or.inr (by simpa [Except.isOk, Except.toBool] using hc))
                  obtain ⟨h1, h2, h3, h4⟩ := key
                  have hset := (c65_setup E.G (E.gateSetup o') (E.cfg.needBalance o') (E.cfg.needOrders o') rt (Acct.init g)).1
                  cases ha : (Acct.init (ν := ν) g).setup E.G (E.gateSetup o') (E.cfg.needBalance o') (E.cfg.needOrders o') rt with
                  | mk a ra =>
                    rw [ha] at hs hset
                    simp only [Option.some.injEq, Prod.mk.injEq] at hs
                    obtain ⟨rfl, rfl⟩ := hs
                    have hlen : ({ t with ctx := { t.ctx with acct := some a } } : StartSt γ ν μ).accounts.length = s.accounts.length + 1 := by
                      show (t.olds ++ [a]).length = _
                      rw [h2, List.length_append]; rfl
                    have hcount : ({ t with ctx := { t.ctx with acct := some a } } : StartSt γ ν μ).accounts.length =
                        ({ t with ctx := { t.ctx with acct := some a } } : StartSt γ ν μ).strat.account.elim 0 (· + 1) := by
                      rw [hlen, h3, Option.elim_some, h.count]
                    have hsame : t.sched.bus = s.sched.bus → ({ t with ctx := { t.ctx with acct := some a } } : StartSt γ ν μ).syncCbs = s.syncCbs := by
                      intro e; simp only [StartSt.syncCbs, e]
                    have hnew : t.sched.bus = busOf (s.syncCbs ++ cbsOf s.accounts.length (wantBalance E o) (wantOrders E o)) →
                        ({ t with ctx := { t.ctx with acct := some a } } : StartSt γ ν μ).syncCbs =
                          s.syncCbs ++ cbsOf s.accounts.length (wantBalance E o) (wantOrders E o) := by
                      intro e
                      rw [StartSt.syncCbs, e, busOf_emit]
                    refine ⟨⟨?_, hcount, ?_⟩, Or.inr ⟨h2, by rw [h1], rfl, ?_⟩⟩
                    · rcases h4 with ⟨h4, _⟩ | h4
                      · rw [hsame h4]; exact h4.trans h.bus
                      · rw [hnew h4]; exact h4
                    · rw [hlen]
                      intro cb hcb
                      have old : cb ∈ s.syncCbs → ∃ i, i < 2 * (s.accounts.length + 1) ∧ cb = .account i := by
                        intro hcb
                        obtain ⟨i, hi, e⟩ := h.below cb hcb
                        exact ⟨i, by omega, e⟩
                      rcases h4 with ⟨h4, _⟩ | h4
                      · rw [hsame h4] at hcb; exact old hcb
                      · rw [hnew h4] at hcb
                        rcases List.mem_append.1 hcb with hcb | hcb
                        · exact old hcb
                        · simp only [cbsOf] at hcb
                          rcases List.mem_append.1 hcb with hcb | hcb <;> split at hcb <;> simp at hcb
                          · exact ⟨_, by omega, hcb⟩
                          · exact ⟨_, by omega, hcb⟩
                    · rcases h4 with ⟨h4, h5⟩ | h4
                      · rcases h5 with ⟨e, h5⟩ | ⟨e, h5⟩ | h5
                        · refine Or.inr ⟨hsame h4, ?_⟩
                          cases ra with
                          | error e => exact ⟨e, rfl⟩
                          | ok u => have := (hset.1 rfl).1; rw [show (Acct.init (ν := ν) g).gate = g from rfl, h5] at this; cases this
                        · by_cases hn : (E.cfg.needBalance o' || E.cfg.needOrders o') = true
                          · refine Or.inr ⟨hsame h4, ?_⟩
                            cases ra with
                            | error e => exact ⟨e, rfl⟩
                            | ok u => have := (hset.1 rfl).2 (by simpa using hn); rw [h5] at this; cases this
                          · rw [← hnb, ← hno]
                            simp only [Bool.not_eq_true, Bool.or_eq_false_iff] at hn
                            exact Or.inl (by rw [hsame h4, hn.1, hn.2]; simp [cbsOf])
                        · rw [← hnb, ← hno]
                          simp only [Bool.or_eq_false_iff] at h5
                          exact Or.inl (by rw [hsame h4, h5.1, h5.2]; simp [cbsOf])
                      · exact Or.inl (hnew h4)
        · simp only [Option.some.injEq, Prod.mk.injEq] at hs
          obtain ⟨rfl, rfl⟩ := hs
          rename_i hu
          obtain ⟨k1, k2, k3, k4⟩ := same { s with
            strat := { s.strat with
              options := o'
              useAccount := some (o'.useAccount.getD s.strat.setupAccountCfg) }
            ctx := { s.ctx with useAccount := o'.useAccount.getD s.strat.setupAccountCfg } } rfl rfl rfl rfl
          exact ⟨k1, Or.inl ⟨k2, k3, k4, fun _ => by simpa using hu⟩⟩

theorem init_numbered (E : StartEnv γ ν) (p : InitProg γ ν μ) : ∀ (s s' : StartSt γ ν μ) (m : μ) (e : Option PyErr), Numbered s →
    p.run E s = some (s', m, e) → Numbered s' := by
  induction p with
  | done m e =>
    intro s s' m' e' h hr
    simp only [InitProg.run, Option.some.injEq, Prod.mk.injEq] at hr
    rw [← hr.1]; exact h
  | runDaily f t next ih =>
    intro s s' m e h hr
    simp only [InitProg.run] at hr
    have ha : (s.strat.runDaily f t).1.account = s.strat.account := by
      simp only [StratSt.runDaily]
      repeat' split
      all_goals rfl
    exact ih _ { s with strat := (s.strat.runDaily f t).1 } _ _ _ ⟨h.bus, h.count.trans (by rw [ha]), h.below⟩ hr
  | setOptions o inp next ih =>
    intro s s' m e h hr
    simp only [InitProg.run] at hr
    cases hs : s.setOptions E o inp with
    | none => rw [hs] at hr; cases hr
    | some x =>
      obtain ⟨s1, r⟩ := x
      rw [hs] at hr
      exact ih _ _ _ _ _ _ (setOptions_numbered E o inp s s1 r h hs).1 hr
  | call c next ih =>
    intro s s' m e h hr
    simp only [InitProg.run] at hr
    have hl : ({ s with ctx := (s.ctx.call E.G E.udig c).1 } : StartSt γ ν μ).accounts.length = s.accounts.length := by
      simp only [StartSt.accounts, List.length_append, acct_isSome]
    exact ih _ _ { s with ctx := (s.ctx.call E.G E.udig c).1 } _ _ _
      ⟨h.bus, hl.trans h.count, by rw [hl]; exact h.below⟩ hr

/-- C66, every call.  Whatever `process_initialize` has done so far (`p`), a call of `set_options` that returns and asks for an account
makes the next account object: those made before, of which there are `n`, are replaced, their callbacks stay in front, and to these are added the
callbacks of the new one, `sync_balance` before `sync_orders`, each at most once and as the options or the configuration say. -/
theorem c66_every_set_options (E : StartEnv γ ν) (p : InitProg γ ν μ) (m0 : μ) (s : StartSt γ ν μ) (m : μ) (e : Option PyErr)
    (hp : p.run E (E.entered m0) = some (s, m, e)) (o : Opts) (inp : OptInputs γ) (s' : StartSt γ ν μ)
    (hs : s.setOptions E o inp = some (s', .ok ())) (hu : s'.ctx.useAccount = true) :
    let n := s.accounts.length
    s'.olds = s.accounts ∧ s'.ctx.acct.isSome = true ∧
      s'.syncCbs = s.syncCbs ++ cbsOf n (wantBalance E o) (wantOrders E o) ∧
      ∀ cb ∈ s.syncCbs, ∃ i, i < 2 * n ∧ cb = .account i := by
  have h := init_numbered E p _ _ _ _ ⟨rfl, rfl, by intro cb hcb; cases hcb⟩ hp
  obtain ⟨_, h2⟩ := setOptions_numbered E o inp s s' _ h hs
  rcases h2 with ⟨_, _, _, h3⟩ | ⟨h3, _, h5, h6⟩
  · rw [h3 rfl] at hu; cases hu
  · refine ⟨h3, h5, ?_, h.below⟩
    rcases h6 with h6 | ⟨_, _, h6⟩
    · exact h6
    · cases h6

private def nEnv : StartEnv Nat Int :=
  ⟨⟨false, 365, .ofPeriods [(34200 * secUs, 54000 * secUs)], true, true, true, .ok (30 * secUs), .ofPeriods [(34200 * secUs, 34230 * secUs)]⟩, 100,
    ⟨fun g _ => (g, .ok ()), fun g _ => (g, .ok ()), fun g => (g, .error .runtimeError), fun g => (g, .error .runtimeError)⟩,
    fun _ => false, fun _ g => (g, if g = 9 then .error .osError else .ok ()), 5 * dayUs, some (6 * dayUs), fun _ _ => 5⟩

/-- An account, one that cannot be set up, one that synchronises its orders only, none, and another one: the events call all but the
second. -/
private def nProg : InitProg Nat Int Unit :=
  let set (o : Opts) (g : Nat) (k : InitProg Nat Int Unit) : InitProg Nat Int Unit :=
    .setOptions { o with accountNo := some c!"1" } { gateCtor := .ok g, now := 5 * dayUs } fun _ _ => k
  set {} 0 (set {} 9 (set { syncBalance := some false } 0 (set { useAccount := some false } 0 (set {} 0 (.done () none)))))

example : (nProg.run nEnv (nEnv.entered ())).map (fun x => (x.1.syncCbs, x.1.olds.length, x.1.ctx.acct.isSome, x.2.2)) =
    some ([.account 0, .account 1, .account 5, .account 6, .account 7], 3, true, none) := by
  decide +kernel

end Jq
