import Verif.Model.BuiltIn
import Verif.Props.C78_Startup
import Verif.Props.C90_Strategy
import Verif.Props.C96_GateSetup
/-! # C96: exactly what `setup` refuses, and a whole process with the built-in gate -/
set_option linter.unusedSectionVars false
namespace Jq
variable {ν μ : Type} [CellNum ν] [Store ν]

private theorem setup_retry (E : SetupEnv) (o : GOpts) (ho : OptsOk o) (s0 : GateSt ν) (hd : HasOrderDir E o) (hf : HasDataDir E o) (v : OptVal)
    (hv : (c!"sync_retry_kwargs", v) ∈ o) (e : PyErr) (he : retryArgs v = .error e) : (s0.setup E o).2 = .error e := by
  obtain ⟨dir, h1, h2⟩ := hd
  obtain ⟨run, h3, h4⟩ := hf
  have h1' : o.get c!"order_dir" (.str defaultOrderDir) = .str dir := (inForce_iff ho.1 _ _ _).1 h1
  have h3' := (inForce_iff ho.1 _ _ _).1 h3
  have h5 := (inForce_iff ho.1 c!"sync_retry_kwargs" (.dict [(c!"max_attempts", 3), (c!"attempt_internal", 0)] []) v).1 (.inl hv)
  simp only [GateSt.setup, h1', OptVal.path, h2, h3', h5, he]
  cases hk : E.there (joinPath run c!"data") with
  | true => simp
  | false =>
    rcases h4 with h4 | h4
    · rw [hk] at h4; cases h4
    · simp [h4]

/-- `setup` raises exactly what is wrong first. -/
theorem c96_refused_iff (E : SetupEnv) (o : GOpts) (ho : OptsOk o) (s0 : GateSt ν) (e : PyErr) :
    (s0.setup E o).2 = .error e ↔ GateRefused E o e := by
  constructor
  · intro h
    rcases c96_raised E o ho s0 e h with ⟨v, h1, h2, rfl⟩ | ⟨d, h1, h2, rfl⟩ | ⟨hd, ⟨v, h1, h2, rfl⟩ | ⟨run, h1, h2, h3⟩ | ⟨hf, v, hv, h⟩⟩
    · exact .orderDir v h1 h2
    · exact .noOrderDir d h1 h2
    · exact .runtimeDir v hd h1 h2
    · exact .dataDir run e hd h1 h2 h3
    · rcases h with ⟨h1, rfl⟩ | ⟨d, t, k, w, rfl, h1, h2, rfl⟩ | ⟨d, t, w, rfl, h1, h2, h3, rfl⟩
      · exact .retry v hd hf hv h1
      · exact .retryName d t k w hd hf hv h1 h2
      · exact .retryCall d t w hd hf hv h3 h1 h2
  · intro h
    cases h with
    | orderDir v h1 h2 =>
      have h1' : o.get c!"order_dir" (.str defaultOrderDir) = v := (inForce_iff ho.1 _ _ _).1 h1
      cases v with
      | str d => exact absurd rfl (h2 d)
      | _ => simp [GateSt.setup, h1', OptVal.path]
    | noOrderDir d h1 h2 => exact c96_missing_directory E o ho s0 d h1 h2
    | runtimeDir v hd h1 h2 =>
      obtain ⟨dir, h3, h4⟩ := hd
      have h3' : o.get c!"order_dir" (.str defaultOrderDir) = .str dir := (inForce_iff ho.1 _ _ _).1 h3
      have h1' := (inForce_iff ho.1 _ _ _).1 h1
      cases v with
      | str d => exact absurd rfl (h2 d)
      | _ => simp [GateSt.setup, h3', h4, h1', OptVal.path]
    | dataDir run _ hd h1 h2 h3 =>
      obtain ⟨dir, h4, h5⟩ := hd
      have h4' : o.get c!"order_dir" (.str defaultOrderDir) = .str dir := (inForce_iff ho.1 _ _ _).1 h4
      have h1' := (inForce_iff ho.1 _ _ _).1 h1
      simp [GateSt.setup, h4', h5, h1', h2, h3, OptVal.path]
    | retry v hd hf hv h1 =>
      refine setup_retry E o ho s0 hd hf v hv _ ?_
      cases v with
      | dict d t => exact absurd rfl (h1 d t)
      | _ => rfl
    | retryName d t k w hd hf hv h1 h2 =>
      refine setup_retry E o ho s0 hd hf _ hv _ ?_
      have : (dkeys d).any (fun k => !(k ∈ [c!"on_exception", c!"max_attempts", c!"attempt_internal"])) = true := by
        rw [List.any_eq_true]
        exact ⟨k, List.mem_map.2 ⟨(k, w), h1, rfl⟩, by simpa [RetryWord] using h2⟩
      simp only [retryArgs, this, if_true]
    | retryCall d t w hd hf hv h1 h2 h3 =>
      refine setup_retry E o ho s0 hd hf _ hv _ ?_
      have hno : ¬ (dkeys d).any (fun k => !(k ∈ [c!"on_exception", c!"max_attempts", c!"attempt_internal"])) = true := by
        rw [List.any_eq_true]
        rintro ⟨k, hk, hb⟩
        obtain ⟨⟨k', v⟩, hm, rfl⟩ := List.mem_map.1 hk
        have := h1 k' v hm
        simp [RetryWord] at this hb
        rcases this with h | h | h
        · exact hb.1 h
        · exact hb.2.1 h
        · exact hb.2.2 h
      simp only [retryArgs, hno, dget_of_mem (ho.2 _ _ _ hv) h2, Option.getD_some, h3, ne_eq, not_false_eq_true, if_true]
      rfl

/-- `set_options` in a process with the built-in gate, with options that are understood: it raises what is wrong first, of the directory,
the account number and the settings of the gate. -/
theorem c96_start_refused (E : StartEnv (GateIn ν) ν) (S : SetupEnv) (rest : GOpts) (hE : E.gateSetup = builtInSetup S rest)
    (s : StartSt (GateIn ν) ν μ) (hs : s.strat.allowed = true) (o o' : Opts) (hk : KeptOptions o o') (ho : OptsOk (gateOptions rest o))
    (inp : OptInputs (GateIn ν)) (g : GateIn ν) (hg : inp.gateCtor = .ok g) (hc : inp.gateConfigured = true) (e : PyErr)
    (h : inp.mkdir = .error e ∨ inp.mkdir = .ok () ∧ AsksAccount s.strat.setupAccountCfg o ∧
      (o.accountNo = none ∧ e = .invalidParam ∨ o.accountNo ≠ none ∧ GateRefused S (gateOptions rest o) e)) :
    ∃ s', s.setOptions E o inp = some (s', .error e) := by
  refine (c90_start_refused E s hs o o' hk inp).1 e ?_
  rcases h with h | ⟨h1, h2, ⟨h3, rfl⟩ | ⟨h3, h4⟩⟩
  · exact .directory e h
  · exact .number h1 h2 h3
  · refine .options g e h1 h2 h3 hc hg ?_
    have : gateOptions rest o' = gateOptions rest o := by rw [gateOptions, gateOptions, hk.same.2.2.2.2]
    rw [hE]
    show (g.st.setup S (gateOptions rest o')).2 = _
    rw [this]
    exact (c96_refused_iff S _ ho _ e).2 h4

/-- … and if it was the gate that refused, the account is in the context nevertheless, with the gate as `setup` left it: a strategy that catches
the exception works with this one. -/
theorem c96_start_left (E : StartEnv (GateIn ν) ν) (S : SetupEnv) (rest : GOpts) (hE : E.gateSetup = builtInSetup S rest)
    (s : StartSt (GateIn ν) ν μ) (hs : s.strat.allowed = true) (o o' : Opts) (hk : KeptOptions o o') (ho : OptsOk (gateOptions rest o))
    (inp : OptInputs (GateIn ν)) (g : GateIn ν) (hg : inp.gateCtor = .ok g) (hc : inp.gateConfigured = true) (e : PyErr)
    (h1 : inp.mkdir = .ok ()) (h2 : AsksAccount s.strat.setupAccountCfg o) (h3 : o.accountNo ≠ none) (h4 : GateRefused S (gateOptions rest o) e) :
    ∃ s', s.setOptions E o inp = some (s', .error e) ∧
      s'.ctx = ⟨true, some (Acct.init { g with st := (g.st.setup S (gateOptions rest o)).1 })⟩ := by
  have hopt : gateOptions rest o' = gateOptions rest o := by rw [gateOptions, gateOptions, hk.same.2.2.2.2]
  have hr : (g.st.setup S (gateOptions rest o)).2 = .error e := (c96_refused_iff S _ ho _ e).2 h4
  have hsplit : E.gateSetup o' g = ({ g with st := (g.st.setup S (gateOptions rest o)).1 }, .error e) := by
    rw [hE, builtInSetup, hopt, ← hr]
  have hu : o'.useAccount.getD s.strat.setupAccountCfg = true := by
    rw [hk.same.1]
    rcases h2 with h | ⟨h, h'⟩
    · rw [h]; rfl
    · rw [h]; exact h'
  have hn : o'.accountNo.isNone = false := by
    rw [hk.same.2.2.2.2]
    cases ha : o.accountNo with
    | none => exact absurd ha h3
    | some n => rfl
  simp only [StartSt.setOptions, hs, Bool.not_true, Bool.false_eq_true, if_false, (parse_iff _ _).2 hk, h1, hu, if_true, hn, hc, hg,
    StartSt.accountSetup, hsplit, Except.isOk, Except.toBool, Bool.false_and, Acct.setup, Acct.init]
  exact ⟨_, rfl, rfl⟩

/-- A process with the built-in gate whose `process_initialize` works: the account, from the start of the loop on, is that of the gate
that the options describe, with the account number that was given; every later call has the outcome of that gate, and the files, the
orders, the positions, the cash and the messages are the same, and so is what the gate would report next. -/
theorem c96_process (E : StartEnv (GateIn ν) ν) (hG : E.G = gateIn ν) (S : SetupEnv) (rest : GOpts) (hE : E.gateSetup = builtInSetup S rest)
    (p : InitProg (GateIn ν) ν μ) (m0 : μ) (o o' : Opts) (inp : OptInputs (GateIn ν)) (before : List Int) (fs : Files) (env : Nat → Env)
    (n : Nat) (win : Bool) (s : StartSt (GateIn ν) ν μ) (m : μ)
    (W : WorkingInit E p m0 o o' inp ⟨{ wraps := before }, fs, env, n, win⟩ s m) (ho : OptsOk (gateOptions rest o))
    (hfs : ∀ d, InForce (gateOptions rest o) c!"runtime_dir" (.str S.runtimeDir) (.str d) →
      fs (.data S.day) = S.read (dataPath (joinPath d c!"data") S.task S.day)) :
    ∃ conf, ConfiguredBy (gateOptions rest o) before conf ∧ conf.dataDay = S.day ∧ conf.win = win ∧
      (∀ n, o.accountNo = some n → n ≠ [] → conf.account = .ok n) ∧
      ∀ ops op,
        let a := (initialAccount E p m0 o o' ⟨{ wraps := before }, fs, env, n, win⟩).run (gateIn ν) ops
        let b := (Acct.init ⟨AX.setup conf fs, env, n⟩ : Acct (AXG ν) ν).run (axGate ν)
          (syncOps (wantBalance E o) (wantOrders E o) ++ p.ops E (E.entered m0) ++ ops)
        AlikeAccount a b ∧ a.gate.files = b.gate.ax.files ∧ a.gate.st.book = b.gate.ax.book ∧
          (a.step (gateIn ν) op).2 = (b.step (axGate ν) op).2 ∧ a.gate.n = b.gate.n ∧
          ((gateIn ν).orders a.gate).2 = ((axGate ν).orders b.gate).2 ∧
          ((gateIn ν).balance a.gate).2 = ((axGate ν).balance b.gate).2 := by
  have hopt : gateOptions rest o' = gateOptions rest o := by rw [gateOptions, gateOptions, W.kept.same.2.2.2.2]
  have hgate := W.gate
  rw [hE] at hgate
  have hset : ({ wraps := before } : GateSt ν).setup S (gateOptions rest o) =
      ((({ wraps := before } : GateSt ν).setup S (gateOptions rest o)).1, .ok ()) := by
    have : (({ wraps := before } : GateSt ν).setup S (gateOptions rest o')).2 = .ok () := hgate
    rw [hopt] at this
    rw [← this]
  obtain ⟨conf, h1, h2, h3, h4⟩ := c96_as_configured S _ ho before _ hset win
  refine ⟨conf, h1, h2, h3, ?_, ?_⟩
  · intro x hn hne
    obtain ⟨v, hv, hc⟩ := h1.account
    have hm : InForce (gateOptions rest o) c!"account_no" .none (.str x) := by
      refine .inl ?_
      rw [gateOptions, hn]
      exact List.mem_cons_self
    have e : v = .str x := by
      rw [← (inForce_iff ho.1 _ _ _).1 hv, (inForce_iff ho.1 _ _ _).1 hm]
    subst e
    rw [hc]
    simp [OptVal.truth, OptVal.text, hne]
  · intro ops op a b
    have ha : a = (Acct.init ⟨(({ wraps := before } : GateSt ν).setup S (gateOptions rest o)).1, fs, env, n, win⟩ : Acct (GateIn ν) ν).run (gateIn ν)
        (syncOps (wantBalance E o) (wantOrders E o) ++ p.ops E (E.entered m0) ++ ops) := by
      rw [Acct.run_append]
      show Acct.run _ _ ops = _
      rw [initialAccount, hG, hE]
      simp only [builtInSetup, hopt]
      rfl
    have := h4 fs hfs env n (syncOps (wantBalance E o) (wantOrders E o) ++ p.ops E (E.entered m0) ++ ops) op
    rw [ha]
    exact this

/-! A concrete case: the process is started with an order directory and a buy order in `process_initialize`; the timer is off. -/

private def bDay : Env := { now := ⟨2024, 1, 2, 9, 30, 0, 25⟩, day := c!"20240102" }
private def bThere (dirs : List Str) : SetupEnv :=
  { there := fun p => decide (p ∈ dirs), runtimeDir := c!"/run", task := c!"t", day := c!"20240102", read := fun _ => none }
private def bRest : GOpts := [(c!"order_dir", .str c!"/oq"), (c!"algo_type", .str c!"TWAP")]
private def bOpts : Opts where
  syncBalance := some false
  syncOrder := some false
  accountNo := some c!"88"
private def bEnv (dirs : List Str) (rest : GOpts) : StartEnv (GateIn Int) Int :=
  ⟨⟨false, 365, .ofPeriods [(0, 60 * secUs)], true, true, true, .error .valueError, .falsy⟩, 1000, gateIn Int, fun _ => false,
    builtInSetup (bThere dirs) rest, 5 * dayUs, none, fun _ _ => 5⟩
private def bInp : OptInputs (GateIn Int) := { gateCtor := .ok ⟨{}, fun _ => none, fun _ => bDay, 0, false⟩, now := 5 * dayUs }
private def bProg : InitProg (GateIn Int) Int (Py Unit) :=
  .setOptions bOpts bInp fun _ r => .call (.order 7 bDay.now c!"600000.XSHG" (.int 100) .falsy .falsy) fun _ _ => .done r none

private theorem bWorks : ∃ s m, WorkingInit (bEnv [c!"/oq"] bRest) bProg (.ok ()) bOpts bOpts bInp ⟨{}, fun _ => none, fun _ => bDay, 0, false⟩ s m := by
  have h : ∃ s m, bProg.run (bEnv [c!"/oq"] bRest) ((bEnv [c!"/oq"] bRest).entered (.ok ())) = some (s, m, none) := by
    have h1 : ((bProg.run (bEnv [c!"/oq"] bRest) ((bEnv [c!"/oq"] bRest).entered (.ok ()))).map (·.2.2)) = some none := by decide +kernel
    cases hr : bProg.run (bEnv [c!"/oq"] bRest) ((bEnv [c!"/oq"] bRest).entered (.ok ())) with
    | none => rw [hr] at h1; cases h1
    | some x =>
      obtain ⟨s, m, e⟩ := x
      rw [hr] at h1
      simp only [Option.map_some, Option.some.injEq] at h1
      subst h1
      exact ⟨s, m, rfl⟩
  obtain ⟨s, m, hr⟩ := h
  exact ⟨s, m, hr, by rfl, (parse_iff _ _).1 (by decide +kernel), rfl, rfl, rfl, rfl, rfl, by decide +kernel⟩

example : OptsOk (gateOptions bRest bOpts) ∧
    (∃ s m, WorkingInit (bEnv [c!"/oq"] bRest) bProg (.ok ()) bOpts bOpts bInp ⟨{}, fun _ => none, fun _ => bDay, 0, false⟩ s m) ∧
    (initialAccount (bEnv [c!"/oq"] bRest) bProg (.ok ()) bOpts bOpts ⟨{}, fun _ => none, fun _ => bDay, 0, false⟩).gate.files (.orders c!"20240102") =
      some (orderHeader ++ c!"\n093000.000025,7,UM0,88,600000.SH,1,100,TWAP,P6,0,0,0\n") := by
  refine ⟨⟨by unfold DictOk; decide +kernel, ?_⟩, bWorks, by decide +kernel⟩
  intro k d t h
  simp [gateOptions, bOpts, bRest] at h

/-- … and starts that are refused: no order directory, arguments for retrying that are none, and no account number. -/
example : ((bProg.run (bEnv [] bRest) ((bEnv [] bRest).entered (.ok ()))).map (·.2.1)) = some (.error .fileNotFound) ∧
    (let rest := bRest ++ [(c!"sync_retry_kwargs", .dict [(c!"times", 3)] [])]
     ((bProg.run (bEnv [c!"/oq"] rest) ((bEnv [c!"/oq"] rest).entered (.ok ()))).map (·.2.1)) = some (.error .typeError)) ∧
    (let p : InitProg (GateIn Int) Int (Py Unit) := .setOptions {} bInp fun _ r => .done r none
     ((p.run (bEnv [c!"/oq"] bRest) ((bEnv [c!"/oq"] bRest).entered (.ok ()))).map (·.2.1)) = some (.error .invalidParam)) := by decide +kernel
/-- A strategy that catches the exception and orders when the directory is there: `order` returns `None`, and the order has been sent, without
a counter and an algorithm. -/
theorem c96_caught_refuted :
    let ask : ApiCall Int := .order 7 bDay.now c!"600000.XSHG" (.int 100) .falsy .falsy
    let p : InitProg (GateIn Int) Int (Py Unit × Py ApiRes) := .setOptions bOpts bInp fun _ r => .call ask fun _ r' => .done (r, r') none
    (p.run (bEnv [] bRest) ((bEnv [] bRest).entered (.ok (), .ok .none))).map (fun x => (x.2, x.1.ctx.acct.map fun a => a.gate.files (.orders c!"20240102"))) =
      some (((.error .fileNotFound, .ok (.id none)), none),
        some (some (orderHeader ++ c!"\n093000.000025,7,None,88,600000.SH,1,100,None,P6,0,0,0\n"))) := by
  decide +kernel

example : GateRefused (bThere []) (gateOptions bRest bOpts) .fileNotFound :=
  .noOrderDir c!"/oq" (.inl (by simp [gateOptions, bOpts, bRest])) (by decide +kernel)

end Jq
