import Verif.Props.C65_Started
/-!
# C64: a process with the built-in gate shows only orders that were asked for
-/
set_option linter.unusedSectionVars false
namespace Jq
variable {ν μ : Type} [CellNum ν] [Store ν] [LawfulStore ν]

/-- A strategy with the built-in gate that is started once more on a day, after processes `t` that were killed at any point, with the same
options: its `process_initialize` works, and the loop runs.  After every event, every order that the account shows was asked for on that
day, by an earlier process (`asked`), in `process_initialize` or by a task that has run, and it is shown as it was asked for. -/
theorem c64_started (E : StartEnv (GateIn ν) ν) (hG : E.G = gateIn ν) (S : SetupEnv) (rest : GOpts) (hE : E.gateSetup = builtInSetup S rest)
    (p : InitProg (GateIn ν) ν μ) (m0 : μ) (o o' : Opts) (inp : OptInputs (GateIn ν)) (fs : Files) (env : Nat → Env)
    (n : Nat) (s : StartSt (GateIn ν) ν μ) (m : μ)
    (W : WorkingInit E p m0 o o' inp ⟨{}, fs, env, n, false⟩ s m) (ho : OptsOk (gateOptions rest o))
    (hfs : ∀ d, InForce (gateOptions rest o) c!"runtime_dir" (.str S.runtimeDir) (.str d) →
      fs (.data S.day) = S.read (dataPath (joinPath d c!"data") S.task S.day))
    (D : Str) (R U : Nat → Option Str) (hB : Broker D env R U)
    (v : OptVal) (hv : InForce (gateOptions rest o) c!"ignore_error_line" (.bool true) v) (hign : v.truth = true) :
    ∃ conf, ConfiguredBy (gateOptions rest o) [] conf ∧ conf.dataDay = S.day ∧ conf.win = false ∧
      ∀ (fs0 : Files) (n0 : Nat) (used : List Str) (t : PState ν), fs0 (.data S.day) = none →
        Lives R U ⟨Acct.init ⟨AX.setup conf fs0, env, n0⟩, [], used⟩ t → t.acct = Acct.init ⟨AX.setup conf fs, env, n⟩ →
      ∃ asked, FRun R U ⟨Acct.init ⟨AX.setup conf fs0, env, n0⟩, [], used⟩ asked t ∧
      ∀ (fns : Nat → μ → Ctx (GateIn ν) ν → Prog (GateIn ν) ν μ) (timers : List TimerSetup) (fn : Nat → Nat) (p0 : PSt (GateIn ν) ν μ)
        (r : LoopSt (RunW (PSt (GateIn ν) ν μ)) Nat PyErr) (ops : List (List (AOp ν))),
        AccountInRun E.G E.udig fns (wantBalance E o) (wantOrders E o) timers fn p0 (initialAccount E p m0 o o' ⟨{}, fs, env, n, false⟩) r ops →
        let a0 : Acct (GateIn ν) ν := Acct.init (E.gateSetup o' ⟨{}, fs, env, n, false⟩).1
        FreshIn R U GateIn.n (gateIn ν) t.used a0 (syncOps (wantBalance E o) (wantOrders E o) ++ p.ops E (E.entered m0) ++ ops.flatten) →
        ∀ i, ∃ a, (stateAfter E.G E.udig fns (srcCbs timers (accCbs (wantBalance E o) (wantOrders E o)) fn) p0 r.fired i).ctx.acct = some a ∧
          ∀ id x, a.find id = some x →
            ∃ k ∈ asked ++ (syncOps (wantBalance E o) (wantOrders E o) ++ p.ops E (E.entered m0) ++ (ops.take i).flatten).flatMap AOp.asks,
              k.id = id ∧ x.AsAsked k := by
  have hopt : gateOptions rest o' = gateOptions rest o := by rw [gateOptions, gateOptions, W.kept.same.2.2.2.2]
  have hset : ({} : GateSt ν).setup S (gateOptions rest o) = ((({} : GateSt ν).setup S (gateOptions rest o)).1, .ok ()) := by
    have hgate := W.gate
    rw [hE] at hgate
    have : (({} : GateSt ν).setup S (gateOptions rest o')).2 = .ok () := hgate
    rw [hopt] at this
    rw [← this]
  obtain ⟨conf, h1, h2, h3, h4⟩ := c96_as_configured S _ ho [] _ hset false
  refine ⟨conf, h1, h2, h3, ?_⟩
  intro fs0 n0 used t hnone hl ht
  obtain ⟨asked, hlf⟩ := lives_frun hl
  refine ⟨asked, hlf, ?_⟩
  intro fns timers fn p0 r ops hrun a0 hfresh i
  have ha0 : a0 = Acct.init ⟨(({} : GateSt ν).setup S (gateOptions rest o)).1, fs, env, n, false⟩ := by
    show Acct.init (E.gateSetup o' ⟨{}, fs, env, n, false⟩).1 = _
    rw [hE]
    simp only [builtInSetup, hopt]
  have hal : ∀ xs op, AlikeAccount (a0.run (gateIn ν) xs) (t.acct.run (axGate ν) xs) ∧
      ((a0.run (gateIn ν) xs).step (gateIn ν) op).2 = ((t.acct.run (axGate ν) xs).step (axGate ν) op).2 ∧
      (a0.run (gateIn ν) xs).gate.n = (t.acct.run (axGate ν) xs).gate.n ∧
      ((gateIn ν).orders (a0.run (gateIn ν) xs).gate).2 = ((axGate ν).orders (t.acct.run (axGate ν) xs).gate).2 := by
    intro xs op
    rw [ha0, ht]
    obtain ⟨e1, _, _, e4, e5, e6, _⟩ := h4 fs hfs env n xs op
    exact ⟨e1, e4, e5, e6⟩
  have hi : conf.ignoreErr = true := by
    obtain ⟨w, hw, hc⟩ := h1.ignoreErr
    have e : w = v := by rw [← (inForce_iff ho.1 _ _ _).1 hw, ← (inForce_iff ho.1 _ _ _).1 hv]
    rw [hc, e, hign]
  have einit : initialAccount E p m0 o o' ⟨{}, fs, env, n, false⟩ =
      a0.run (gateIn ν) (syncOps (wantBalance E o) (wantOrders E o) ++ p.ops E (E.entered m0)) := by
    rw [initialAccount, hG]; rfl
  have hfr2 : FreshFor R U t.used t.acct (syncOps (wantBalance E o) (wantOrders E o) ++ p.ops E (E.entered m0) ++ ops.flatten) :=
    fresh_file R U _ _ _ (fresh_alike R U GateIn.n AXG.n (gateIn ν) (axGate ν) _ _ a0 t.acct (fun xs => (hal xs .syncBalance).2.2.1) hfresh)
  have h0 : fs0 (.data conf.dataDay) = none := by rw [h2]; exact hnone
  refine ⟨_, congrArg Ctx.acct (hrun.account i), ?_⟩
  · rw [hG, einit, ← Acct.run_append]
    intro id x hx
    have hpre : FreshFor R U t.used t.acct (syncOps (wantBalance E o) (wantOrders E o) ++ p.ops E (E.entered m0) ++ (ops.take i).flatten) := by
      have e : ops.flatten = (ops.take i).flatten ++ (ops.drop i).flatten := by
        rw [← List.flatten_append, List.take_append_drop]
      rw [e, ← List.append_assoc] at hfr2
      exact freshFor_append hfr2
    rw [find_alike (hal _ .syncBalance).1] at hx
    exact c64_only_what_was_asked D conf fs0 env R U n0 used hB h3 hi h0 _ _ (frun_ops _ hlf hpre) id x hx

/-! A concrete case: `process_initialize` places an order; from then on this one and no other is shown. -/

private def wS : SetupEnv :=
  { there := fun p => decide (p = c!"/oq"), runtimeDir := c!"/run", task := c!"t", day := c!"20240102", read := fun _ => none }
private def wRest : GOpts := [(c!"order_dir", .str c!"/oq")]
private def wOpts : Opts where
  syncBalance := some false
  syncOrder := some true
  syncInternal := some (.ok (30000 * secUs))
  accountNo := some c!"88"
private def wEnv : StartEnv (GateIn Int) Int :=
  ⟨⟨false, 365, .ofPeriods [(0, 60 * secUs)], true, true, true, .error .valueError, .falsy⟩, 100, gateIn Int, fun _ => false,
    builtInSetup wS wRest, 5 * dayUs, none, fun _ _ => 5⟩
private def wGate : GateIn Int := ⟨{}, fun _ => none, exDayEnv, 0, false⟩
private def wInp : OptInputs (GateIn Int) := { gateCtor := .ok wGate, now := 5 * dayUs }
private def wProg : InitProg (GateIn Int) Int Nat :=
  .setOptions wOpts wInp fun _ _ => .call (.order 7 demoEnv.now c!"600000.XSHG" (.int 700) (.style (.limit 12)) .falsy) fun _ _ => .done 1 none
private def wFns (_ : Nat) (m : Nat) (_ : Ctx (GateIn Int) Int) : Prog (GateIn Int) Int Nat := .done m none
private def wTimers : List TimerSetup := [⟨5 * dayUs, 30000 * secUs, []⟩]
private def wP0 : PSt (GateIn Int) Int Nat := ⟨⟨true, some (initialAccount wEnv wProg 0 wOpts wOpts wGate)⟩, 1, []⟩
private def wFired : List (Msg Nat × Int) := [(⟨10, 2, 1, 0⟩, 15), (⟨20, 2, 2, 0⟩, 25)]
private def wState : LoopSt (RunW (PSt (GateIn Int) Int Nat)) Nat PyErr :=
  { world := { srcs := fun _ => { start := none, endAt := none },
               st := stateAfter (gateIn Int) (fun _ => false) wFns (srcCbs wTimers (accCbs false true) id) wP0 wFired 2 }
    fired := wFired }
private def wOps : List (List (AOp Int)) := [[.syncOrders], [.syncOrders]]
private def wA0 : Acct (GateIn Int) Int := Acct.init (wEnv.gateSetup wOpts wGate).1

private theorem wWorks : ∃ s m, WorkingInit wEnv wProg 0 wOpts wOpts wInp wGate s m := by
  have h : ∃ s m, wProg.run wEnv (wEnv.entered 0) = some (s, m, none) := by
    have h1 : ((wProg.run wEnv (wEnv.entered 0)).map (·.2.2)) = some none := by decide +kernel
    cases hr : wProg.run wEnv (wEnv.entered 0) with
    | none => rw [hr] at h1; cases h1
    | some x =>
      obtain ⟨s, m, e⟩ := x
      rw [hr] at h1
      simp only [Option.map_some, Option.some.injEq] at h1
      subst h1
      exact ⟨s, m, rfl⟩
  obtain ⟨s, m, hr⟩ := h
  exact ⟨s, m, hr, by rfl, (parse_iff _ _).1 (by decide +kernel), rfl, rfl, rfl, rfl, rfl, by decide +kernel⟩

private def wDone : List (AOp Int) := syncOps false true ++ wProg.ops wEnv (wEnv.entered 0)

example : (∃ s m, WorkingInit wEnv wProg 0 wOpts wOpts wInp wGate s m) ∧ OptsOk (gateOptions wRest wOpts) ∧
    Broker c!"20240102" exDayEnv exDayR exDayU ∧ (wantBalance wEnv wOpts, wantOrders wEnv wOpts) = (false, true) ∧
    AccountInRun wEnv.G wEnv.udig wFns false true wTimers id wP0 (initialAccount wEnv wProg 0 wOpts wOpts wGate) wState wOps ∧
    FreshIn exDayR exDayU GateIn.n (gateIn Int) [] wA0 (wDone ++ wOps.flatten) ∧
    (wDone ++ (wOps.take 1).flatten).flatMap AOp.asks = [⟨c!"7", demoEnv.now, c!"600000.XSHG", 700, .limit 12⟩] ∧
    [0, 1, 2].map (fun i => (stateAfter wEnv.G wEnv.udig wFns (srcCbs wTimers (accCbs false true) id) wP0 wState.fired i).ctx.acct.map
      fun a => (dkeys a.orders, (a.find c!"7").map fun x => (x.code, x.amount))) =
      List.replicate 3 (some ([c!"7"], some (c!"600000.XSHG", 700))) := by
  have hno : ∀ id i, i < 3 → ¬ RejectedIn id ((exDayR i).getD []) ∧ ¬ UpdatedIn id ((exDayU i).getD []) := by
    intro id i hi
    rw [exDayR, exDayU, if_pos hi, if_pos hi]
    exact ⟨fun ⟨l, hl, _⟩ => (by cases hl), fun ⟨l, hl, _⟩ => (by cases hl)⟩
  refine ⟨wWorks, ⟨by unfold DictOk; decide +kernel, ?_⟩, exDay_broker, by decide +kernel, ?_, ?_, by rfl, by decide +kernel⟩
  · intro k d t h
    simp [gateOptions, wOpts, wRest] at h
  · have h : wOps = (firedOps (gateIn Int) (fun _ => false) wFns (srcCbs wTimers (accCbs false true) id) wP0 wState.fired).map
        (·.flatMap POp.current) := by
      rfl
    rw [h]
    exact accountInRun_of _ _ _ _ _ _ _ _ _ rfl rfl _ rfl
  · have hd : wDone ++ wOps.flatten =
        [.syncOrders, .order 7 demoEnv.now c!"600000.XSHG" 700 (.limit 12) .long, .syncOrders, .syncOrders] := by rfl
    rw [hd]
    refine ⟨by simp [AOp.draws], by simp [AOp.asks], by simp [AOp.draws], ?_, by simp [AOp.draws], by simp [AOp.asks], by simp [AOp.draws], by simp [AOp.asks], trivial⟩
    intro k hk
    simp only [AOp.asks, List.mem_singleton] at hk
    subst hk
    exact ⟨⟨(by decide : demoEnv.now.valid = true), (by decide : 1000 ≤ demoEnv.now.year)⟩, hno _ _ (by decide +kernel)⟩

end Jq
