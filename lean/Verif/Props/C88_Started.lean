import Verif.Props.C65_Started
import Verif.Props.C88_Reason
/-!
# C88: what a process with the built-in gate shows about its orders

From `process_initialize` to the values and the reasons that the user sees.
-/
set_option linter.unusedSectionVars false
namespace Jq
variable {ν μ : Type} [CellNum ν] [Store ν] [LawfulStore ν]

/-- A strategy with the built-in gate that is started once more on a day, after processes `t` that were killed at any point, with the same
options: its `process_initialize` works, and the loop runs.  After every event, every value of every order that the account shows is that
of a new order or was written by the broker about this very order.  When a timer fires and the gate can read its files, then every order
whose id was ever returned on that day is shown with what the files say about it (C65), and if the result file refuses it as rejected, with
a reason that the file gives for it. -/
theorem c88_started (E : StartEnv (GateIn ν) ν) (hG : E.G = gateIn ν) (S : SetupEnv) (rest : GOpts) (hE : E.gateSetup = builtInSetup S rest)
    (p : InitProg (GateIn ν) ν μ) (m0 : μ) (o o' : Opts) (inp : OptInputs (GateIn ν)) (fs : Files) (env : Nat → Env)
    (n : Nat) (s : StartSt (GateIn ν) ν μ) (m : μ)
    (W : WorkingInit E p m0 o o' inp ⟨{}, fs, env, n, false⟩ s m) (ho : OptsOk (gateOptions rest o))
    (hfs : ∀ d, InForce (gateOptions rest o) c!"runtime_dir" (.str S.runtimeDir) (.str d) →
      fs (.data S.day) = S.read (dataPath (joinPath d c!"data") S.task S.day))
    (D : Str) (R U : Nat → Option Str) (hB : Broker D env R U) (hwant : wantOrders E o = true)
    (v : OptVal) (hv : InForce (gateOptions rest o) c!"ignore_error_line" (.bool true) v) (hign : v.truth = true) :
    ∃ conf, ConfiguredBy (gateOptions rest o) [] conf ∧ conf.dataDay = S.day ∧ conf.win = false ∧
      ∀ (fs0 : Files) (n0 : Nat) (used : List Str) (t : PState ν), fs0 (.data S.day) = none →
        Lives R U ⟨Acct.init ⟨AX.setup conf fs0, env, n0⟩, [], used⟩ t → t.acct = Acct.init ⟨AX.setup conf fs, env, n⟩ →
      ∀ (fns : Nat → μ → Ctx (GateIn ν) ν → Prog (GateIn ν) ν μ) (timers : List TimerSetup) (fn : Nat → Nat) (p0 : PSt (GateIn ν) ν μ)
        (r : LoopSt (RunW (PSt (GateIn ν) ν μ)) Nat PyErr) (ops : List (List (AOp ν))),
        AccountInRun E.G E.udig fns (wantBalance E o) true timers fn p0 (initialAccount E p m0 o o' ⟨{}, fs, env, n, false⟩) r ops →
        let a0 : Acct (GateIn ν) ν := Acct.init (E.gateSetup o' ⟨{}, fs, env, n, false⟩).1
        FreshIn R U GateIn.n (gateIn ν) t.used a0 (syncOps (wantBalance E o) true ++ p.ops E (E.entered m0) ++ ops.flatten) →
        (∀ i, ∃ a, (stateAfter E.G E.udig fns (srcCbs timers (accCbs (wantBalance E o) true) fn) p0 r.fired i).ctx.acct = some a ∧
          ∀ id x, a.find id = some x → x.OnlyReported id ((R a.gate.n).getD []) ((U a.gate.n).getD [])) ∧
        ∀ i f, r.fired[i]? = some f → f.1.data < timers.length →
          let sofar := syncOps (wantBalance E o) true ++ p.ops E (E.entered m0) ++ (ops.take i).flatten
          let before := a0.run (gateIn ν) (sofar ++ if wantBalance E o then [.syncBalance] else [])
          (∃ g infos, (gateIn ν).orders before.gate = (g, .ok infos)) →
          ∃ a, (stateAfter E.G E.udig fns (srcCbs timers (accCbs (wantBalance E o) true) fn) p0 r.fired (i + 1)).ctx.acct = some a ∧
            ∀ k ∈ t.acks ++ acksIn (gateIn ν) a0 sofar, ∃ x, a.find k.id = some x ∧ x.AsAsked k ∧
              x.ShowsFiles ((R before.gate.n).getD []) ((U before.gate.n).getD []) ∧
              (RejectedIn k.id ((R before.gate.n).getD []) →
                x.status = some .rejected ∧ ReasonIn k.id ((R before.gate.n).getD []) x.errMsg) := by
  have hopt : gateOptions rest o' = gateOptions rest o := by rw [gateOptions, gateOptions, W.kept.same.2.2.2.2]
  have hset : ({} : GateSt ν).setup S (gateOptions rest o) = ((({} : GateSt ν).setup S (gateOptions rest o)).1, .ok ()) := by
    have hgate := W.gate
    rw [hE] at hgate
    have : (({} : GateSt ν).setup S (gateOptions rest o')).2 = .ok () := hgate
    rw [hopt] at this
    rw [← this]
  obtain ⟨conf, h1, h2, h3, h4⟩ := c96_as_configured S _ ho [] _ hset false
  refine ⟨conf, h1, h2, h3, ?_⟩
  intro fs0 n0 used t hnone hl ht fns timers fn p0 r ops hrun a0 hfresh
  have ha0 : a0 = Acct.init ⟨(({} : GateSt ν).setup S (gateOptions rest o)).1, fs, env, n, false⟩ := by
    show Acct.init (E.gateSetup o' ⟨{}, fs, env, n, false⟩).1 = _
    rw [hE]
    simp only [builtInSetup, hopt]
  have hal : ∀ xs op, AlikeAccount (a0.run (gateIn ν) xs) (t.acct.run (axGate ν) xs) ∧
      ((a0.run (gateIn ν) xs).step (gateIn ν) op).2 = ((t.acct.run (axGate ν) xs).step (axGate ν) op).2 ∧
      (a0.run (gateIn ν) xs).gate.n = (t.acct.run (axGate ν) xs).gate.n ∧
      ((gateIn ν).orders (a0.run (gateIn ν) xs).gate).2 = ((axGate ν).orders (t.acct.run (axGate ν) xs).gate).2 := by
    intro xs op
    rw [ha0, ht]
    obtain ⟨e1, _, _, e4, e5, e6, _⟩ := h4 fs hfs env n xs op
    exact ⟨e1, e4, e5, e6⟩
  have hi : conf.ignoreErr = true := by
    obtain ⟨w, hw, hc⟩ := h1.ignoreErr
    have e : w = v := by rw [← (inForce_iff ho.1 _ _ _).1 hw, ← (inForce_iff ho.1 _ _ _).1 hv]
    rw [hc, e, hign]
  obtain ⟨asked, hlf⟩ := lives_frun hl
  have einit : initialAccount E p m0 o o' ⟨{}, fs, env, n, false⟩ =
      a0.run (gateIn ν) (syncOps (wantBalance E o) true ++ p.ops E (E.entered m0)) := by
    rw [initialAccount, hG, hwant]; rfl
  have hfr2 : FreshFor R U t.used t.acct (syncOps (wantBalance E o) true ++ p.ops E (E.entered m0) ++ ops.flatten) :=
    fresh_file R U _ _ _ (fresh_alike R U GateIn.n AXG.n (gateIn ν) (axGate ν) _ _ a0 t.acct (fun xs => (hal xs .syncBalance).2.2.1) hfresh)
  have h0 : fs0 (.data conf.dataDay) = none := by rw [h2]; exact hnone
  refine ⟨fun i => ⟨_, congrArg Ctx.acct (hrun.account i), ?_⟩, ?_⟩
  · rw [hG, einit, ← Acct.run_append]
    intro id x hx
    have hpre : FreshFor R U t.used t.acct (syncOps (wantBalance E o) true ++ p.ops E (E.entered m0) ++ (ops.take i).flatten) := by
      have e : ops.flatten = (ops.take i).flatten ++ (ops.drop i).flatten := by
        rw [← List.flatten_append, List.take_append_drop]
      rw [e, ← List.append_assoc] at hfr2
      exact freshFor_append hfr2
    rw [(hal _ .syncBalance).2.2.1]
    rw [find_alike (hal _ .syncBalance).1] at hx
    exact c88_only_what_was_reported D conf fs0 env R U n0 used hB h3 hi h0 _ _ (frun_ops _ hlf hpre) id x hx
  intro i f hf hd sofar before hread
  have hm : ops[i]? = some (syncOps (wantBalance E o) true) := hrun.timer i f hf hd
  have htake : ops.take (i + 1) = ops.take i ++ [syncOps (wantBalance E o) true] := by
    rw [List.take_add_one, hm]; rfl
  refine ⟨_, congrArg Ctx.acct (hrun.account (i + 1)), ?_⟩
  rw [hG, einit, ← Acct.run_append]
  intro k hk
  rw [find_alike (hal _ .syncBalance).1]
  have hpre : FreshFor R U t.used t.acct (sofar ++ if wantBalance E o then [.syncBalance] else []) := by
    have e2 := cut_at ops i (wantBalance E o) (syncOps (wantBalance E o) true ++ p.ops E (E.entered m0)) htake
    rw [e2] at hfr2
    exact freshFor_append hfr2
  have hfr := frun_ops _ hlf hpre
  have hread2 : ∃ g infos, (axGate ν).orders (t.acct.run (axGate ν) (sofar ++ if wantBalance E o then [.syncBalance] else [])).gate = (g, .ok infos) := by
    obtain ⟨g, infos, hg⟩ := hread
    have := (hal (sofar ++ if wantBalance E o then [.syncBalance] else []) .syncBalance).2.2.2
    rw [show (gateIn ν).orders (a0.run (gateIn ν) (sofar ++ if wantBalance E o then [.syncBalance] else [])).gate = (g, .ok infos) from hg] at this
    exact ⟨_, infos, Prod.ext rfl this.symm⟩
  obtain ⟨g, infos, hg⟩ := hread2
  have hn : before.gate.n = (t.acct.run (axGate ν) (sofar ++ if wantBalance E o then [.syncBalance] else [])).gate.n :=
    (hal _ .syncBalance).2.2.1
  have e : t.acct.run (axGate ν) (syncOps (wantBalance E o) true ++ p.ops E (E.entered m0) ++ (ops.take (i + 1)).flatten) =
      ((t.acct.run (axGate ν) (sofar ++ if wantBalance E o then [.syncBalance] else [])).syncOrders (axGate ν)).1 := by
    have e4 : syncOps (wantBalance E o) true ++ p.ops E (E.entered m0) ++ (ops.take (i + 1)).flatten = sofar ++ syncOps (wantBalance E o) true := by
      simp only [htake, sofar, List.flatten_append, List.flatten_cons, List.flatten_nil, List.append_nil, List.append_assoc]
    rw [e4, run_sync]
  rw [e, hn]
  rw [acks_alike (gateIn ν) (axGate ν) sofar a0 t.acct (fun xs op => (hal xs op).2.1), acks_file] at hk
  have hk2 : k ∈ t.acks ++ acksOf t.acct (sofar ++ if wantBalance E o then [.syncBalance] else []) := by
    rw [acksOf_append]
    rcases List.mem_append.1 hk with hk | hk
    · exact List.mem_append.2 (.inl hk)
    · exact List.mem_append.2 (.inr (List.mem_append.2 (.inl hk)))
  obtain ⟨x, x1, x2, x3⟩ := c64_accepted_orders_shown D conf fs0 env R U n0 used hB h3 hi h0 _ _ hfr g infos hg k hk2
  refine ⟨x, x1, x2, x3, fun hrej => ?_⟩
  obtain ⟨y, y1, y2, y3⟩ := c88_refused_with_reason D conf fs0 env R U n0 used hB h3 hi h0 _ _ hfr g infos hg k hk2 hrej
  rw [x1] at y1
  injection y1 with y1
  subst y1
  exact ⟨y2, y3⟩

/-! A concrete case: `process_initialize` places order 9, the timer fires before the broker has refused it, and again afterwards. -/

private def wS : SetupEnv :=
  { there := fun p => decide (p = c!"/oq"), runtimeDir := c!"/run", task := c!"t", day := c!"20240102", read := fun _ => none }
private def wRest : GOpts := [(c!"order_dir", .str c!"/oq")]
private def wOpts : Opts where
  syncBalance := some false
  syncOrder := some true
  syncInternal := some (.ok (30000 * secUs))
  accountNo := some c!"88"
private def wEnv : StartEnv (GateIn Int) Int :=
  ⟨⟨false, 365, .ofPeriods [(0, 60 * secUs)], true, true, true, .error .valueError, .falsy⟩, 100, gateIn Int, fun _ => false,
    builtInSetup wS wRest, 5 * dayUs, none, fun _ _ => 5⟩
private def wGate : GateIn Int := ⟨{}, fun _ => none, exDayEnv, 0, false⟩
private def wInp : OptInputs (GateIn Int) := { gateCtor := .ok wGate, now := 5 * dayUs }
private def wProg : InitProg (GateIn Int) Int Nat :=
  .setOptions wOpts wInp fun _ _ => .call (.order 9 demoEnv.now c!"600000.XSHG" (.int 700) (.style (.limit 12)) .falsy) fun _ _ => .done 1 none
private def wFns (_ : Nat) (m : Nat) (_ : Ctx (GateIn Int) Int) : Prog (GateIn Int) Int Nat := .done m none
private def wTimers : List TimerSetup := [⟨5 * dayUs, 30000 * secUs, []⟩]
private def wP0 : PSt (GateIn Int) Int Nat := ⟨⟨true, some (initialAccount wEnv wProg 0 wOpts wOpts wGate)⟩, 1, []⟩
private def wFired : List (Msg Nat × Int) := [(⟨10, 2, 1, 0⟩, 15), (⟨20, 2, 2, 0⟩, 25)]
private def wState : LoopSt (RunW (PSt (GateIn Int) Int Nat)) Nat PyErr :=
  { world := { srcs := fun _ => { start := none, endAt := none },
               st := stateAfter (gateIn Int) (fun _ => false) wFns (srcCbs wTimers (accCbs false true) id) wP0 wFired 2 }
    fired := wFired }
private def wOps : List (List (AOp Int)) := [[.syncOrders], [.syncOrders]]
private def wA0 : Acct (GateIn Int) Int := Acct.init (wEnv.gateSetup wOpts wGate).1

private theorem wWorks : ∃ s m, WorkingInit wEnv wProg 0 wOpts wOpts wInp wGate s m := by
  have h : ∃ s m, wProg.run wEnv (wEnv.entered 0) = some (s, m, none) := by
    have h1 : ((wProg.run wEnv (wEnv.entered 0)).map (·.2.2)) = some none := by decide +kernel
    cases hr : wProg.run wEnv (wEnv.entered 0) with
    | none => rw [hr] at h1; cases h1
    | some x =>
      obtain ⟨s, m, e⟩ := x
      rw [hr] at h1
      simp only [Option.map_some, Option.some.injEq] at h1
      subst h1
      exact ⟨s, m, rfl⟩
  obtain ⟨s, m, hr⟩ := h
  exact ⟨s, m, hr, by rfl, (parse_iff _ _).1 (by decide +kernel), rfl, rfl, rfl, rfl, rfl, by decide +kernel⟩

private def wDone : List (AOp Int) := syncOps false true ++ wProg.ops wEnv (wEnv.entered 0)

example : (∃ s m, WorkingInit wEnv wProg 0 wOpts wOpts wInp wGate s m) ∧ OptsOk (gateOptions wRest wOpts) ∧
    Broker c!"20240102" exDayEnv exDayR exDayU ∧ (wantBalance wEnv wOpts, wantOrders wEnv wOpts) = (false, true) ∧
    AccountInRun wEnv.G wEnv.udig wFns false true wTimers id wP0 (initialAccount wEnv wProg 0 wOpts wOpts wGate) wState wOps ∧
    FreshIn exDayR exDayU GateIn.n (gateIn Int) [] wA0 (wDone ++ wOps.flatten) ∧
    (∃ g infos, (gateIn Int).orders (wA0.run (gateIn Int) (wDone ++ (wOps.take 1).flatten)).gate = (g, .ok infos)) ∧
    (acksIn (gateIn Int) wA0 (wDone ++ (wOps.take 1).flatten)).map (·.id) = [c!"9"] ∧
    RejectedIn c!"9" ((exDayR (wA0.run (gateIn Int) (wDone ++ (wOps.take 1).flatten)).gate.n).getD []) ∧
    [1, 2].map (fun i => ((stateAfter wEnv.G wEnv.udig wFns (srcCbs wTimers (accCbs false true) id) wP0 wState.fired i).ctx.acct.bind
      (·.find c!"9")).map fun x => (x.status, x.errMsg)) = [some (some .new, []), some (some .rejected, c!"no funds")] := by
  have hno : ∀ id i, i < 3 → ¬ RejectedIn id ((exDayR i).getD []) ∧ ¬ UpdatedIn id ((exDayU i).getD []) := by
    intro id i hi
    rw [exDayR, exDayU, if_pos hi, if_pos hi]
    exact ⟨fun ⟨l, hl, _⟩ => (by cases hl), fun ⟨l, hl, _⟩ => (by cases hl)⟩
  refine ⟨wWorks, ⟨by unfold DictOk; decide +kernel, ?_⟩, exDay_broker, by decide +kernel, ?_, ?_, ?_, by decide +kernel, ?_, by decide +kernel⟩
  · intro k d t h
    simp [gateOptions, wOpts, wRest] at h
  · have h : wOps = (firedOps (gateIn Int) (fun _ => false) wFns (srcCbs wTimers (accCbs false true) id) wP0 wState.fired).map
        (·.flatMap POp.current) := by
      rfl
    rw [h]
    exact accountInRun_of _ _ _ _ _ _ _ _ _ rfl rfl _ rfl
  · have hd : wDone ++ wOps.flatten =
        [.syncOrders, .order 9 demoEnv.now c!"600000.XSHG" 700 (.limit 12) .long, .syncOrders, .syncOrders] := by rfl
    rw [hd]
    refine ⟨by simp [AOp.draws], by simp [AOp.asks], by simp [AOp.draws], ?_, by simp [AOp.draws], by simp [AOp.asks], by simp [AOp.draws], by simp [AOp.asks], trivial⟩
    intro k hk
    simp only [AOp.asks, List.mem_singleton] at hk
    subst hk
    exact ⟨⟨(by decide : demoEnv.now.valid = true), (by decide : 1000 ≤ demoEnv.now.year)⟩, hno _ _ (by decide +kernel)⟩
  · have h : ((gateIn Int).orders (wA0.run (gateIn Int) (wDone ++ (wOps.take 1).flatten)).gate).2.isOk = true := by
      decide +kernel
    revert h
    cases (gateIn Int).orders (wA0.run (gateIn Int) (wDone ++ (wOps.take 1).flatten)).gate with
    | mk g r =>
      cases r with
      | ok infos => exact fun _ => ⟨g, infos, rfl⟩
      | error e => intro h; cases h
  · have h : (wA0.run (gateIn Int) (wDone ++ (wOps.take 1).flatten)).gate.n = 3 := by decide +kernel
    rw [h]
    have h2 : rawLines ((exDayR 3).getD []) = [(c!"093002,1,9,1,13,no funds", 25)] := by decide +kernel
    exact ⟨_, (by rw [h2]; exact List.mem_singleton.2 rfl), c!"093002", c!"13", c!"no funds", by decide +kernel⟩

end Jq
