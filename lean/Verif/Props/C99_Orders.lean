import Verif.Props.C64_Started
import Verif.Props.C88_Started
import Verif.Props.C99_Files
/-!
# C99: what a strategy with the built-in gate reads of its orders

From `process_initialize` and the broker's files to `get_orders()[id].<name>`.
-/
set_option linter.unusedSectionVars false
namespace Jq
variable {ν μ : Type} [CellNum ν] [Store ν] [LawfulStore ν]

/-- A strategy with the built-in gate that is started once more on a day, after processes `t` that were killed at any point, with the same
options: its `process_initialize` works, and the loop runs.  When a timer fires and the gate can read its files, then every order whose id
was ever returned on that day can be read with `get_orders()`; its attributes say what was asked, and what the broker's files say of it; if
the result file refuses it, `err_msg` is a reason that the file gives. -/
theorem c99_orders_started (E : StartEnv (GateIn ν) ν) (hG : E.G = gateIn ν) (S : SetupEnv) (rest : GOpts) (hE : E.gateSetup = builtInSetup S rest)
    (p : InitProg (GateIn ν) ν μ) (m0 : μ) (o o' : Opts) (inp : OptInputs (GateIn ν)) (fs : Files) (env : Nat → Env)
    (n : Nat) (s : StartSt (GateIn ν) ν μ) (m : μ)
    (W : WorkingInit E p m0 o o' inp ⟨{}, fs, env, n, false⟩ s m) (ho : OptsOk (gateOptions rest o))
    (hfs : ∀ d, InForce (gateOptions rest o) c!"runtime_dir" (.str S.runtimeDir) (.str d) →
      fs (.data S.day) = S.read (dataPath (joinPath d c!"data") S.task S.day))
    (D : Str) (R U : Nat → Option Str) (hB : Broker D env R U) (hwant : wantOrders E o = true)
    (v : OptVal) (hv : InForce (gateOptions rest o) c!"ignore_error_line" (.bool true) v) (hign : v.truth = true) :
    ∃ conf, ConfiguredBy (gateOptions rest o) [] conf ∧ conf.dataDay = S.day ∧ conf.win = false ∧
      ∀ (fs0 : Files) (n0 : Nat) (used : List Str) (t : PState ν), fs0 (.data S.day) = none →
        Lives R U ⟨Acct.init ⟨AX.setup conf fs0, env, n0⟩, [], used⟩ t → t.acct = Acct.init ⟨AX.setup conf fs, env, n⟩ →
      ∀ (fns : Nat → μ → Ctx (GateIn ν) ν → Prog (GateIn ν) ν μ) (timers : List TimerSetup) (fn : Nat → Nat) (p0 : PSt (GateIn ν) ν μ)
        (r : LoopSt (RunW (PSt (GateIn ν) ν μ)) Nat PyErr) (ops : List (List (AOp ν))), p0.ctx.useAccount = true →
        AccountInRun E.G E.udig fns (wantBalance E o) true timers fn p0 (initialAccount E p m0 o o' ⟨{}, fs, env, n, false⟩) r ops →
        let a0 : Acct (GateIn ν) ν := Acct.init (E.gateSetup o' ⟨{}, fs, env, n, false⟩).1
        FreshIn R U GateIn.n (gateIn ν) t.used a0 (syncOps (wantBalance E o) true ++ p.ops E (E.entered m0) ++ ops.flatten) →
        ∀ i f, r.fired[i]? = some f → f.1.data < timers.length →
          let sofar := syncOps (wantBalance E o) true ++ p.ops E (E.entered m0) ++ (ops.take i).flatten
          let before := a0.run (gateIn ν) (sofar ++ if wantBalance E o then [.syncBalance] else [])
          (∃ g infos, (gateIn ν).orders before.gate = (g, .ok infos)) →
          let x := (stateAfter E.G E.udig fns (srcCbs timers (accCbs (wantBalance E o) true) fn) p0 r.fired (i + 1)).ctx
          ∀ k ∈ t.acks ++ acksIn (gateIn ν) a0 sofar,
            ReadsAsFiled (x.orderAttr E.udig k.id) k ((R before.gate.n).getD []) ((U before.gate.n).getD []) ∧
            (RejectedIn k.id ((R before.gate.n).getD []) →
              ∃ msg, x.orderAttr E.udig k.id c!"err_msg" = .ok (.str msg) ∧ ReasonIn k.id ((R before.gate.n).getD []) msg) := by
  obtain ⟨conf, h1, h2, h3, h4⟩ := c88_started E hG S rest hE p m0 o o' inp fs env n s m W ho hfs D R U hB hwant v hv hign
  refine ⟨conf, h1, h2, h3, ?_⟩
  intro fs0 n0 used t hnone hl ht fns timers fn p0 r ops hu hrun a0 hfresh i f hf hd sofar before hread x k hk
  obtain ⟨a, ha, hall⟩ := (h4 fs0 n0 used t hnone hl ht fns timers fn p0 r ops hrun hfresh).2 i f hf hd hread
  obtain ⟨y, y1, y2, y3, y4⟩ := hall k hk
  have hx : x = _ := hrun.account (i + 1)
  have hux : x.useAccount = true := by rw [hx]; exact hu
  have hwf : a.WF := by
    have e : x.acct = some a := ha
    rw [hx] at e
    injection e with e
    rw [← e]
    exact wf_run (wf_run (wf_init _) _ _) _ _
  have hr : ∀ name, x.orderAttr E.udig k.id name = y.attr name := by
    intro name
    rw [orderAttr_find hux ha hwf, y1]
  exact ⟨reads_as_filed hr y2 y3, fun hrej => ⟨y.errMsg, by rw [hr]; rfl, (y4 hrej).2⟩⟩

/-- The same strategy after every event, whatever the gate could read: `get_orders()` has no entry for an id, or an order with this id was
asked for on that day, by an earlier process (`asked`), in `process_initialize` or by a task that has run, and its attributes say what was
asked. -/
theorem c99_only_asked_started (E : StartEnv (GateIn ν) ν) (hG : E.G = gateIn ν) (S : SetupEnv) (rest : GOpts) (hE : E.gateSetup = builtInSetup S rest)
    (p : InitProg (GateIn ν) ν μ) (m0 : μ) (o o' : Opts) (inp : OptInputs (GateIn ν)) (fs : Files) (env : Nat → Env)
    (n : Nat) (s : StartSt (GateIn ν) ν μ) (m : μ)
    (W : WorkingInit E p m0 o o' inp ⟨{}, fs, env, n, false⟩ s m) (ho : OptsOk (gateOptions rest o))
    (hfs : ∀ d, InForce (gateOptions rest o) c!"runtime_dir" (.str S.runtimeDir) (.str d) →
      fs (.data S.day) = S.read (dataPath (joinPath d c!"data") S.task S.day))
    (D : Str) (R U : Nat → Option Str) (hB : Broker D env R U)
    (v : OptVal) (hv : InForce (gateOptions rest o) c!"ignore_error_line" (.bool true) v) (hign : v.truth = true) :
    ∃ conf, ConfiguredBy (gateOptions rest o) [] conf ∧ conf.dataDay = S.day ∧ conf.win = false ∧
      ∀ (fs0 : Files) (n0 : Nat) (used : List Str) (t : PState ν), fs0 (.data S.day) = none →
        Lives R U ⟨Acct.init ⟨AX.setup conf fs0, env, n0⟩, [], used⟩ t → t.acct = Acct.init ⟨AX.setup conf fs, env, n⟩ →
      ∃ asked, FRun R U ⟨Acct.init ⟨AX.setup conf fs0, env, n0⟩, [], used⟩ asked t ∧
      ∀ (fns : Nat → μ → Ctx (GateIn ν) ν → Prog (GateIn ν) ν μ) (timers : List TimerSetup) (fn : Nat → Nat) (p0 : PSt (GateIn ν) ν μ)
        (r : LoopSt (RunW (PSt (GateIn ν) ν μ)) Nat PyErr) (ops : List (List (AOp ν))), p0.ctx.useAccount = true →
        AccountInRun E.G E.udig fns (wantBalance E o) (wantOrders E o) timers fn p0 (initialAccount E p m0 o o' ⟨{}, fs, env, n, false⟩) r ops →
        let a0 : Acct (GateIn ν) ν := Acct.init (E.gateSetup o' ⟨{}, fs, env, n, false⟩).1
        FreshIn R U GateIn.n (gateIn ν) t.used a0 (syncOps (wantBalance E o) (wantOrders E o) ++ p.ops E (E.entered m0) ++ ops.flatten) →
        ∀ i id,
          let x := (stateAfter E.G E.udig fns (srcCbs timers (accCbs (wantBalance E o) (wantOrders E o)) fn) p0 r.fired i).ctx
          (∀ name, x.orderAttr E.udig id name = .error .keyError) ∨
          ∃ k ∈ asked ++ (syncOps (wantBalance E o) (wantOrders E o) ++ p.ops E (E.entered m0) ++ (ops.take i).flatten).flatMap AOp.asks,
            k.id = id ∧ ReadsAsAsked (x.orderAttr E.udig id) k := by
  obtain ⟨conf, h1, h2, h3, h4⟩ := c64_started E hG S rest hE p m0 o o' inp fs env n s m W ho hfs D R U hB v hv hign
  refine ⟨conf, h1, h2, h3, ?_⟩
  intro fs0 n0 used t hnone hl ht
  obtain ⟨asked, h5, h6⟩ := h4 fs0 n0 used t hnone hl ht
  refine ⟨asked, h5, ?_⟩
  intro fns timers fn p0 r ops hu hrun a0 hfresh i id x
  obtain ⟨a, ha, hall⟩ := h6 fns timers fn p0 r ops hrun hfresh i
  have hx : x = _ := hrun.account i
  have hux : x.useAccount = true := by rw [hx]; exact hu
  have hwf : a.WF := by
    have e : x.acct = some a := ha
    rw [hx] at e
    injection e with e
    rw [← e]
    exact wf_run (wf_run (wf_init _) _ _) _ _
  have hr : ∀ name, x.orderAttr E.udig id name = match a.find id with | some y => y.attr name | none => .error .keyError :=
    fun name => orderAttr_find hux ha hwf id name
  cases hy : a.find id with
  | none =>
    rw [hy] at hr
    exact .inl hr
  | some y =>
    rw [hy] at hr
    obtain ⟨k, hk, hid, has⟩ := hall id y hy
    exact .inr ⟨k, hk, hid, reads_as_asked hr has⟩

/-! A concrete case: `process_initialize` places order 9, the timer fires before the broker has refused it, and again
afterwards; what can be read of it, and of an id that was never given out. -/

private def wS : SetupEnv :=
  { there := fun p => decide (p = c!"/oq"), runtimeDir := c!"/run", task := c!"t", day := c!"20240102", read := fun _ => none }
private def wRest : GOpts := [(c!"order_dir", .str c!"/oq")]
private def wOpts : Opts where
  syncBalance := some false
  syncOrder := some true
  syncInternal := some (.ok (30000 * secUs))
  accountNo := some c!"88"
private def wEnv : StartEnv (GateIn Int) Int :=
  ⟨⟨false, 365, .ofPeriods [(0, 60 * secUs)], true, true, true, .error .valueError, .falsy⟩, 100, gateIn Int, fun _ => false,
    builtInSetup wS wRest, 5 * dayUs, none, fun _ _ => 5⟩
private def wGate : GateIn Int := ⟨{}, fun _ => none, exDayEnv, 0, false⟩
private def wInp : OptInputs (GateIn Int) := { gateCtor := .ok wGate, now := 5 * dayUs }
private def wProg : InitProg (GateIn Int) Int Nat :=
  .setOptions wOpts wInp fun _ _ => .call (.order 9 demoEnv.now c!"600000.XSHG" (.int 700) (.style (.limit 12)) .falsy) fun _ _ => .done 1 none
private def wFns (_ : Nat) (m : Nat) (_ : Ctx (GateIn Int) Int) : Prog (GateIn Int) Int Nat := .done m none
private def wTimers : List TimerSetup := [⟨5 * dayUs, 30000 * secUs, []⟩]
private def wP0 : PSt (GateIn Int) Int Nat := ⟨⟨true, some (initialAccount wEnv wProg 0 wOpts wOpts wGate)⟩, 1, []⟩
private def wFired : List (Msg Nat × Int) := [(⟨10, 2, 1, 0⟩, 15), (⟨20, 2, 2, 0⟩, 25)]
private def wState : LoopSt (RunW (PSt (GateIn Int) Int Nat)) Nat PyErr :=
  { world := { srcs := fun _ => { start := none, endAt := none },
               st := stateAfter (gateIn Int) (fun _ => false) wFns (srcCbs wTimers (accCbs false true) id) wP0 wFired 2 }
    fired := wFired }
private def wOps : List (List (AOp Int)) := [[.syncOrders], [.syncOrders]]
private def wA0 : Acct (GateIn Int) Int := Acct.init (wEnv.gateSetup wOpts wGate).1

private theorem wWorks : ∃ s m, WorkingInit wEnv wProg 0 wOpts wOpts wInp wGate s m := by
  have h : ∃ s m, wProg.run wEnv (wEnv.entered 0) = some (s, m, none) := by
    have h1 : ((wProg.run wEnv (wEnv.entered 0)).map (·.2.2)) = some none := by decide +kernel
    cases hr : wProg.run wEnv (wEnv.entered 0) with
    | none => rw [hr] at h1; cases h1
    | some x =>
      obtain ⟨s, m, e⟩ := x
      rw [hr] at h1
      simp only [Option.map_some, Option.some.injEq] at h1
      subst h1
      exact ⟨s, m, rfl⟩
  obtain ⟨s, m, hr⟩ := h
  exact ⟨s, m, hr, by rfl, (parse_iff _ _).1 (by decide +kernel), rfl, rfl, rfl, rfl, rfl, by decide +kernel⟩

private def wDone : List (AOp Int) := syncOps false true ++ wProg.ops wEnv (wEnv.entered 0)

example : (∃ s m, WorkingInit wEnv wProg 0 wOpts wOpts wInp wGate s m) ∧ OptsOk (gateOptions wRest wOpts) ∧
    Broker c!"20240102" exDayEnv exDayR exDayU ∧ (wantBalance wEnv wOpts, wantOrders wEnv wOpts) = (false, true) ∧
    AccountInRun wEnv.G wEnv.udig wFns false true wTimers id wP0 (initialAccount wEnv wProg 0 wOpts wOpts wGate) wState wOps ∧
    FreshIn exDayR exDayU GateIn.n (gateIn Int) [] wA0 (wDone ++ wOps.flatten) ∧
    (∃ g infos, (gateIn Int).orders (wA0.run (gateIn Int) (wDone ++ (wOps.take 1).flatten)).gate = (g, .ok infos)) ∧
    (acksIn (gateIn Int) wA0 (wDone ++ (wOps.take 1).flatten)).map (·.id) = [c!"9"] ∧
    RejectedIn c!"9" ((exDayR (wA0.run (gateIn Int) (wDone ++ (wOps.take 1).flatten)).gate.n).getD []) ∧
    wP0.ctx.useAccount = true ∧
    [1, 2].map (fun i => [c!"code", c!"amount", c!"status", c!"err_msg"].map
      ((stateAfter wEnv.G wEnv.udig wFns (srcCbs wTimers (accCbs false true) id) wP0 wState.fired i).ctx.orderAttr wEnv.udig c!"9")) =
      [[.ok (.str c!"600000.XSHG"), .ok (.int 700), .ok (.str c!"new"), .ok (.str [])],
       [.ok (.str c!"600000.XSHG"), .ok (.int 700), .ok (.str c!"rejected"), .ok (.str c!"no funds")]] ∧
    [0, 1, 2].map (fun i => (wDone ++ (wOps.take i).flatten).flatMap AOp.asks) =
      List.replicate 3 [⟨c!"9", demoEnv.now, c!"600000.XSHG", 700, .limit 12⟩] ∧
    [0, 1, 2].map (fun i => [c!"9", c!"5"].map fun id =>
      (stateAfter wEnv.G wEnv.udig wFns (srcCbs wTimers (accCbs false true) fun j => j) wP0 wState.fired i).ctx.orderAttr wEnv.udig id c!"amount") =
      List.replicate 3 [.ok (.int 700), .error .keyError] := by
  have hno : ∀ id i, i < 3 → ¬ RejectedIn id ((exDayR i).getD []) ∧ ¬ UpdatedIn id ((exDayU i).getD []) := by
    intro id i hi
    rw [exDayR, exDayU, if_pos hi, if_pos hi]
    exact ⟨fun ⟨l, hl, _⟩ => (by cases hl), fun ⟨l, hl, _⟩ => (by cases hl)⟩
  refine ⟨wWorks, ⟨by unfold DictOk; decide +kernel, ?_⟩, exDay_broker, by decide +kernel, ?_, ?_, ?_, by decide +kernel, ?_, rfl, by decide +kernel, by rfl, by decide +kernel⟩
  · intro k d t h
    simp [gateOptions, wOpts, wRest] at h
  · have h : wOps = (firedOps (gateIn Int) (fun _ => false) wFns (srcCbs wTimers (accCbs false true) id) wP0 wState.fired).map
        (·.flatMap POp.current) := by
      rfl
    rw [h]
    exact accountInRun_of _ _ _ _ _ _ _ _ _ rfl rfl _ rfl
  · have hd : wDone ++ wOps.flatten =
        [.syncOrders, .order 9 demoEnv.now c!"600000.XSHG" 700 (.limit 12) .long, .syncOrders, .syncOrders] := by rfl
    rw [hd]
    refine ⟨by simp [AOp.draws], by simp [AOp.asks], by simp [AOp.draws], ?_, by simp [AOp.draws], by simp [AOp.asks], by simp [AOp.draws], by simp [AOp.asks], trivial⟩
    intro k hk
    simp only [AOp.asks, List.mem_singleton] at hk
    subst hk
    exact ⟨⟨(by decide : demoEnv.now.valid = true), (by decide : 1000 ≤ demoEnv.now.year)⟩, hno _ _ (by decide +kernel)⟩
  · have h : ((gateIn Int).orders (wA0.run (gateIn Int) (wDone ++ (wOps.take 1).flatten)).gate).2.isOk = true := by
      decide +kernel
    revert h
    cases (gateIn Int).orders (wA0.run (gateIn Int) (wDone ++ (wOps.take 1).flatten)).gate with
    | mk g r =>
      cases r with
      | ok infos => exact fun _ => ⟨g, infos, rfl⟩
      | error e => intro h; cases h
  · have h : (wA0.run (gateIn Int) (wDone ++ (wOps.take 1).flatten)).gate.n = 3 := by decide +kernel
    rw [h]
    have h2 : rawLines ((exDayR 3).getD []) = [(c!"093002,1,9,1,13,no funds", 25)] := by decide +kernel
    exact ⟨_, (by rw [h2]; exact List.mem_singleton.2 rfl), c!"093002", c!"13", c!"no funds", by decide +kernel⟩

end Jq
