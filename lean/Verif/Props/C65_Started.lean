import Verif.Spec.Asked
import Verif.Props.C65_Lives
import Verif.Props.C96_Start
/-!
# C65: the orders of a process with the built-in gate

From `process_initialize` to the orders that the user sees.
-/
set_option linter.unusedSectionVars false
namespace Jq
variable {γ γ' ν μ : Type}

section
variable [PyNum ν]

theorem acks_alike (G : Gate γ ν) (G' : Gate γ' ν) (ops : List (AOp ν)) (a : Acct γ ν) (b : Acct γ' ν)
    (h : ∀ xs op, ((a.run G xs).step G op).2 = ((b.run G' xs).step G' op).2) : acksIn G a ops = acksIn G' b ops := by
  induction ops generalizing a b with
  | nil => rfl
  | cons op ops ih =>
    simp only [acksIn]
    rw [ih (a.step G op).1 (b.step G' op).1 fun xs op' => h (op :: xs) op']
    have := h [] op
    simp only [Acct.run, List.foldl_nil] at this
    rw [this]

theorem fresh_alike (R U : Nat → Option Str) (num : γ → Nat) (num' : γ' → Nat) (G : Gate γ ν) (G' : Gate γ' ν) (ops : List (AOp ν))
    (used : List Str) (a : Acct γ ν) (b : Acct γ' ν) (h : ∀ xs, num (a.run G xs).gate = num' (b.run G' xs).gate)
    (hf : FreshIn R U num G used a ops) : FreshIn R U num' G' used b ops := by
  induction ops generalizing a b used with
  | nil => trivial
  | cons op ops ih =>
    obtain ⟨h1, h2, h3⟩ := hf
    have h0 : num a.gate = num' b.gate := h []
    exact ⟨h1, by rw [← h0]; exact h2, ih _ _ _ (fun xs => h (op :: xs)) h3⟩

theorem run_sync (G : Gate γ ν) (a : Acct γ ν) (xs : List (AOp ν)) (nb : Bool) :
    a.run G (xs ++ syncOps nb true) = ((a.run G (xs ++ if nb then [.syncBalance] else [])).syncOrders G).1 := by
  cases nb <;> simp [syncOps, Acct.run, Acct.step]

theorem cut_at (ops : List (List (AOp ν))) (i : Nat) (nb : Bool) (pre : List (AOp ν)) (h : ops.take (i + 1) = ops.take i ++ [syncOps nb true]) :
    pre ++ ops.flatten =
      (pre ++ (ops.take i).flatten ++ if nb then [.syncBalance] else []) ++ ([.syncOrders] ++ (ops.drop (i + 1)).flatten) := by
  have e : ops.flatten = (ops.take (i + 1)).flatten ++ (ops.drop (i + 1)).flatten := by
    rw [← List.flatten_append, List.take_append_drop]
  rw [e, h]
  cases nb <;> simp [syncOps]

theorem find_alike {a : Acct γ ν} {b : Acct γ' ν} (h : AlikeAccount a b) (id : Str) : a.find id = b.find id := by
  obtain ⟨h1, h2, _⟩ := h
  simp only [Acct.find, h1, h2]

end

variable [CellNum ν] [Store ν]

theorem acks_file (ops : List (AOp ν)) (a : Acct (AXG ν) ν) : acksIn (axGate ν) a ops = acksOf a ops := by
  induction ops generalizing a with
  | nil => rfl
  | cons op ops ih => simp only [acksIn, acksOf, ih]

theorem fresh_file (R U : Nat → Option Str) (ops : List (AOp ν)) (used : List Str) (a : Acct (AXG ν) ν)
    (h : FreshIn R U AXG.n (axGate ν) used a ops) : FreshFor R U used a ops := by
  induction ops generalizing used a with
  | nil => trivial
  | cons op ops ih => exact ⟨h.1, h.2.1, ih _ _ h.2.2⟩

variable [LawfulStore ν]

/-- A strategy with the built-in gate that is started once more on a day, after processes `t` that were killed at any point, with the same
options: its `process_initialize` works, and the loop runs.  When a timer fires and the gate can read its files, then the account shows
every order whose id was ever returned on that day, by an earlier process, in `process_initialize` or by a task, as it was asked for
and with what the broker's files say about it. -/
theorem c65_started (E : StartEnv (GateIn ν) ν) (hG : E.G = gateIn ν) (S : SetupEnv) (rest : GOpts) (hE : E.gateSetup = builtInSetup S rest)
    (p : InitProg (GateIn ν) ν μ) (m0 : μ) (o o' : Opts) (inp : OptInputs (GateIn ν)) (fs : Files) (env : Nat → Env)
    (n : Nat) (s : StartSt (GateIn ν) ν μ) (m : μ)
    (W : WorkingInit E p m0 o o' inp ⟨{}, fs, env, n, false⟩ s m) (ho : OptsOk (gateOptions rest o))
    (hfs : ∀ d, InForce (gateOptions rest o) c!"runtime_dir" (.str S.runtimeDir) (.str d) →
      fs (.data S.day) = S.read (dataPath (joinPath d c!"data") S.task S.day))
    (D : Str) (R U : Nat → Option Str) (hB : Broker D env R U) (hwant : wantOrders E o = true)
    (v : OptVal) (hv : InForce (gateOptions rest o) c!"ignore_error_line" (.bool true) v) (hign : v.truth = true) :
    ∃ conf, ConfiguredBy (gateOptions rest o) [] conf ∧ conf.dataDay = S.day ∧ conf.win = false ∧
      ∀ (fs0 : Files) (n0 : Nat) (used : List Str) (t : PState ν), fs0 (.data S.day) = none →
        Lives R U ⟨Acct.init ⟨AX.setup conf fs0, env, n0⟩, [], used⟩ t → t.acct = Acct.init ⟨AX.setup conf fs, env, n⟩ →
      ∀ (fns : Nat → μ → Ctx (GateIn ν) ν → Prog (GateIn ν) ν μ) (timers : List TimerSetup) (fn : Nat → Nat) (p0 : PSt (GateIn ν) ν μ)
        (r : LoopSt (RunW (PSt (GateIn ν) ν μ)) Nat PyErr) (ops : List (List (AOp ν))),
        AccountInRun E.G E.udig fns (wantBalance E o) true timers fn p0 (initialAccount E p m0 o o' ⟨{}, fs, env, n, false⟩) r ops →
        let a0 : Acct (GateIn ν) ν := Acct.init (E.gateSetup o' ⟨{}, fs, env, n, false⟩).1
        FreshIn R U GateIn.n (gateIn ν) t.used a0 (syncOps (wantBalance E o) true ++ p.ops E (E.entered m0) ++ ops.flatten) →
        ∀ i f, r.fired[i]? = some f → f.1.data < timers.length →
          let sofar := syncOps (wantBalance E o) true ++ p.ops E (E.entered m0) ++ (ops.take i).flatten
          let before := a0.run (gateIn ν) (sofar ++ if wantBalance E o then [.syncBalance] else [])
          (∃ g infos, (gateIn ν).orders before.gate = (g, .ok infos)) →
          ∃ a, (stateAfter E.G E.udig fns (srcCbs timers (accCbs (wantBalance E o) true) fn) p0 r.fired (i + 1)).ctx.acct = some a ∧
            ∀ k ∈ t.acks ++ acksIn (gateIn ν) a0 sofar, ∃ x, a.find k.id = some x ∧ x.AsAsked k ∧
              x.ShowsFiles ((R before.gate.n).getD []) ((U before.gate.n).getD []) := by
  have hopt : gateOptions rest o' = gateOptions rest o := by rw [gateOptions, gateOptions, W.kept.same.2.2.2.2]
  have hset : ({} : GateSt ν).setup S (gateOptions rest o) = ((({} : GateSt ν).setup S (gateOptions rest o)).1, .ok ()) := by
    have hgate := W.gate
    rw [hE] at hgate
    have : (({} : GateSt ν).setup S (gateOptions rest o')).2 = .ok () := hgate
    rw [hopt] at this
    rw [← this]
  obtain ⟨conf, h1, h2, h3, h4⟩ := c96_as_configured S _ ho [] _ hset false
  refine ⟨conf, h1, h2, h3, ?_⟩
  intro fs0 n0 used t hnone hl ht fns timers fn p0 r ops hrun a0 hfresh i f hf hd sofar before hread
  have ha0 : a0 = Acct.init ⟨(({} : GateSt ν).setup S (gateOptions rest o)).1, fs, env, n, false⟩ := by
    show Acct.init (E.gateSetup o' ⟨{}, fs, env, n, false⟩).1 = _
    rw [hE]
    simp only [builtInSetup, hopt]
  have hal : ∀ xs op, AlikeAccount (a0.run (gateIn ν) xs) (t.acct.run (axGate ν) xs) ∧
      ((a0.run (gateIn ν) xs).step (gateIn ν) op).2 = ((t.acct.run (axGate ν) xs).step (axGate ν) op).2 ∧
      (a0.run (gateIn ν) xs).gate.n = (t.acct.run (axGate ν) xs).gate.n ∧
      ((gateIn ν).orders (a0.run (gateIn ν) xs).gate).2 = ((axGate ν).orders (t.acct.run (axGate ν) xs).gate).2 := by
    intro xs op
    rw [ha0, ht]
    obtain ⟨e1, _, _, e4, e5, e6, _⟩ := h4 fs hfs env n xs op
    exact ⟨e1, e4, e5, e6⟩
  have hi : conf.ignoreErr = true := by
    obtain ⟨w, hw, hc⟩ := h1.ignoreErr
    have e : w = v := by rw [← (inForce_iff ho.1 _ _ _).1 hw, ← (inForce_iff ho.1 _ _ _).1 hv]
    rw [hc, e, hign]
  obtain ⟨asked, hlf⟩ := lives_frun hl
  have hm : ops[i]? = some (syncOps (wantBalance E o) true) := hrun.timer i f hf hd
  have htake : ops.take (i + 1) = ops.take i ++ [syncOps (wantBalance E o) true] := by
    rw [List.take_add_one, hm]; rfl
  refine ⟨_, congrArg Ctx.acct (hrun.account (i + 1)), ?_⟩
  have einit : initialAccount E p m0 o o' ⟨{}, fs, env, n, false⟩ =
      a0.run (gateIn ν) (syncOps (wantBalance E o) true ++ p.ops E (E.entered m0)) := by
    rw [initialAccount, hG, hwant]; rfl
  rw [hG, einit, ← Acct.run_append]
  intro k hk
  rw [find_alike (hal _ .syncBalance).1]
  have hfr2 : FreshFor R U t.used t.acct (syncOps (wantBalance E o) true ++ p.ops E (E.entered m0) ++ ops.flatten) :=
    fresh_file R U _ _ _ (fresh_alike R U GateIn.n AXG.n (gateIn ν) (axGate ν) _ _ a0 t.acct (fun xs => (hal xs .syncBalance).2.2.1) hfresh)
  have hpre : FreshFor R U t.used t.acct (sofar ++ if wantBalance E o then [.syncBalance] else []) := by
    have e2 := cut_at ops i (wantBalance E o) (syncOps (wantBalance E o) true ++ p.ops E (E.entered m0)) htake
    rw [e2] at hfr2
    exact freshFor_append hfr2
  have hfr := frun_ops _ hlf hpre
  have hread2 : ∃ g infos, (axGate ν).orders (t.acct.run (axGate ν) (sofar ++ if wantBalance E o then [.syncBalance] else [])).gate = (g, .ok infos) := by
    obtain ⟨g, infos, hg⟩ := hread
    have := (hal (sofar ++ if wantBalance E o then [.syncBalance] else []) .syncBalance).2.2.2
    rw [show (gateIn ν).orders (a0.run (gateIn ν) (sofar ++ if wantBalance E o then [.syncBalance] else [])).gate = (g, .ok infos) from hg] at this
    exact ⟨_, infos, Prod.ext rfl this.symm⟩
  obtain ⟨g, infos, hg⟩ := hread2
  have hn : before.gate.n = (t.acct.run (axGate ν) (sofar ++ if wantBalance E o then [.syncBalance] else [])).gate.n :=
    (hal _ .syncBalance).2.2.1
  have e : t.acct.run (axGate ν) (syncOps (wantBalance E o) true ++ p.ops E (E.entered m0) ++ (ops.take (i + 1)).flatten) =
      ((t.acct.run (axGate ν) (sofar ++ if wantBalance E o then [.syncBalance] else [])).syncOrders (axGate ν)).1 := by
    have e4 : syncOps (wantBalance E o) true ++ p.ops E (E.entered m0) ++ (ops.take (i + 1)).flatten = sofar ++ syncOps (wantBalance E o) true := by
      simp only [htake, sofar, List.flatten_append, List.flatten_cons, List.flatten_nil, List.append_nil, List.append_assoc]
    rw [e4, run_sync]
  rw [e, hn]
  refine c64_accepted_orders_shown D conf fs0 env R U n0 used hB h3 hi (by rw [h2]; exact hnone) _ _ hfr g infos hg k ?_
  rw [acks_alike (gateIn ν) (axGate ν) sofar a0 t.acct (fun xs op => (hal xs op).2.1), acks_file] at hk
  rw [acksOf_append]
  rcases List.mem_append.1 hk with hk | hk
  · exact List.mem_append.2 (.inl hk)
  · exact List.mem_append.2 (.inr (List.mem_append.2 (.inl hk)))

/-! A concrete case: `process_initialize` orders, the timer fires before the broker has written its files, and again afterwards. -/

private def wS : SetupEnv :=
  { there := fun p => decide (p = c!"/oq"), runtimeDir := c!"/run", task := c!"t", day := c!"20240102", read := fun _ => none }
private def wRest : GOpts := [(c!"order_dir", .str c!"/oq")]
private def wOpts : Opts where
  syncBalance := some false
  syncOrder := some true
  syncInternal := some (.ok (30000 * secUs))
  accountNo := some c!"88"
private def wEnv : StartEnv (GateIn Int) Int :=
  ⟨⟨false, 365, .ofPeriods [(0, 60 * secUs)], true, true, true, .error .valueError, .falsy⟩, 100, gateIn Int, fun _ => false,
    builtInSetup wS wRest, 5 * dayUs, none, fun _ _ => 5⟩
private def wGate : GateIn Int := ⟨{}, fun _ => none, exDayEnv, 0, false⟩
private def wInp : OptInputs (GateIn Int) := { gateCtor := .ok wGate, now := 5 * dayUs }
private def wProg : InitProg (GateIn Int) Int Nat :=
  .setOptions wOpts wInp fun _ _ => .call (.order 7 demoEnv.now c!"600000.XSHG" (.int 700) (.style (.limit 12)) .falsy) fun _ _ => .done 1 none
private def wFns (_ : Nat) (m : Nat) (_ : Ctx (GateIn Int) Int) : Prog (GateIn Int) Int Nat := .done m none
private def wTimers : List TimerSetup := [⟨5 * dayUs, 30000 * secUs, []⟩]
private def wP0 : PSt (GateIn Int) Int Nat := ⟨⟨true, some (initialAccount wEnv wProg 0 wOpts wOpts wGate)⟩, 1, []⟩
private def wFired : List (Msg Nat × Int) := [(⟨10, 2, 1, 0⟩, 15), (⟨20, 2, 2, 0⟩, 25)]
private def wState : LoopSt (RunW (PSt (GateIn Int) Int Nat)) Nat PyErr :=
  { world := { srcs := fun _ => { start := none, endAt := none },
               st := stateAfter (gateIn Int) (fun _ => false) wFns (srcCbs wTimers (accCbs false true) id) wP0 wFired 2 }
    fired := wFired }
private def wOps : List (List (AOp Int)) := [[.syncOrders], [.syncOrders]]
private def wA0 : Acct (GateIn Int) Int := Acct.init (wEnv.gateSetup wOpts wGate).1

private theorem wWorks : ∃ s m, WorkingInit wEnv wProg 0 wOpts wOpts wInp wGate s m := by
  have h : ∃ s m, wProg.run wEnv (wEnv.entered 0) = some (s, m, none) := by
    have h1 : ((wProg.run wEnv (wEnv.entered 0)).map (·.2.2)) = some none := by decide +kernel
    cases hr : wProg.run wEnv (wEnv.entered 0) with
    | none => rw [hr] at h1; cases h1
    | some x =>
      obtain ⟨s, m, e⟩ := x
      rw [hr] at h1
      simp only [Option.map_some, Option.some.injEq] at h1
      subst h1
      exact ⟨s, m, rfl⟩
  obtain ⟨s, m, hr⟩ := h
  exact ⟨s, m, hr, by rfl, (parse_iff _ _).1 (by decide +kernel), rfl, rfl, rfl, rfl, rfl, by decide +kernel⟩

private def wDone : List (AOp Int) := syncOps false true ++ wProg.ops wEnv (wEnv.entered 0)

example : (∃ s m, WorkingInit wEnv wProg 0 wOpts wOpts wInp wGate s m) ∧ OptsOk (gateOptions wRest wOpts) ∧
    Broker c!"20240102" exDayEnv exDayR exDayU ∧ (wantBalance wEnv wOpts, wantOrders wEnv wOpts) = (false, true) ∧
    AccountInRun wEnv.G wEnv.udig wFns false true wTimers id wP0 (initialAccount wEnv wProg 0 wOpts wOpts wGate) wState wOps ∧
    FreshIn exDayR exDayU GateIn.n (gateIn Int) [] wA0 (wDone ++ wOps.flatten) ∧
    (∃ g infos, (gateIn Int).orders (wA0.run (gateIn Int) (wDone ++ (wOps.take 1).flatten)).gate = (g, .ok infos)) ∧
    (acksIn (gateIn Int) wA0 (wDone ++ (wOps.take 1).flatten)).map (·.id) = [c!"7"] := by
  have hno : ∀ id i, i < 3 → ¬ RejectedIn id ((exDayR i).getD []) ∧ ¬ UpdatedIn id ((exDayU i).getD []) := by
    intro id i hi
    rw [exDayR, exDayU, if_pos hi, if_pos hi]
    exact ⟨fun ⟨l, hl, _⟩ => (by cases hl), fun ⟨l, hl, _⟩ => (by cases hl)⟩
  refine ⟨wWorks, ⟨by unfold DictOk; decide +kernel, ?_⟩, exDay_broker, by decide +kernel, ?_, ?_, ?_, by decide +kernel⟩
  · intro k d t h
    simp [gateOptions, wOpts, wRest] at h
  · have h : wOps = (firedOps (gateIn Int) (fun _ => false) wFns (srcCbs wTimers (accCbs false true) id) wP0 wState.fired).map
        (·.flatMap POp.current) := by
      rfl
    rw [h]
    exact accountInRun_of _ _ _ _ _ _ _ _ _ rfl rfl _ rfl
  · have hd : wDone ++ wOps.flatten =
        [.syncOrders, .order 7 demoEnv.now c!"600000.XSHG" 700 (.limit 12) .long, .syncOrders, .syncOrders] := by rfl
    rw [hd]
    refine ⟨by simp [AOp.draws], by simp [AOp.asks], by simp [AOp.draws], ?_, by simp [AOp.draws], by simp [AOp.asks], by simp [AOp.draws], by simp [AOp.asks], trivial⟩
    intro k hk
    simp only [AOp.asks, List.mem_singleton] at hk
    subst hk
    exact ⟨⟨(by decide : demoEnv.now.valid = true), (by decide : 1000 ≤ demoEnv.now.year)⟩, hno _ _ (by decide +kernel)⟩
  · have h : ((gateIn Int).orders (wA0.run (gateIn Int) (wDone ++ (wOps.take 1).flatten)).gate).2.isOk = true := by
      decide +kernel
    revert h
    cases (gateIn Int).orders (wA0.run (gateIn Int) (wDone ++ (wOps.take 1).flatten)).gate with
    | mk g r =>
      cases r with
      | ok infos => exact fun _ => ⟨g, infos, rfl⟩
      | error e => intro h; cases h

end Jq
