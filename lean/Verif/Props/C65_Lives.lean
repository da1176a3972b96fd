import Verif.Spec.Lives
import Verif.Props.C65_Orders
/-!
# C65: the orders of a day with several processes
-/
namespace Jq
variable {ν μ : Type} [CellNum ν] [Store ν]

theorem freshFor_last {R U : Nat → Option Str} {used : List Str} {a : Acct (AXG ν) ν} {xs : List (AOp ν)} {op : AOp ν}
    (h : FreshFor R U used a (xs ++ [op])) :
    FreshFor R U used a xs ∧ (∀ id ∈ op.draws, id ∉ used ++ xs.flatMap AOp.draws) ∧
    (∀ k ∈ op.asks, k.now.ok ∧ ¬ RejectedIn k.id ((R (a.run (axGate ν) xs).gate.n).getD []) ∧
      ¬ UpdatedIn k.id ((U (a.run (axGate ν) xs).gate.n).getD [])) := by
  induction xs generalizing used a with
  | nil => exact ⟨trivial, by simpa using h.1, h.2.1⟩
  | cons x xs ih =>
    obtain ⟨h1, h2, h3⟩ := h
    obtain ⟨g1, g2, g3⟩ := ih h3
    exact ⟨⟨h1, h2, g1⟩, by simpa using g2, g3⟩

/-- A day with several processes is a run of operations and crashes. -/
theorem lives_frun {R U : Nat → Option Str} {start t : PState ν} (h : Lives R U start t) : ∃ asked, FRun R U start asked t := by
  induction h with
  | first => exact ⟨[], .refl⟩
  | @killed t u nb done op fops pre _ hd hc hp hu ih =>
    obtain ⟨asked, ih⟩ := ih
    obtain ⟨h1, h2, h3⟩ := freshFor_last hd.fresh
    subst hu
    exact ⟨_, FRun.step op (frun_ops done ih h1) (.crash _ fops pre h2 hc hp) h3⟩
  | @stopped t u nb done _ hd hu ih =>
    obtain ⟨asked, ih⟩ := ih
    have hc := PStepBy.crash (op := .syncBalance) (t.after done) [] [] (by simp [AOp.draws]) .balance (List.prefix_refl _)
    have := FRun.step .syncBalance (frun_ops done ih hd.fresh) hc (by simp [AOp.asks])
    rw [show (t.after done).used ++ (AOp.syncBalance : AOp ν).draws = (t.after done).used from List.append_nil _] at this
    subst hu
    exact ⟨_, this⟩

variable [LawfulStore ν]

/-- On a day on which processes are started, killed at any point (also in the middle of writing a file) and started again: when a
timer of the process that runs now fires and the gate can read its files, then the account shows every order whose id was ever
returned, by this process or by an earlier one, as it was asked for and with what the broker's files say about it. -/
theorem c65_orders_survive (D : Str) (conf : AXConf) (fs : Files) (env : Nat → Env) (R U : Nat → Option Str) (n : Nat) (used : List Str)
    (hB : Broker D env R U) (hwin : conf.win = false) (hign : conf.ignoreErr = true) (h0 : fs (.data conf.dataDay) = none)
    (t : PState ν) (hl : Lives R U ⟨Acct.init ⟨AX.setup conf fs, env, n⟩, [], used⟩ t)
    (udig : Char → Bool) (fns : Nat → μ → Ctx (AXG ν) ν → Prog (AXG ν) ν μ) (nb : Bool) (timers : List TimerSetup) (fn : Nat → Nat)
    (p0 : PSt (AXG ν) ν μ) (s : LoopSt (RunW (PSt (AXG ν) ν μ)) Nat PyErr) (ini : List (AOp ν)) (ops : List (List (AOp ν)))
    (hrun : AccountInRun (axGate ν) udig fns nb true timers fn p0 (t.acct.run (axGate ν) (syncOps nb true ++ ini)) s ops)
    (hfresh : FreshFor R U t.used t.acct (syncOps nb true ++ ini ++ ops.flatten))
    (m : Nat) (f : Msg Nat × Int) (hf : s.fired[m]? = some f) (hd : f.1.data < timers.length) :
    let sofar := syncOps nb true ++ ini ++ (ops.take m).flatten
    let before := t.acct.run (axGate ν) (sofar ++ if nb then [.syncBalance] else [])
    (∃ g infos, (axGate ν).orders before.gate = (g, .ok infos)) →
    ∃ a, (stateAfter (axGate ν) udig fns (srcCbs timers (accCbs nb true) fn) p0 s.fired (m + 1)).ctx.acct = some a ∧
      ∀ k ∈ t.acks ++ acksOf t.acct sofar, ∃ o, a.find k.id = some o ∧ o.AsAsked k ∧
        o.ShowsFiles ((R before.gate.n).getD []) ((U before.gate.n).getD []) := by
  intro sofar before ⟨g, infos, hG⟩
  obtain ⟨asked, hlf⟩ := lives_frun hl
  refine ⟨_, congrArg Ctx.acct (hrun.account (m + 1)), ?_⟩
  have hm : ops[m]? = some (syncOps nb true) := hrun.timer m f hf hd
  have htake : ops.take (m + 1) = ops.take m ++ [syncOps nb true] := by
    rw [List.take_add_one, hm]; rfl
  have e : (t.acct.run (axGate ν) (syncOps nb true ++ ini)).run (axGate ν) (ops.take (m + 1)).flatten = (before.syncOrders (axGate ν)).1 := by
    simp only [htake, before, sofar, ← Acct.run_append, List.flatten_append, List.flatten_cons, List.flatten_nil, List.append_nil]
    cases nb
    · simp only [syncOps, Acct.run_append]; simp [Acct.run, Acct.step]
    · simp only [syncOps, Acct.run_append]; simp [Acct.run, Acct.step]
  rw [e]
  intro k hk
  have hpre : FreshFor R U t.used t.acct (sofar ++ if nb then [.syncBalance] else []) := by
    have e2 : syncOps nb true ++ ini ++ ops.flatten = (sofar ++ if nb then [.syncBalance] else []) ++
        ([.syncOrders] ++ (ops.drop (m + 1)).flatten) := by
      have e3 : ops.flatten = (ops.take (m + 1)).flatten ++ (ops.drop (m + 1)).flatten := by
        rw [← List.flatten_append, List.take_append_drop]
      rw [e3, htake]
      cases nb <;> simp [syncOps, sofar]
    rw [e2] at hfresh
    exact freshFor_append hfresh
  have hfr := frun_ops _ hlf hpre
  refine c64_accepted_orders_shown D conf fs env R U n used hB hwin hign h0 _ _ hfr g infos hG k ?_
  rw [acksOf_append]
  rcases List.mem_append.1 hk with hk | hk
  · exact List.mem_append.2 (.inl hk)
  · exact List.mem_append.2 (.inr (List.mem_append.2 (.inl hk)))

/-! A concrete case: the first process orders 7 in `process_initialize` and is killed at the end of order 8, whose id is never
returned; the second one only synchronises.  Its timer shows order 7, filled. -/

private def exStart : PState Int := ⟨Acct.init ⟨AX.setup (demoConf false) fun _ => none, exDayEnv, 0⟩, [], []⟩
private def exAsk (n : Nat) : AOp Int := .order n demoEnv.now c!"600000.XSHG" (n * 100) (.limit 12) .long
private def exOne : PState Int := exStart.after (syncOps false true ++ [exAsk 7])
private def exItems : List Str :=
  (orderFields exOne.acct.gate.ready.conf demoEnv.now (newOrder (ν := Int) (natStr 8) demoEnv.now c!"600000.XSHG" 800 (.limit 12))).toOption.getD []
private def exText : Str := (Store.dump (dset exOne.acct.gate.ready.book (natStr 8)
  (newInfo (ν := Int) (natStr 8) demoEnv.now c!"600000.XSHG" 800 (.limit 12)))).getD []
/-- Everything that order 8 writes, in one piece. -/
private def exWrites : List FOp :=
  let s := exOne.acct.gate.ready
  writeOps (.orders demoEnv.day) [addedText s.conf.win (.orders demoEnv.day) orderHeader (joinWith c!"," exItems ++ linesep s.conf.win) s.files] ++
    saveOps s.conf.win s.conf.dataDay [exText] [exText] (s.files (.data s.conf.dataDay)).isSome
private def exTwo : PState Int :=
  ⟨Acct.init ⟨AX.setup exOne.acct.gate.ax.conf (runOps exOne.acct.gate.ready.files exWrites), exOne.acct.gate.env, exOne.acct.gate.n + 1⟩,
    exOne.acks, exOne.used ++ (exAsk 8).draws⟩
private def exFns (_ : Nat) (m : Nat) (_ : Ctx (AXG Int) Int) : Prog (AXG Int) Int Nat := .done m none
private def exTimers : List TimerSetup := [⟨0, 30 * secUs, []⟩]
private def exP0 : PSt (AXG Int) Int Nat := ⟨⟨true, some (exTwo.acct.run (axGate Int) (syncOps false true ++ []))⟩, 0, []⟩
private def exFired : List (Msg Nat × Int) := [(⟨10, 2, 1, 0⟩, 15)]
private def exState : LoopSt (RunW (PSt (AXG Int) Int Nat)) Nat PyErr :=
  { world := { srcs := fun _ => { start := none, endAt := none },
               st := stateAfter (axGate Int) (fun _ => false) exFns (srcCbs exTimers (accCbs false true) id) exP0 exFired 1 }
    fired := exFired }

set_option maxRecDepth 20000 in
example : Lives exDayR exDayU exStart exTwo ∧
    AccountInRun (axGate Int) (fun _ => false) exFns false true exTimers id exP0 (exTwo.acct.run (axGate Int) (syncOps false true ++ [])) exState [[.syncOrders]] ∧
    FreshFor exDayR exDayU exTwo.used exTwo.acct (syncOps false true ++ [] ++ [[AOp.syncOrders]].flatten) ∧
    exTwo.acks.map (·.id) = [c!"7"] ∧
    ((axGate Int).orders (exTwo.acct.run (axGate Int) (syncOps false true)).gate).2.isOk = true ∧
    ((exState.world.st.ctx.acct.bind fun a => a.find c!"7").map fun o => (o.amount, o.status, o.filled)) = some (700, some .filled, 100) := by
  have hno : ∀ id i, i < 3 → ¬ RejectedIn id ((exDayR i).getD []) ∧ ¬ UpdatedIn id ((exDayU i).getD []) := by
    intro id i hi
    rw [exDayR, exDayU, if_pos hi, if_pos hi]
    exact ⟨fun ⟨l, hl, _⟩ => (by cases hl), fun ⟨l, hl, _⟩ => (by cases hl)⟩
  have hask : ∀ (n m : Nat), n < 3 → ∀ k ∈ (exAsk m).asks, k.now.ok ∧ ¬ RejectedIn k.id ((exDayR n).getD []) ∧ ¬ UpdatedIn k.id ((exDayU n).getD []) := by
    intro n m hn k hk
    simp only [exAsk, AOp.asks, List.mem_singleton] at hk
    subst hk
    exact ⟨⟨(by decide : demoEnv.now.valid = true), (by decide : 1000 ≤ demoEnv.now.year)⟩, hno _ _ hn⟩
  refine ⟨?_, ?_, ?_, by decide +kernel, by decide +kernel, by decide +kernel⟩
  · refine .killed (nb := false) (done := syncOps false true ++ [exAsk 7]) (op := exAsk 8) (fops := exWrites) (pre := exWrites) .first ?_ ?_
      (List.prefix_refl _) rfl
    · refine ⟨⟨by simp [AOp.draws], by simp [AOp.asks], by decide +kernel, hask _ _ (by decide +kernel), by decide +kernel, hask _ _ (by decide +kernel), trivial⟩,
        .inr ⟨[exAsk 7, exAsk 8], .inl rfl⟩⟩
    · have h1 : orderFields exOne.acct.gate.ready.conf demoEnv.now (newOrder (ν := Int) (natStr 8) demoEnv.now c!"600000.XSHG" 800 (.limit 12)) = .ok exItems := by
        decide +kernel
      exact .order (load_newOrderInfo _ _ _ _ _) h1 (by simp; rfl) (newOrder_json _ _ _ _ _) (.saved (text := exText) rfl (by simp) (by simp))
  · have h : [[AOp.syncOrders]] = (firedOps (axGate Int) (fun _ => false) exFns (srcCbs exTimers (accCbs false true) id) exP0 exState.fired).map
        (·.flatMap POp.current) := by
      rfl
    rw [h]
    exact accountInRun_of _ _ _ _ _ _ _ _ _ rfl rfl _ rfl
  · exact ⟨by simp [AOp.draws], by simp [AOp.asks], by simp [AOp.draws], by simp [AOp.asks], trivial⟩

end Jq
