import Verif.Spec.Shown
import Verif.Lemmas.Process
import Verif.Props.C64_Flow
/-!
# C65: the orders of a process

In a whole run with the file gate the timer shows the user every order that was accepted before.
-/
namespace Jq
variable {ν μ : Type}

section
variable [CellNum ν] [Store ν]

theorem acksOf_append (a : Acct (AXG ν) ν) (xs ys : List (AOp ν)) :
    acksOf a (xs ++ ys) = acksOf a xs ++ acksOf (a.run (axGate ν) xs) ys := by
  induction xs generalizing a with
  | nil => rfl
  | cons x xs ih => simp [acksOf, ih, Acct.run]

theorem freshFor_append {R U : Nat → Option Str} {used : List Str} {a : Acct (AXG ν) ν} {xs ys : List (AOp ν)}
    (h : FreshFor R U used a (xs ++ ys)) : FreshFor R U used a xs := by
  induction xs generalizing used a with
  | nil => trivial
  | cons x xs ih => exact ⟨h.1, h.2.1, ih h.2.2⟩

/-- Fresh operations are a run of C64 without crashes. -/
theorem frun_ops {R U : Nat → Option Str} {s : PState ν} (ops : List (AOp ν)) {asked : List (Ack ν)} {t : PState ν}
    (h : FRun R U s asked t) (hf : FreshFor R U t.used t.acct ops) :
    FRun R U s (asked ++ ops.flatMap AOp.asks)
      ⟨t.acct.run (axGate ν) ops, t.acks ++ acksOf t.acct ops, t.used ++ ops.flatMap AOp.draws⟩ := by
  induction ops generalizing asked t with
  | nil => simpa [acksOf, Acct.run] using h
  | cons op ops ih =>
    obtain ⟨h1, h2, h3⟩ := hf
    have := ih (FRun.step op h (.op t h1) h2) h3
    simpa [acksOf, Acct.run] using this

end

variable [CellNum ν] [Store ν] [LawfulStore ν]

/-- In a run of the process with the file gate, after a set-up that synchronised: when a timer that synchronises orders fires
and the gate can read its files, then the account shows every order whose id was returned until then, by whichever
function, as it was asked for and with what the broker's files say about it. -/
theorem c65_orders_shown (D : Str) (conf : AXConf) (fs : Files) (env : Nat → Env) (R U : Nat → Option Str) (n : Nat) (used : List Str)
    (hB : Broker D env R U) (hwin : conf.win = false) (hign : conf.ignoreErr = true) (h0 : fs (.data conf.dataDay) = none)
    (udig : Char → Bool) (fns : Nat → μ → Ctx (AXG ν) ν → Prog (AXG ν) ν μ) (nb : Bool) (timers : List TimerSetup) (fn : Nat → Nat)
    (p0 : PSt (AXG ν) ν μ) (s : LoopSt (RunW (PSt (AXG ν) ν μ)) Nat PyErr) (ops : List (List (AOp ν))) :
    let init : Acct (AXG ν) ν := Acct.init ⟨AX.setup conf fs, env, n⟩
    AccountInRun (axGate ν) udig fns nb true timers fn p0 (init.run (axGate ν) (syncOps nb true)) s ops →
    FreshFor R U used init (syncOps nb true ++ ops.flatten) →
    ∀ m f, s.fired[m]? = some f → f.1.data < timers.length →
      let before := init.run (axGate ν) (syncOps nb true ++ (ops.take m).flatten ++ if nb then [.syncBalance] else [])
      (∃ g infos, (axGate ν).orders before.gate = (g, .ok infos)) →
      ∃ a, (stateAfter (axGate ν) udig fns (srcCbs timers (accCbs nb true) fn) p0 s.fired (m + 1)).ctx.acct = some a ∧
        ∀ k ∈ acksOf init (syncOps nb true ++ (ops.take m).flatten), ∃ o, a.find k.id = some o ∧ o.AsAsked k ∧
          o.ShowsFiles ((R before.gate.n).getD []) ((U before.gate.n).getD []) := by
  intro init hrun hfresh m f hf hd before ⟨g, infos, hG⟩
  refine ⟨_, congrArg Ctx.acct (hrun.account (m + 1)), ?_⟩
  have hm : ops[m]? = some (syncOps nb true) := hrun.timer m f hf hd
  have hlt : m < ops.length := by
    rcases Nat.lt_or_ge m ops.length with h | h
    · exact h
    · rw [List.getElem?_eq_none h] at hm; cases hm
  have htake : ops.take (m + 1) = ops.take m ++ [syncOps nb true] := by
    rw [List.take_add_one, hm]; rfl
  have e : (init.run (axGate ν) (syncOps nb true)).run (axGate ν) (ops.take (m + 1)).flatten = (before.syncOrders (axGate ν)).1 := by
    simp only [htake, before, ← Acct.run_append, List.flatten_append, List.flatten_cons, List.flatten_nil, List.append_nil]
    cases nb
    · simp only [syncOps, Acct.run_append]; simp [Acct.run, Acct.step]
    · simp only [syncOps, Acct.run_append]; simp [Acct.run, Acct.step]
  rw [e]
  intro k hk
  have hpre : FreshFor R U used init (syncOps nb true ++ (ops.take m).flatten ++ if nb then [.syncBalance] else []) := by
    have e2 : syncOps nb true ++ ops.flatten = (syncOps nb true ++ (ops.take m).flatten ++ if nb then [.syncBalance] else []) ++
        ([.syncOrders] ++ (ops.drop (m + 1)).flatten) := by
      have e3 : ops.flatten = (ops.take (m + 1)).flatten ++ (ops.drop (m + 1)).flatten := by
        rw [← List.flatten_append, List.take_append_drop]
      rw [e3, htake]
      cases nb <;> simp [syncOps]
    rw [e2] at hfresh
    exact freshFor_append hfresh
  have hfr := frun_ops (s := ⟨init, [], used⟩) _ (FRun.refl (R := R) (U := U)) hpre
  refine c64_accepted_orders_shown D conf fs env R U n used hB hwin hign h0 _ _ hfr g infos hG k ?_
  rw [acksOf_append]
  exact List.mem_append.2 (Or.inr (List.mem_append.2 (Or.inl hk)))

/-! A concrete case: a task orders, the timer fires before the broker has written its files, and again afterwards. -/

private def exInit : Acct (AXG Int) Int := Acct.init ⟨AX.setup (demoConf false) fun _ => none, exDayEnv, 0⟩
private def exFns (_ : Nat) (m : Nat) (_ : Ctx (AXG Int) Int) : Prog (AXG Int) Int Nat :=
  .call (.order 7 demoEnv.now c!"600000.XSHG" (.int 700) (.style (.limit 12)) .falsy) fun _ r =>
    .done (m + 1) (match r with | .ok _ => none | .error e => some e)
private def exTimers : List TimerSetup := [⟨0, 30 * secUs, []⟩]
private def exP0 : PSt (AXG Int) Int Nat := ⟨⟨true, some (exInit.run (axGate Int) (syncOps false true))⟩, 0, []⟩
private def exFired : List (Msg Nat × Int) := [(⟨0, 0, 0, 1⟩, 5), (⟨10, 2, 1, 0⟩, 15), (⟨20, 2, 2, 0⟩, 25)]
private def exState : LoopSt (RunW (PSt (AXG Int) Int Nat)) Nat PyErr :=
  { world := { srcs := fun _ => { start := none, endAt := none },
               st := stateAfter (axGate Int) (fun _ => false) exFns (srcCbs exTimers (accCbs false true) id) exP0 exFired 3 }
    fired := exFired }
private def exOps : List (List (AOp Int)) :=
  [[.order 7 demoEnv.now c!"600000.XSHG" 700 (.limit 12) .long], [.syncOrders], [.syncOrders]]

example : AccountInRun (axGate Int) (fun _ => false) exFns false true exTimers id exP0 (exInit.run (axGate Int) (syncOps false true)) exState exOps ∧
    Broker c!"20240102" exDayEnv exDayR exDayU ∧ FreshFor exDayR exDayU [] exInit (syncOps false true ++ exOps.flatten) ∧
    (∃ g infos, (axGate Int).orders (exInit.run (axGate Int) (syncOps false true ++ (exOps.take 2).flatten)).gate = (g, .ok infos)) ∧
    (acksOf exInit (syncOps false true ++ (exOps.take 2).flatten)).map (·.id) = [c!"7"] := by
  have hno : ∀ id i, i < 3 → ¬ RejectedIn id ((exDayR i).getD []) ∧ ¬ UpdatedIn id ((exDayU i).getD []) := by
    intro id i hi
    rw [exDayR, exDayU, if_pos hi, if_pos hi]
    exact ⟨fun ⟨l, hl, _⟩ => (by cases hl), fun ⟨l, hl, _⟩ => (by cases hl)⟩
  refine ⟨?_, exDay_broker, ?_, ?_, by decide +kernel⟩
  · have h : exOps = (firedOps (axGate Int) (fun _ => false) exFns (srcCbs exTimers (accCbs false true) id) exP0 exState.fired).map
        (·.flatMap POp.current) := by
      rfl
    rw [h]
    exact accountInRun_of _ _ _ _ _ _ _ _ _ rfl rfl _ rfl
  · refine ⟨by simp [AOp.draws], by simp [AOp.asks], by simp [AOp.draws], ?_, by simp [AOp.draws], by simp [AOp.asks], by simp [AOp.draws], by simp [AOp.asks], trivial⟩
    intro k hk
    simp only [AOp.asks, List.mem_singleton] at hk
    subst hk
    exact ⟨⟨(by decide : demoEnv.now.valid = true), (by decide : 1000 ≤ demoEnv.now.year)⟩, hno _ _ (by decide +kernel)⟩
  · have h : ((axGate Int).orders (exInit.run (axGate Int) (syncOps false true ++ (exOps.take 2).flatten)).gate).2.isOk = true := by
      decide +kernel
    revert h
    cases (axGate Int).orders (exInit.run (axGate Int) (syncOps false true ++ (exOps.take 2).flatten)).gate with
    | mk g r =>
      cases r with
      | ok infos => exact fun _ => ⟨g, infos, rfl⟩
      | error e => intro h; cases h

end Jq
