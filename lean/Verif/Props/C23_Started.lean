import Verif.Props.C18_Started
import Verif.Props.C21_Exact
/-!
# C23: the cancel file over a whole run

The records of the cancel file over every history of one day, and for a process from `process_initialize` on.
-/
set_option linter.unusedSectionVars false
namespace Jq
variable {γ γ' ν μ : Type}

section
variable [PyNum ν]

/-- The records that a history puts into the cancel file: one for each cancel of an order that the account knows at that moment, if the file
can be written then (`look` is what the gate finds outside). -/
def cancelRecords (G : Gate γ ν) (look : γ → Env) : Acct γ ν → List (AOp ν) → List (List Str)
  | _, [] => []
  | a, op :: ops => (match op with
      | .cancel id => if a.find id ≠ none ∧ (look a.gate).write = .none then [[(look a.gate).now.hmsf, id]] else []
      | _ => []) ++ cancelRecords G look (a.step G op).1 ops

private theorem cancelRecords_alike (G : Gate γ ν) (G' : Gate γ' ν) (look : γ → Env) (look' : γ' → Env) (ops : List (AOp ν)) (a : Acct γ ν)
    (b : Acct γ' ν) (h : ∀ xs, (∀ id, (a.run G xs).find id = (b.run G' xs).find id) ∧ look (a.run G xs).gate = look' (b.run G' xs).gate) :
    cancelRecords G look a ops = cancelRecords G' look' b ops := by
  induction ops generalizing a b with
  | nil => rfl
  | cons op ops ih =>
    have h0 := h []
    have e1 : ∀ id, a.find id = b.find id := h0.1
    have e2 : look a.gate = look' b.gate := h0.2
    simp only [cancelRecords, ih (a.step G op).1 (b.step G' op).1 fun xs => h (op :: xs), e1, e2]

end

variable [CellNum ν] [Store ν]

private theorem order_no_cancel (a : Acct (AXG ν) ν) (idn : Nat) (now : DT) (code : Str) (n : Int) (st : Style ν) (sd : Side) (d : Str) :
    (a.step (axGate ν) (.order idn now code n st sd)).1.gate.ax.files (.cancels d) = a.gate.ready.files (.cancels d) := by
  simp only [Acct.step, order_gate, axGate, AXG.next]
  generalize newOrder (natStr idn) now code n st = o
  simp only [AX.order]
  split
  · rfl
  · rename_i items _
    have ha := appendLine_other a.gate.ready.conf.win a.gate.cur.write (.orders a.gate.cur.day) orderHeader
      (joinWith c!"," items ++ linesep a.gate.ready.conf.win) a.gate.ready.files (show FileId.cancels d ≠ .orders a.gate.cur.day by simp)
    split
    · rename_i e; rw [e] at ha; exact ha
    · rename_i e
      rw [e] at ha
      simp only [AX.remember]
      split
      · exact ha
      · simp only
        rw [saveOrders_other _ _ _ _ (by simp) (by simp)]; exact ha

private theorem step_cancels_file (D : Str) (a : Acct (AXG ν) ν) (hwf : a.WF) (op : AOp ν) (recs : List (List Str)) (hwin : a.gate.ax.conf.win = false)
    (hflush : ∀ e k, a.gate.cur.write ≠ .flush e k) (hday : a.gate.cur.day = D) (hext : ∀ fs, a.gate.cur.ext fs (.cancels D) = fs (.cancels D))
    (h : RecordFile false cancelColumns (a.gate.ax.files (.cancels D)) recs) :
    RecordFile false cancelColumns ((a.step (axGate ν) op).1.gate.ax.files (.cancels D)) (recs ++ cancelRecords (axGate ν) AXG.cur a [op]) := by
  have hready : a.gate.ready.files (.cancels D) = a.gate.ax.files (.cancels D) := hext _
  cases op with
  | cancel id =>
    have hsh : (a.step (axGate ν) (.cancel id)).1 = (a.cancel (axGate ν) id).1 := rfl
    simp only [cancelRecords, List.append_nil, hsh]
    by_cases hk : a.find id = none
    · rw [if_neg (fun hc => hc.1 hk), (c23_cancel_record a hwf id).1 hk, List.append_nil]; exact h
    · obtain ⟨_, _, _, whole, g1, g2, _, g3, g4⟩ := c23_failed_writes a hwf id hk (by rw [hwin]; simp)
      rw [hday] at g1 g2 g3
      rw [hwin, hready] at g1
      cases hf : a.gate.cur.write with
      | none =>
        rw [if_pos ⟨hk, rfl⟩, g2 hf, Files.set_self]; exact .record h g1
      | flush e k => exact absurd hf (hflush e k)
      | lock e =>
        rw [if_neg (by simp), g3 e hf, Files.set_self, hready, List.append_nil]
        cases ho : a.gate.ax.files (.cancels D) with
        | some s => rw [ho] at h; exact h
        | none =>
          rw [ho] at h
          cases h with
          | absent => exact .empty
          | record _ h2 => rcases h2 with ⟨_, h2⟩ | ⟨_, _, _, h2⟩ <;> cases h2
      | «open» e =>
        rw [if_neg (by simp), g4 e hf, hready, List.append_nil]; exact h
  | order idn now code n st sd =>
    simp only [cancelRecords, List.append_nil]
    rw [order_no_cancel, hready]; exact h
  | syncBalance =>
    simp only [cancelRecords, List.append_nil, Acct.step, syncBalance_gate]
    show RecordFile _ _ (a.gate.ready.files _) _
    rw [hready]; exact h
  | syncOrders =>
    simp only [cancelRecords, List.append_nil, Acct.step, syncOrders_gate]
    show RecordFile _ _ ((a.gate.ready.syncOrders _).1.files _) _
    rw [ax_syncOrders_files _ _ (by simp) (by simp), hready]
    exact h

/-- In every history on one day, with this process as the only writer and no disk filling up in mid-line, the cancel file is the header
followed by exactly the records of the cancels of known orders that found the file writable, in order. -/
theorem c23_history (D : Str) (ops : List (AOp ν)) (a : Acct (AXG ν) ν) (hwf : a.WF) (recs : List (List Str)) (hwin : a.gate.ax.conf.win = false)
    (hflush : ∀ i e k, (a.gate.env i).write ≠ .flush e k) (hday : ∀ i, (a.gate.env i).day = D)
    (hext : ∀ i fs, (a.gate.env i).ext fs (.cancels D) = fs (.cancels D)) (h : RecordFile false cancelColumns (a.gate.ax.files (.cancels D)) recs) :
    RecordFile false cancelColumns ((a.run (axGate ν) ops).gate.ax.files (.cancels D)) (recs ++ cancelRecords (axGate ν) AXG.cur a ops) := by
  induction ops generalizing a recs with
  | nil => simpa [Acct.run, cancelRecords] using h
  | cons op ops ih =>
    obtain ⟨h1, h2⟩ := axg_step_static a op
    have h3 := step_cancels_file D a hwf op recs hwin (hflush _) (hday _) (hext _) h
    have := ih (a.step (axGate ν) op).1 (wf_step hwf _ op) _ (by rw [h2]; exact hwin) (by rw [h1]; exact hflush) (by rw [h1]; exact hday)
      (by rw [h1]; exact hext) h3
    have e : cancelRecords (axGate ν) AXG.cur a (op :: ops) =
        cancelRecords (axGate ν) AXG.cur a [op] ++ cancelRecords (axGate ν) AXG.cur (a.step (axGate ν) op).1 ops := by
      simp only [cancelRecords, List.append_nil]
    rw [e, ← List.append_assoc]
    exact this

/-- A strategy with the built-in gate, started on the day `D` on POSIX with nobody else writing the cancel file, no disk filling up in
mid-line: at every moment of the run the cancel file is what it was before and then exactly one record for each cancel, in
`process_initialize` or by a task, of an order that the account knew at that moment and that found the file writable. -/
theorem c23_started (E : StartEnv (GateIn ν) ν) (hG : E.G = gateIn ν) (S : SetupEnv) (rest : GOpts) (hE : E.gateSetup = builtInSetup S rest)
    (p : InitProg (GateIn ν) ν μ) (m0 : μ) (o o' : Opts) (inp : OptInputs (GateIn ν)) (before : List Int) (fs : Files) (env : Nat → Env)
    (n : Nat) (s : StartSt (GateIn ν) ν μ) (m : μ)
    (W : WorkingInit E p m0 o o' inp ⟨{ wraps := before }, fs, env, n, false⟩ s m) (ho : OptsOk (gateOptions rest o))
    (hfs : ∀ d, InForce (gateOptions rest o) c!"runtime_dir" (.str S.runtimeDir) (.str d) →
      fs (.data S.day) = S.read (dataPath (joinPath d c!"data") S.task S.day))
    (D : Str) (hflush : ∀ i e k, (env i).write ≠ .flush e k) (hday : ∀ i, (env i).day = D)
    (hext : ∀ i fs, (env i).ext fs (.cancels D) = fs (.cancels D)) (recs : List (List Str)) (h : RecordFile false cancelColumns (fs (.cancels D)) recs)
    (fns : Nat → μ → Ctx (GateIn ν) ν → Prog (GateIn ν) ν μ) (timers : List TimerSetup) (fn : Nat → Nat) (p0 : PSt (GateIn ν) ν μ)
    (r : LoopSt (RunW (PSt (GateIn ν) ν μ)) Nat PyErr) (ops : List (List (AOp ν)))
    (hrun : AccountInRun E.G E.udig fns (wantBalance E o) (wantOrders E o) timers fn p0
      (initialAccount E p m0 o o' ⟨{ wraps := before }, fs, env, n, false⟩) r ops) :
    let a0 : Acct (GateIn ν) ν := Acct.init (E.gateSetup o' ⟨{ wraps := before }, fs, env, n, false⟩).1
    let done := syncOps (wantBalance E o) (wantOrders E o) ++ p.ops E (E.entered m0) ++ ops.flatten
    ∃ a, r.world.st.ctx.acct = some a ∧
      RecordFile false cancelColumns (a.gate.files (.cancels D)) (recs ++ cancelRecords (gateIn ν) (fun g => env g.n) a0 done) := by
  have hopt : gateOptions rest o' = gateOptions rest o := by rw [gateOptions, gateOptions, W.kept.same.2.2.2.2]
  have hset : ({ wraps := before } : GateSt ν).setup S (gateOptions rest o) =
      ((({ wraps := before } : GateSt ν).setup S (gateOptions rest o)).1, .ok ()) := by
    have hgate := W.gate
    rw [hE] at hgate
    have : (({ wraps := before } : GateSt ν).setup S (gateOptions rest o')).2 = .ok () := hgate
    rw [hopt] at this
    rw [← this]
  obtain ⟨conf, _, _, h3, h4⟩ := c96_as_configured S _ ho before _ hset false
  intro a0 done
  have ha0 : a0 = Acct.init ⟨(({ wraps := before } : GateSt ν).setup S (gateOptions rest o)).1, fs, env, n, false⟩ := by
    show Acct.init (E.gateSetup o' _).1 = _
    rw [hE]
    simp only [builtInSetup, hopt]
  have hal := h4 fs hfs env n
  have key := c23_history D done (Acct.init ⟨AX.setup conf fs, env, n⟩ : Acct (AXG ν) ν) (wf_init _) recs h3 hflush hday hext h
  refine ⟨_, congrArg Ctx.acct hrun.now, ?_⟩
  have einit : (initialAccount E p m0 o o' ⟨{ wraps := before }, fs, env, n, false⟩).run E.G ops.flatten = a0.run (gateIn ν) done := by
    rw [initialAccount, hG, ← Acct.run_append]; rfl
  rw [einit, ha0, (hal done .syncBalance).2.1]
  rw [cancelRecords_alike (gateIn ν) (axGate ν) (fun g => env g.n) AXG.cur done _ (Acct.init ⟨AX.setup conf fs, env, n⟩ : Acct (AXG ν) ν) ?_]
  · exact key
  · intro xs
    obtain ⟨e1, _, _, _, e5, _⟩ := hal xs .syncBalance
    refine ⟨fun id => ?_, ?_⟩
    · simp only [Acct.find, e1.1, e1.2.1]
    · show env _ = AXG.cur _
      have hs : ∀ (ys : List (AOp ν)) (b : Acct (AXG ν) ν), (b.run (axGate ν) ys).gate.env = b.gate.env := by
        intro ys
        induction ys with
        | nil => intro b; rfl
        | cons y ys ih => intro b; exact (ih _).trans (axg_step_static b y).1
      rw [AXG.cur, hs, e5]
      rfl

private def wS : SetupEnv :=
  { there := fun p => decide (p = c!"/oq"), runtimeDir := c!"/run", task := c!"t", day := c!"20240102", read := fun _ => none }
private def wRest : GOpts := [(c!"order_dir", .str c!"/oq")]
private def wOpts : Opts where
  syncBalance := some false
  syncOrder := some false
  syncInternal := some (.ok (30000 * secUs))
  accountNo := some c!"88"
private def wEnv : StartEnv (GateIn Int) Int :=
  ⟨⟨false, 365, .ofPeriods [(0, 60 * secUs)], true, true, true, .error .valueError, .falsy⟩, 100, gateIn Int, fun _ => false,
    builtInSetup wS wRest, 5 * dayUs, none, fun _ _ => 5⟩
/-- The third call of the gate cannot lock the file. -/
private def wDays (i : Nat) : Env := if i = 2 then { demoEnv with write := .lock .timeOut } else demoEnv
private def wGate : GateIn Int := ⟨{}, fun _ => none, wDays, 0, false⟩
private def wInp : OptInputs (GateIn Int) := { gateCtor := .ok wGate, now := 5 * dayUs }
private def wProg : InitProg (GateIn Int) Int Nat :=
  .setOptions wOpts wInp fun _ _ => .call (.order 7 demoEnv.now c!"600000.XSHG" (.int 700) (.style (.limit 12)) .falsy) fun _ _ =>
    .call (.cancel c!"7") fun _ _ => .done 1 none
private def wFns (_ : Nat) (m : Nat) (_ : Ctx (GateIn Int) Int) : Prog (GateIn Int) Int Nat :=
  .call (.batchCancel [c!"7", c!"99", c!"7"]) fun _ _ => .done (m + 1) none
private def wTimers : List TimerSetup := []
private def wP0 : PSt (GateIn Int) Int Nat := ⟨⟨true, some (initialAccount wEnv wProg 0 wOpts wOpts wGate)⟩, 1, []⟩
private def wFired : List (Msg Nat × Int) := [(⟨10, 2, 1, 0⟩, 15)]
private def wState : LoopSt (RunW (PSt (GateIn Int) Int Nat)) Nat PyErr :=
  { world := { srcs := fun _ => { start := none, endAt := none },
               st := stateAfter (gateIn Int) (fun _ => false) wFns (srcCbs wTimers (accCbs false false) id) wP0 wFired 1 }
    fired := wFired }
private def wOps : List (List (AOp Int)) := [[.cancel c!"7", .cancel c!"99", .cancel c!"7"]]
private def wDone : List (AOp Int) := syncOps false false ++ wProg.ops wEnv (wEnv.entered 0) ++ wOps.flatten

private theorem wWorks : ∃ s m, WorkingInit wEnv wProg 0 wOpts wOpts wInp wGate s m := by
  have h : ∃ s m, wProg.run wEnv (wEnv.entered 0) = some (s, m, none) := by
    have h1 : ((wProg.run wEnv (wEnv.entered 0)).map (·.2.2)) = some none := by decide +kernel
    cases hr : wProg.run wEnv (wEnv.entered 0) with
    | none => rw [hr] at h1; cases h1
    | some x =>
      obtain ⟨s, m, e⟩ := x
      rw [hr] at h1
      simp only [Option.map_some, Option.some.injEq] at h1
      subst h1
      exact ⟨s, m, rfl⟩
  obtain ⟨s, m, hr⟩ := h
  exact ⟨s, m, hr, by rfl, (parse_iff _ _).1 (by decide +kernel), rfl, rfl, rfl, rfl, rfl, by decide +kernel⟩

/-- `process_initialize` orders and cancels; a task cancels the order twice and an order that nobody knows, and the first time the file
cannot be locked.  The hypotheses of `c23_started` (and so of `c23_history`) are met; what is then in the cancel file. -/
example : (∃ s m, WorkingInit wEnv wProg 0 wOpts wOpts wInp wGate s m) ∧ OptsOk (gateOptions wRest wOpts) ∧
    (∀ path, wGate.files (.data wS.day) = wS.read path) ∧
    (∀ i e k, (wDays i).write ≠ .flush e k) ∧ (∀ i, (wDays i).day = c!"20240102") ∧ (∀ i fs, (wDays i).ext fs = fs) ∧
    RecordFile false cancelColumns (wGate.files (.cancels c!"20240102")) [] ∧
    AccountInRun wEnv.G wEnv.udig wFns (wantBalance wEnv wOpts) (wantOrders wEnv wOpts) wTimers id wP0
      (initialAccount wEnv wProg 0 wOpts wOpts wGate) wState wOps ∧
    cancelRecords (gateIn Int) (fun g => wDays g.n) (Acct.init (wEnv.gateSetup wOpts wGate).1) wDone =
      [[c!"093000.000025", c!"7"], [c!"093000.000025", c!"7"]] ∧
    ((wState.world.st.ctx.acct.map fun a => a.gate.files (.cancels c!"20240102")) =
      some (some c!"updTime,custBatchNo\n093000.000025,7\n093000.000025,7\n")) := by
  refine ⟨wWorks, ⟨by unfold DictOk; decide +kernel, ?_⟩, fun _ => rfl, ?_, ?_, ?_, ?_, ?_, by decide +kernel, by decide +kernel⟩
  · intro k d t h
    simp [gateOptions, wOpts, wRest] at h
  · intro i e k; unfold wDays; split <;> simp [demoEnv]
  · intro i; unfold wDays; split <;> rfl
  · intro i fs; unfold wDays; split <;> rfl
  · exact .absent
  · have h : wOps = (firedOps (gateIn Int) (fun _ => false) wFns (srcCbs wTimers (accCbs false false) id) wP0 wState.fired).map
        (·.flatMap POp.current) := by
      rfl
    rw [h]
    exact accountInRun_of _ _ _ _ _ _ _ _ _ rfl rfl _ rfl

end Jq
