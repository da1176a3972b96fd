import Verif.Props.C65_Started
/-!
# C18: the order file of a process with the built-in gate

From `process_initialize` to the records in the order file.
-/
set_option linter.unusedSectionVars false
namespace Jq
variable {γ γ' ν μ : Type}

section
variable [PyNum ν]

private theorem acknowledged_alike (G : Gate γ ν) (G' : Gate γ' ν) (ops : List (AOp ν)) (a : Acct γ ν) (b : Acct γ' ν)
    (h : ∀ xs op, ((a.run G xs).step G op).2 = ((b.run G' xs).step G' op).2) : acknowledged G a ops = acknowledged G' b ops := by
  induction ops generalizing a b with
  | nil => rfl
  | cons op ops ih =>
    have h0 : (a.step G op).2 = (b.step G' op).2 := h [] op
    simp only [acknowledged, ih (a.step G op).1 (b.step G' op).1 fun xs op' => h (op :: xs) op', h0]

/-- No order has the amount zero. -/
private def NoZero (ops : List (AOp ν)) : Prop := ∀ idn now code n st sd, .order idn now code n st sd ∈ ops → n ≠ 0

private theorem noZero_append {xs ys : List (AOp ν)} (hx : NoZero xs) (hy : NoZero ys) : NoZero (xs ++ ys) := by
  intro idn now code n st sd h
  rcases List.mem_append.1 h with h | h
  · exact hx _ _ _ _ _ _ h
  · exact hy _ _ _ _ _ _ h

private theorem noZero_nil : NoZero ([] : List (AOp ν)) := fun _ _ _ _ _ _ h => by cases h

private theorem noZero_sync (nb no : Bool) : NoZero (syncOps nb no : List (AOp ν)) := by
  intro idn now code n st sd h
  cases nb <;> cases no <;> simp [syncOps] at h

private theorem noZero_request (udig : Char → Bool) (idn : Nat) (now : DT) (code : Str) (amount : AmtArg) (style : StyleArg ν) (side : SideArg) :
    NoZero (requestOps udig idn now code amount style side) := by
  intro idn' now' code' n' st' sd' h
  unfold requestOps at h
  split at h
  · rename_i n st sd hc
    simp only [List.mem_singleton, AOp.order.injEq] at h
    rw [h.2.2.2.1]
    exact ((c17_accepts_valid udig code amount style side n st sd).1 hc).2.1.2
  · cases h

private theorem noZero_api (udig : Char → Bool) (c : ApiCall ν) : NoZero (c.ops udig) := by
  cases c with
  | order idn now code amount style side => exact noZero_request (ν := ν) udig idn now code amount style side
  | cancel id => intro _ _ _ _ _ _ h; simp [ApiCall.ops] at h
  | batchSubmit es =>
    intro idn now code n st sd h
    simp only [ApiCall.ops, List.mem_flatMap] at h
    obtain ⟨e, _, h⟩ := h
    split at h
    · exact noZero_request _ _ _ _ _ _ _ _ _ _ _ _ _ h
    · cases h
  | batchCancel ids => intro _ _ _ _ _ _ h; simp [ApiCall.ops] at h
  | syncBalance => intro _ _ _ _ _ _ h; simp [ApiCall.ops] at h
  | syncOrders => intro _ _ _ _ _ _ h; simp [ApiCall.ops] at h

private theorem noZero_prog (G : Gate γ ν) (udig : Char → Bool) (p : Prog γ ν μ) (x : Ctx γ ν) : NoZero (p.ops G udig x) := by
  induction p generalizing x with
  | done _ _ => exact noZero_nil
  | call c next ih =>
    simp only [Prog.ops]
    refine noZero_append ?_ (ih _ _ _)
    split
    · exact noZero_api (ν := ν) _ c
    · exact noZero_nil

private theorem noZero_init (E : StartEnv γ ν) (p : InitProg γ ν μ) (s : StartSt γ ν μ) : NoZero (p.ops E s) := by
  induction p generalizing s with
  | done _ _ => exact noZero_nil
  | runDaily f t next ih => exact ih _ _
  | setOptions o inp next ih =>
    simp only [InitProg.ops]
    split
    · exact noZero_nil
    · exact ih _ _ _
  | call c next ih =>
    simp only [InitProg.ops]
    refine noZero_append ?_ (ih _ _ _)
    split
    · exact noZero_api (ν := ν) _ c
    · exact noZero_nil

private theorem noZero_run {G : Gate γ ν} {udig : Char → Bool} {fns : Nat → μ → Ctx γ ν → Prog γ ν μ} {nb no : Bool} {timers : List TimerSetup}
    {fn : Nat → Nat} {p0 : PSt γ ν μ} {a0 : Acct γ ν} {s : LoopSt (RunW (PSt γ ν μ)) Nat PyErr} {ops : List (List (AOp ν))}
    (h : AccountInRun G udig fns nb no timers fn p0 a0 s ops) : NoZero ops.flatten := by
  intro idn now code n st sd hm
  obtain ⟨l, hl, hm⟩ := List.mem_flatten.1 hm
  obtain ⟨i, hi⟩ := List.mem_iff_getElem?.1 hl
  have hlt : i < s.fired.length := by
    rw [← h.length]
    exact (List.getElem?_eq_some_iff.1 hi).1
  have hf := List.getElem?_eq_getElem hlt
  rcases Nat.lt_or_ge (s.fired[i]).1.data timers.length with hd | hd
  · have := h.timer i _ hf hd
    rw [hi] at this
    injection this with this
    rw [this] at hm
    exact noZero_sync _ _ _ _ _ _ _ _ hm
  · have := h.task i _ hf hd
    simp only at this
    rw [hi] at this
    injection this with this
    rw [this] at hm
    exact noZero_prog _ _ _ _ _ _ _ _ _ _ hm

end

variable [CellNum ν] [Store ν]

/-- A strategy with the built-in gate, started on the day `D` with nobody else writing the order file, no disk filling up in mid-line: at
every moment of the run the order file is what it was before and then whole records as the options configure them: for every id that was
returned, in `process_initialize` or by a task, its record, in order, and otherwise only records of orders that were asked for.  Missing
as in C18: Windows, and a record that is cut short. -/
theorem c18_started_partial (E : StartEnv (GateIn ν) ν) (hG : E.G = gateIn ν) (S : SetupEnv) (rest : GOpts) (hE : E.gateSetup = builtInSetup S rest)
    (p : InitProg (GateIn ν) ν μ) (m0 : μ) (o o' : Opts) (inp : OptInputs (GateIn ν)) (before : List Int) (fs : Files) (env : Nat → Env)
    (n : Nat) (s : StartSt (GateIn ν) ν μ) (m : μ)
    (W : WorkingInit E p m0 o o' inp ⟨{ wraps := before }, fs, env, n, false⟩ s m) (ho : OptsOk (gateOptions rest o))
    (hfs : ∀ d, InForce (gateOptions rest o) c!"runtime_dir" (.str S.runtimeDir) (.str d) →
      fs (.data S.day) = S.read (dataPath (joinPath d c!"data") S.task S.day))
    (D : Str) (hflush : ∀ i e k, (env i).write ≠ .flush e k) (hday : ∀ i, (env i).day = D)
    (hext : ∀ i fs, (env i).ext fs (.orders D) = fs (.orders D)) (recs : List (List Str)) (h : RecordFile false orderColumns (fs (.orders D)) recs) :
    ∃ conf, ConfiguredBy (gateOptions rest o) before conf ∧
      ∀ (fns : Nat → μ → Ctx (GateIn ν) ν → Prog (GateIn ν) ν μ) (timers : List TimerSetup) (fn : Nat → Nat) (p0 : PSt (GateIn ν) ν μ)
        (r : LoopSt (RunW (PSt (GateIn ν) ν μ)) Nat PyErr) (ops : List (List (AOp ν))),
        AccountInRun E.G E.udig fns (wantBalance E o) (wantOrders E o) timers fn p0
          (initialAccount E p m0 o o' ⟨{ wraps := before }, fs, env, n, false⟩) r ops →
        let a0 : Acct (GateIn ν) ν := Acct.init (E.gateSetup o' ⟨{ wraps := before }, fs, env, n, false⟩).1
        let done := syncOps (wantBalance E o) (wantOrders E o) ++ p.ops E (E.entered m0) ++ ops.flatten
        ∃ a new, r.world.st.ctx.acct = some a ∧ RecordFile false orderColumns (a.gate.files (.orders D)) (recs ++ new) ∧
          (new.map (·[1]?)).Sublist ((requested done).map some) ∧
          ((acknowledged (gateIn ν) a0 done).map some).Sublist (new.map (·[1]?)) ∧
          ∀ rec ∈ new, ∃ i idn now code amt st sd enc, .order idn now code amt st sd ∈ done ∧ encodeSecurity code = .ok enc ∧
            OrderRecord conf (env i).now (natStr idn) enc amt st rec := by
  have hopt : gateOptions rest o' = gateOptions rest o := by rw [gateOptions, gateOptions, W.kept.same.2.2.2.2]
  have hset : ({ wraps := before } : GateSt ν).setup S (gateOptions rest o) =
      ((({ wraps := before } : GateSt ν).setup S (gateOptions rest o)).1, .ok ()) := by
    have hgate := W.gate
    rw [hE] at hgate
    have : (({ wraps := before } : GateSt ν).setup S (gateOptions rest o')).2 = .ok () := hgate
    rw [hopt] at this
    rw [← this]
  obtain ⟨conf, h1, h2, h3, h4⟩ := c96_as_configured S _ ho before _ hset false
  refine ⟨conf, h1, ?_⟩
  intro fns timers fn p0 r ops hrun a0 done
  have ha0 : a0 = Acct.init ⟨(({ wraps := before } : GateSt ν).setup S (gateOptions rest o)).1, fs, env, n, false⟩ := by
    show Acct.init (E.gateSetup o' _).1 = _
    rw [hE]
    simp only [builtInSetup, hopt]
  have hal := h4 fs hfs env n
  have hz : NoZero done := noZero_append (noZero_append (noZero_sync _ _) (noZero_init _ _ _)) (noZero_run hrun)
  obtain ⟨new, g1, g2, g3, g4⟩ := c18_history_partial D done (Acct.init ⟨AX.setup conf fs, env, n⟩) recs h3 hz hflush hday hext h
  refine ⟨_, new, congrArg Ctx.acct hrun.now, ?_, g2, ?_, g4⟩
  · have einit : (initialAccount E p m0 o o' ⟨{ wraps := before }, fs, env, n, false⟩).run E.G ops.flatten = a0.run (gateIn ν) done := by
      rw [initialAccount, hG, ← Acct.run_append]; rfl
    rw [einit, ha0, (hal done .syncBalance).2.1]
    exact g1
  · rw [acknowledged_alike (gateIn ν) (axGate ν) done a0 (Acct.init ⟨AX.setup conf fs, env, n⟩) ?_]
    · exact g3
    · intro xs op
      rw [ha0]
      exact (hal xs op).2.2.2.1

/-! A concrete case: `process_initialize` orders, then a task does and its order is written but the process fails to save it. -/

private def fS : SetupEnv :=
  { there := fun p => decide (p = c!"/oq"), runtimeDir := c!"/run", task := c!"t", day := c!"20240102", read := fun _ => none }
private def fRest : GOpts := [(c!"order_dir", .str c!"/oq")]
private def fOpts : Opts where
  syncBalance := some false
  syncOrder := some true
  syncInternal := some (.ok (30000 * secUs))
  accountNo := some c!"88"
private def fEnv : StartEnv (GateIn Int) Int :=
  ⟨⟨false, 365, .ofPeriods [(0, 60 * secUs)], true, true, true, .error .valueError, .falsy⟩, 100, gateIn Int, fun _ => false,
    builtInSetup fS fRest, 5 * dayUs, none, fun _ _ => 5⟩
private def fDays (i : Nat) : Env := if i = 2 then { demoEnv with save := .move .osError } else demoEnv
private def fGate : GateIn Int := ⟨{}, fun _ => none, fDays, 0, false⟩
private def fInp : OptInputs (GateIn Int) := { gateCtor := .ok fGate, now := 5 * dayUs }
private def fProg : InitProg (GateIn Int) Int Nat :=
  .setOptions fOpts fInp fun _ _ => .call (.order 7 demoEnv.now c!"600000.XSHG" (.int 700) (.style (.limit 12)) .falsy) fun _ _ => .done 1 none
private def fFns (_ : Nat) (m : Nat) (_ : Ctx (GateIn Int) Int) : Prog (GateIn Int) Int Nat :=
  .call (.order (7 + m) demoEnv.now c!"000001.XSHE" (.int (-300)) (.style (.limit 9)) .falsy) fun _ _ => .done (m + 1) none
private def fTimers : List TimerSetup := []
private def fP0 : PSt (GateIn Int) Int Nat := ⟨⟨true, some (initialAccount fEnv fProg 0 fOpts fOpts fGate)⟩, 1, []⟩
private def fFired : List (Msg Nat × Int) := [(⟨10, 2, 1, 0⟩, 15), (⟨20, 2, 2, 0⟩, 25)]
private def fState : LoopSt (RunW (PSt (GateIn Int) Int Nat)) Nat PyErr :=
  { world := { srcs := fun _ => { start := none, endAt := none },
               st := stateAfter (gateIn Int) (fun _ => false) fFns (srcCbs fTimers (accCbs false true) id) fP0 fFired 2 }
    fired := fFired }
private def fOps : List (List (AOp Int)) :=
  [[.order 8 demoEnv.now c!"000001.XSHE" (-300) (.limit 9) .long], [.order 9 demoEnv.now c!"000001.XSHE" (-300) (.limit 9) .long]]
private def fDone : List (AOp Int) := syncOps false true ++ fProg.ops fEnv (fEnv.entered 0) ++ fOps.flatten

private theorem fWorks : ∃ s m, WorkingInit fEnv fProg 0 fOpts fOpts fInp fGate s m := by
  have h : ∃ s m, fProg.run fEnv (fEnv.entered 0) = some (s, m, none) := by
    have h1 : ((fProg.run fEnv (fEnv.entered 0)).map (·.2.2)) = some none := by decide +kernel
    cases hr : fProg.run fEnv (fEnv.entered 0) with
    | none => rw [hr] at h1; cases h1
    | some x =>
      obtain ⟨s, m, e⟩ := x
      rw [hr] at h1
      simp only [Option.map_some, Option.some.injEq] at h1
      subst h1
      exact ⟨s, m, rfl⟩
  obtain ⟨s, m, hr⟩ := h
  exact ⟨s, m, hr, by rfl, (parse_iff _ _).1 (by decide +kernel), rfl, rfl, rfl, rfl, rfl, by decide +kernel⟩

example : (∃ s m, WorkingInit fEnv fProg 0 fOpts fOpts fInp fGate s m) ∧ OptsOk (gateOptions fRest fOpts) ∧
    (∀ i e k, (fDays i).write ≠ .flush e k) ∧ (∀ i, (fDays i).day = c!"20240102") ∧ (∀ i fs, (fDays i).ext fs = fs) ∧
    RecordFile false orderColumns (fGate.files (.orders c!"20240102")) [] ∧
    AccountInRun fEnv.G fEnv.udig fFns (wantBalance fEnv fOpts) (wantOrders fEnv fOpts) fTimers id fP0
      (initialAccount fEnv fProg 0 fOpts fOpts fGate) fState fOps ∧
    acknowledged (gateIn Int) (Acct.init (fEnv.gateSetup fOpts fGate).1) fDone = [c!"7", c!"9"] ∧
    requested fDone = [c!"7", c!"8", c!"9"] ∧
    ((fState.world.st.ctx.acct.map fun a => a.gate.files (.orders c!"20240102")) = some (some (orderHeader ++
      c!"\n093000.000025,7,UM0,88,600000.SH,1,700,DMA,AT,0,12,12\n093000.000025,8,UM0,88,000001.SZ,2,300,DMA,AT,0,9,9\n093000.000025,9,UM0,88,000001.SZ,2,300,DMA,AT,0,9,9\n"))) := by
  refine ⟨fWorks, ⟨by unfold DictOk; decide +kernel, ?_⟩, ?_, ?_, ?_, ?_, ?_, by decide +kernel, by decide +kernel, by decide +kernel⟩
  · intro k d t h
    simp [gateOptions, fOpts, fRest] at h
  · intro i e k; unfold fDays; split <;> simp [demoEnv]
  · intro i; unfold fDays; split <;> rfl
  · intro i fs; unfold fDays; split <;> rfl
  · exact .absent
  · have h : fOps = (firedOps (gateIn Int) (fun _ => false) fFns (srcCbs fTimers (accCbs false true) id) fP0 fState.fired).map
        (·.flatMap POp.current) := by
      rfl
    rw [h]
    exact accountInRun_of _ _ _ _ _ _ _ _ _ rfl rfl _ rfl

end Jq
