import Verif.Props.C99_UserView
import Verif.Props.C18_Started
import Verif.Props.C46_Balance
/-!
# C99: the portfolio of a process with the built-in gate

From `process_initialize` and the broker's files to what `context.portfolio` shows.
-/
set_option linter.unusedSectionVars false
namespace Jq
variable {ν μ : Type} [CellNum ν] [Store ν]

/-- The two files that the broker wrote say this of the account `no`, when they are read in the environment `env`, each until it is complete. -/
def FilesSay (conf : AXConf) (no : Str) (env : Env) (cash : CashInfo ν) (is : List (PosInfo ν)) : Prop :=
  env.assetsThere = true ∧ env.positionsThere = true ∧
  ∃ i j ta tp row, i < allowed conf.maxAttempts ∧ readCsv (env.assets i) = .ok ta ∧ (∀ k < i, ∃ e, readCsv (env.assets k) = .error e) ∧
    j < allowed conf.maxAttempts ∧ readCsv (env.positions j) = .ok tp ∧ (∀ k < j, ∃ e, readCsv (env.positions k) = .error e) ∧
    ((ta.own no).filter fun r => decide (ta.col r c!"exchange" = .ok none)).getLast? = some row ∧ cash.SaysRow ta row ∧
    Pairwise2 (fun row p => PosInfo.SaysRow (ν := ν) tp row p) (posRows ν no tp tp.rows) is

private theorem ax_static (ops : List (AOp ν)) (b : Acct (AXG ν) ν) :
    (b.run (axGate ν) ops).gate.env = b.gate.env ∧ (b.run (axGate ν) ops).gate.ax.conf = b.gate.ax.conf := by
  induction ops generalizing b with
  | nil => exact ⟨rfl, rfl⟩
  | cons op ops ih =>
    obtain ⟨h1, h2⟩ := ih (b.step (axGate ν) op).1
    obtain ⟨h3, h4⟩ := axg_step_static b op
    exact ⟨h1.trans h3, h2.trans h4⟩

private theorem filesSay_of {g : AXG ν} {no : Str} (ha : g.ax.conf.account = .ok no) {cash : CashInfo ν} {is : List (PosInfo ν)}
    (h : Complete ((axGate ν).balance g).2 cash is) : FilesSay g.ax.conf no g.cur cash is := by
  have hb : g.ready.balance g.cur = .ok ⟨some cash, some is⟩ := h
  obtain ⟨a, i, j, ta, tp, ps, h1, h2, h3, h4, h5, h6, h7, h8, h9, h10, h11, h12, h13⟩ := c47_from_files _ _ _ hb
  have hc : g.ready.conf = g.ax.conf := rfl
  rw [hc] at h1 h5 h8
  have hno : a = no := by
    rw [AXConf.account, h1] at ha
    simp only [if_neg h2, Except.ok.injEq] at ha
    exact ha
  subst hno
  injection h11 with h11
  subst h11
  split at h13
  · cases h13
  · rename_i row hr
    obtain ⟨c, hc, hs⟩ := h13
    injection hc with hc
    subst hc
    exact ⟨h3, h4, i, j, ta, tp, row, h5, h6, h7, h8, h9, h10, hr, hs, h12⟩

/-- An entry made from a row is complete. -/
private theorem says_of_row {tp : Csv} {row : List (Option Str)} {i : PosInfo ν} (h : i.SaysRow tp row) : ∃ p, i.Says p ∧ p.side = .long := by
  obtain ⟨h1, ⟨_, code, _, _, h2⟩, ⟨_, n, _, _, _, h3⟩, ⟨_, v, _, _, h4⟩, ⟨_, c, _, _, h5⟩, ⟨_, l, _, _, h6⟩, ⟨_, w, _, _, h7⟩⟩ := h
  exact ⟨⟨code, n, v, _, .long, some _, some _⟩, ⟨h1, h2, h3, h4, h5, h6, h7⟩, rfl⟩

private theorem good_all {tp : Csv} {rows : List (List (Option Str))} {is : List (PosInfo ν)} {ps : List (Pos ν)}
    (hr : Pairwise2 (fun row p => PosInfo.SaysRow (ν := ν) tp row p) rows is) (hg : GoodPrefix is ps) :
    AllRel PosInfo.Says is ps ∧ ∀ p ∈ ps, p.side = .long := by
  have hrow : ∀ i ∈ is, ∃ row, i.SaysRow tp row := by
    clear hg
    induction hr with
    | nil => intro i hi; cases hi
    | cons h _ ih =>
      intro i hi
      rcases List.mem_cons.1 hi with rfl | hi
      · exact ⟨_, h⟩
      · exact ih i hi
  obtain ⟨good, rest, e, ha, hbad⟩ := hg
  cases rest with
  | cons bad rest =>
    obtain ⟨row, hs⟩ := hrow bad (by rw [e]; simp)
    obtain ⟨p, hp, _⟩ := says_of_row hs
    exact absurd hp (hbad bad rfl p)
  | nil =>
    rw [List.append_nil] at e
    subst e
    refine ⟨ha, ?_⟩
    clear hbad hr
    induction ha with
    | nil => intro p hp; cases hp
    | cons h _ ih =>
      rename_i i q _ _ _
      intro p hp
      rcases List.mem_cons.1 hp with rfl | hp
      · obtain ⟨row, hs⟩ := hrow i (by simp)
        have h1 := h.1
        rw [hs.1] at h1
        cases hq : p.side with
        | long => rfl
        | short => rw [hq] at h1; simp [Side.name] at h1
      · exact ih (fun i hi => hrow i (by simp [hi])) p hp

private theorem reports_split (G : Gate γ ν) (ops : List (AOp ν)) (a : Acct γ ν) (r : CashInfo ν × List (PosInfo ν)) (h : r ∈ reports G a ops) :
    ∃ before after, ops = before ++ .syncBalance :: after ∧ Complete (G.balance (a.run G before).gate).2 r.1 r.2 := by
  induction ops generalizing a with
  | nil => cases h
  | cons op ops ih =>
    rcases List.mem_append.1 h with h | h
    · cases op with
      | syncBalance =>
        refine ⟨[], ops, rfl, ?_⟩
        show (G.balance a.gate).2 = _
        replace h : r ∈ (completeReport (G.balance a.gate).2).toList := h
        revert h
        cases (G.balance a.gate).2 with
        | error e => simp [completeReport]
        | ok b =>
          obtain ⟨c, is⟩ := b
          cases c <;> cases is <;> simp [completeReport]
          rintro rfl
          exact ⟨rfl, rfl⟩
      | _ => exact absurd h List.not_mem_nil
    · obtain ⟨before, after, e, hc⟩ := ih _ h
      exact ⟨op :: before, after, by rw [e]; rfl, hc⟩

private theorem balance_files (E : StartEnv (GateIn ν) ν) (S : SetupEnv) (rest : GOpts) (hE : E.gateSetup = builtInSetup S rest)
    (p : InitProg (GateIn ν) ν μ) (m0 : μ) (o o' : Opts) (inp : OptInputs (GateIn ν)) (wraps : List Int) (fs : Files) (env : Nat → Env)
    (n : Nat) (win : Bool) (s : StartSt (GateIn ν) ν μ) (m : μ)
    (W : WorkingInit E p m0 o o' inp ⟨{ wraps := wraps }, fs, env, n, win⟩ s m) (ho : OptsOk (gateOptions rest o))
    (hfs : ∀ d, InForce (gateOptions rest o) c!"runtime_dir" (.str S.runtimeDir) (.str d) →
      fs (.data S.day) = S.read (dataPath (joinPath d c!"data") S.task S.day))
    (no : Str) (hno : o.accountNo = some no) (hne : no ≠ []) :
    ∃ conf, ConfiguredBy (gateOptions rest o) wraps conf ∧ ∀ xs cash is,
      let a := (Acct.init (E.gateSetup o' ⟨{ wraps := wraps }, fs, env, n, win⟩).1 : Acct (GateIn ν) ν).run (gateIn ν) xs
      Complete ((gateIn ν).balance a.gate).2 cash is → FilesSay conf no (env a.gate.n) cash is := by
  have hopt : gateOptions rest o' = gateOptions rest o := by rw [gateOptions, gateOptions, W.kept.same.2.2.2.2]
  have hset : ({ wraps := wraps } : GateSt ν).setup S (gateOptions rest o) =
      ((({ wraps := wraps } : GateSt ν).setup S (gateOptions rest o)).1, .ok ()) := by
    have hgate := W.gate
    rw [hE] at hgate
    have : (({ wraps := wraps } : GateSt ν).setup S (gateOptions rest o')).2 = .ok () := hgate
    rw [hopt] at this
    rw [← this]
  obtain ⟨conf, h1, h2, h3, h4⟩ := c96_as_configured S _ ho wraps _ hset win
  have hacct : conf.account = .ok no := by
    obtain ⟨v, hv, hc⟩ := h1.account
    have hm : InForce (gateOptions rest o) c!"account_no" .none (.str no) := by
      refine .inl ?_
      rw [gateOptions, hno]
      exact List.mem_cons_self
    have e : v = .str no := by
      rw [← (inForce_iff ho.1 _ _ _).1 hv, (inForce_iff ho.1 _ _ _).1 hm]
    subst e
    rw [hc]
    simp [OptVal.truth, OptVal.text, hne]
  refine ⟨conf, h1, ?_⟩
  intro xs cash is a hc
  have ha0 : (Acct.init (E.gateSetup o' ⟨{ wraps := wraps }, fs, env, n, win⟩).1 : Acct (GateIn ν) ν) = Acct.init ⟨(({ wraps := wraps } : GateSt ν).setup S (gateOptions rest o)).1, fs, env, n, win⟩ := by
    rw [hE]
    simp only [builtInSetup, hopt]
  simp only [a] at hc ⊢
  obtain ⟨_, _, _, _, e5, _, e7⟩ := h4 fs hfs env n xs .syncBalance
  rw [ha0] at hc ⊢
  have hs := ax_static xs (Acct.init ⟨AX.setup conf fs, env, n⟩ : Acct (AXG ν) ν)
  have hconf : ((Acct.init ⟨AX.setup conf fs, env, n⟩ : Acct (AXG ν) ν).run (axGate ν) xs).gate.ax.conf = conf := hs.2
  have hc' : Complete ((axGate ν).balance ((Acct.init ⟨AX.setup conf fs, env, n⟩ : Acct (AXG ν) ν).run (axGate ν) xs).gate).2 cash is := by
    rw [Complete, ← e7]; exact hc
  have := filesSay_of (by rw [hconf]; exact hacct) hc'
  rw [hconf] at this
  rw [e5]
  have hcur : ((Acct.init ⟨AX.setup conf fs, env, n⟩ : Acct (AXG ν) ν).run (axGate ν) xs).gate.cur =
      env ((Acct.init ⟨AX.setup conf fs, env, n⟩ : Acct (AXG ν) ν).run (axGate ν) xs).gate.n := by
    rw [AXG.cur, hs.1]; rfl
  rw [← hcur]
  exact this

/-- A strategy with the built-in gate: at every moment of the run, what the portfolio shows comes from the broker's files, as they were when
they were read, for the account number given to `set_options`.  The cash figures are the last ones that count as true; the positions are
those of the last report that was complete, all of them long, less by what was sold since; before the first report nothing is held. -/
theorem c99_started (E : StartEnv (GateIn ν) ν) (hG : E.G = gateIn ν) (S : SetupEnv) (rest : GOpts) (hE : E.gateSetup = builtInSetup S rest)
    (p : InitProg (GateIn ν) ν μ) (m0 : μ) (o o' : Opts) (inp : OptInputs (GateIn ν)) (wraps : List Int) (fs : Files) (env : Nat → Env)
    (n : Nat) (win : Bool) (s : StartSt (GateIn ν) ν μ) (m : μ)
    (W : WorkingInit E p m0 o o' inp ⟨{ wraps := wraps }, fs, env, n, win⟩ s m) (ho : OptsOk (gateOptions rest o))
    (hfs : ∀ d, InForce (gateOptions rest o) c!"runtime_dir" (.str S.runtimeDir) (.str d) →
      fs (.data S.day) = S.read (dataPath (joinPath d c!"data") S.task S.day))
    (no : Str) (hno : o.accountNo = some no) (hne : no ≠ []) :
    ∃ conf, ConfiguredBy (gateOptions rest o) wraps conf ∧
      ∀ (fns : Nat → μ → Ctx (GateIn ν) ν → Prog (GateIn ν) ν μ) (timers : List TimerSetup) (fn : Nat → Nat) (p0 : PSt (GateIn ν) ν μ)
        (r : LoopSt (RunW (PSt (GateIn ν) ν μ)) Nat PyErr) (ops : List (List (AOp ν))), p0.ctx.useAccount = true →
        AccountInRun E.G E.udig fns (wantBalance E o) (wantOrders E o) timers fn p0
          (initialAccount E p m0 o o' ⟨{ wraps := wraps }, fs, env, n, win⟩) r ops →
        let G := gateIn ν
        let a0 : Acct (GateIn ν) ν := Acct.init (E.gateSetup o' ⟨{ wraps := wraps }, fs, env, n, win⟩).1
        let done := syncOps (wantBalance E o) (wantOrders E o) ++ p.ops E (E.entered m0) ++ ops.flatten
        let x := r.world.st.ctx
        (∀ rep ∈ reports G a0 done, ∃ before after, done = before ++ .syncBalance :: after ∧
          FilesSay conf no (env (a0.run G before).gate.n) rep.1 rep.2) ∧
        Reads x.portfolioAttr
          [(c!"total_value", .num (lastTruthy PyNum.zero ((reports G a0 done).map (·.1.total)))),
           (c!"available_cash", .num (lastTruthy PyNum.zero ((reports G a0 done).map (·.1.avail)))),
           (c!"locked_cash", .num (lastTruthy PyNum.zero ((reports G a0 done).map (·.1.locked))))] ∧
        (∀ code, Reads (x.positionAttr c!"short_positions" code) (notHeldTable code c!"short")) ∧
        ((reports G a0 done = [] ∧ ∀ code, Reads (x.positionAttr c!"long_positions" code) (notHeldTable code c!"long")) ∨
         ∃ before after cash is ps, done = before ++ .syncBalance :: after ∧ FilesSay conf no (env (a0.run G before).gate.n) cash is ∧
          reports G (a0.run G (before ++ [.syncBalance])) after = [] ∧ AllRel PosInfo.Says is ps ∧
          ∀ code, (∀ p, reported ps .long code = some p → Reads (x.positionAttr c!"long_positions" code)
              (positionTable p (closeable p.avail (sells G code (a0.run G (before ++ [.syncBalance])) after)))) ∧
            (reported ps .long code = none → Reads (x.positionAttr c!"long_positions" code) (notHeldTable code c!"long"))) := by
  obtain ⟨conf, h1, hfiles⟩ := balance_files E S rest hE p m0 o o' inp wraps fs env n win s m W ho hfs no hno hne
  refine ⟨conf, h1, ?_⟩
  intro fns timers fn p0 r ops hu hrun G a0 done x
  have hux : x.useAccount = true := by
    show r.world.st.ctx.useAccount = true
    rw [hrun.now]; exact hu
  have hax : x.acct = some (a0.run G done) := by
    show r.world.st.ctx.acct = _
    rw [hrun.now, initialAccount, hG, ← Acct.run_append]
    rfl
  refine ⟨?_, c99_cash G x a0 done hux hax, ?_⟩
  · intro rep hrep
    obtain ⟨before, after, e, hc⟩ := reports_split G done a0 rep hrep
    exact ⟨before, after, e, hfiles _ _ _ hc⟩
  · rcases c99_positions G _ done x hux hax with ⟨g1, g2⟩ | ⟨before, after, cash, is, ps, g1, g2, g3, g4, g5⟩
    · exact ⟨fun code => (g2 code).2, .inl ⟨g1, fun code => (g2 code).1⟩⟩
    · have hf := hfiles before cash is g2
      obtain ⟨_, _, i, j, ta, tp, row, _, _, _, _, _, _, _, _, hp⟩ := id hf
      obtain ⟨hall, hlong⟩ := good_all hp g4
      refine ⟨fun code => (g5 code).2.2.2 ?_, .inr ⟨before, after, cash, is, ps, g1, hf, g3, hall, fun code => ⟨(g5 code).1, (g5 code).2.1⟩⟩⟩
      rw [reported, List.getLast?_eq_none_iff, List.filter_eq_nil_iff]
      intro p hp
      simp [hlong p hp]

private theorem reports_append (G : Gate γ ν) (xs ys : List (AOp ν)) (a : Acct γ ν) :
    reports G a (xs ++ ys) = reports G a xs ++ reports G (a.run G xs) ys := by
  induction xs generalizing a with
  | nil => rfl
  | cons op xs ih => simp only [List.cons_append, reports, ih, List.append_assoc]; rfl

/-- When a report is complete it is the last one right after its synchronisation. -/
private theorem last_report (G : Gate γ ν) (a : Acct γ ν) (sofar tail before after : List (AOp ν)) (ht : .syncBalance ∉ tail)
    (e : sofar ++ .syncBalance :: tail = before ++ .syncBalance :: after) (cash : CashInfo ν) (is : List (PosInfo ν))
    (hc : Complete (G.balance (a.run G sofar).gate).2 cash is) (hr : reports G (a.run G (before ++ [.syncBalance])) after = []) :
    sofar = before ∧ tail = after := by
  rcases List.append_eq_append_iff.1 e with ⟨x, h1, h2⟩ | ⟨x, h1, h2⟩
  · cases x with
    | nil =>
      rw [List.append_nil] at h1
      injection h2 with _ h2
      exact ⟨h1.symm, h2⟩
    | cons y x =>
      injection h2 with h2 h3
      exact absurd (by rw [h3]; simp) ht
  · cases x with
    | nil =>
      rw [List.append_nil] at h1
      injection h2 with _ h2
      exact ⟨h1, h2.symm⟩
    | cons y x =>
      exfalso
      injection h2 with h2 h3
      subst h2
      replace h3 : after = x ++ .syncBalance :: tail := h3
      rw [h3, reports_append, List.append_eq_nil_iff] at hr
      have hrun : (a.run G (before ++ [.syncBalance])).run G x = a.run G sofar := by
        rw [h1, ← Acct.run_append]; simp
      rw [hrun, reports, List.append_eq_nil_iff] at hr
      have := hr.2.1
      rw [show (G.balance (a.run G sofar).gate).2 = _ from hc] at this
      simp [completeReport] at this

/-- A strategy with the built-in gate: whenever the timer fires and the balance files are complete, the portfolio shows afterwards what the
files say of the account: each amount of cash that counts as true, the positions with their amounts and prices, and nothing else. -/
theorem c99_refreshed (E : StartEnv (GateIn ν) ν) (hG : E.G = gateIn ν) (S : SetupEnv) (rest : GOpts) (hE : E.gateSetup = builtInSetup S rest)
    (p : InitProg (GateIn ν) ν μ) (m0 : μ) (o o' : Opts) (inp : OptInputs (GateIn ν)) (wraps : List Int) (fs : Files) (env : Nat → Env)
    (n : Nat) (win : Bool) (s : StartSt (GateIn ν) ν μ) (m : μ)
    (W : WorkingInit E p m0 o o' inp ⟨{ wraps := wraps }, fs, env, n, win⟩ s m) (ho : OptsOk (gateOptions rest o))
    (hfs : ∀ d, InForce (gateOptions rest o) c!"runtime_dir" (.str S.runtimeDir) (.str d) →
      fs (.data S.day) = S.read (dataPath (joinPath d c!"data") S.task S.day))
    (no : Str) (hno : o.accountNo = some no) (hne : no ≠ []) (hwant : wantBalance E o = true) :
    ∃ conf, ConfiguredBy (gateOptions rest o) wraps conf ∧
      ∀ (fns : Nat → μ → Ctx (GateIn ν) ν → Prog (GateIn ν) ν μ) (timers : List TimerSetup) (fn : Nat → Nat) (p0 : PSt (GateIn ν) ν μ)
        (r : LoopSt (RunW (PSt (GateIn ν) ν μ)) Nat PyErr) (ops : List (List (AOp ν))), p0.ctx.useAccount = true →
        AccountInRun E.G E.udig fns (wantBalance E o) (wantOrders E o) timers fn p0
          (initialAccount E p m0 o o' ⟨{ wraps := wraps }, fs, env, n, win⟩) r ops →
        ∀ i f, r.fired[i]? = some f → f.1.data < timers.length →
          let G := gateIn ν
          let a0 : Acct (GateIn ν) ν := Acct.init (E.gateSetup o' ⟨{ wraps := wraps }, fs, env, n, win⟩).1
          let sofar := syncOps (wantBalance E o) (wantOrders E o) ++ p.ops E (E.entered m0) ++ (ops.take i).flatten
          let x := (stateAfter E.G E.udig fns (srcCbs timers (accCbs (wantBalance E o) (wantOrders E o)) fn) p0 r.fired (i + 1)).ctx
          ∀ cash is, Complete (G.balance (a0.run G sofar).gate).2 cash is →
            FilesSay conf no (env (a0.run G sofar).gate.n) cash is ∧
            (∀ v, cash.total = some v → PyNum.truthy v = true → x.portfolioAttr c!"total_value" = .ok (.num v)) ∧
            (∀ v, cash.avail = some v → PyNum.truthy v = true → x.portfolioAttr c!"available_cash" = .ok (.num v)) ∧
            (∀ v, cash.locked = some v → PyNum.truthy v = true → x.portfolioAttr c!"locked_cash" = .ok (.num v)) ∧
            (∀ code, Reads (x.positionAttr c!"short_positions" code) (notHeldTable code c!"short")) ∧
            ∃ ps, AllRel PosInfo.Says is ps ∧ ∀ code,
              (∀ p, reported ps .long code = some p → Reads (x.positionAttr c!"long_positions" code) (positionTable p p.avail)) ∧
              (reported ps .long code = none → Reads (x.positionAttr c!"long_positions" code) (notHeldTable code c!"long")) := by
  obtain ⟨conf, h1, hfiles⟩ := balance_files E S rest hE p m0 o o' inp wraps fs env n win s m W ho hfs no hno hne
  refine ⟨conf, h1, ?_⟩
  intro fns timers fn p0 r ops hu hrun i f hf hd G a0 sofar x cash is hc
  have hm := hrun.timer i f hf hd
  have htake : ops.take (i + 1) = ops.take i ++ [syncOps (wantBalance E o) (wantOrders E o)] := by
    rw [List.take_add_one, hm]; rfl
  have hux : x.useAccount = true := by
    show (stateAfter E.G E.udig fns _ p0 r.fired (i + 1)).ctx.useAccount = true
    rw [hrun.account (i + 1)]; exact hu
  obtain ⟨tail, htail, hnone, hsell⟩ : ∃ tail : List (AOp ν), syncOps (wantBalance E o) (wantOrders E o) = .syncBalance :: tail ∧
      .syncBalance ∉ tail ∧ (∀ (code : Str) (b : Acct (GateIn ν) ν), sells G code b tail = [] ∧ reports G b tail = []) := by
    rw [hwant]
    cases wantOrders E o
    · exact ⟨[], rfl, by simp, fun _ _ => ⟨rfl, rfl⟩⟩
    · exact ⟨[.syncOrders], rfl, by simp, fun _ _ => ⟨rfl, rfl⟩⟩
  have hax : x.acct = some (a0.run G (sofar ++ .syncBalance :: tail)) := by
    show (stateAfter E.G E.udig fns _ p0 r.fired (i + 1)).ctx.acct = _
    rw [hrun.account (i + 1), initialAccount, hG, ← Acct.run_append, htake, ← htail]
    simp only [List.flatten_append, List.flatten_cons, List.flatten_nil, List.append_nil, sofar, List.append_assoc]
    rfl
  have hsay := hfiles _ _ _ hc
  have hcash := c99_cash G x a0 _ hux hax
  have hrep : reports G a0 (sofar ++ .syncBalance :: tail) = reports G a0 sofar ++ [(cash, is)] := by
    rw [reports_append, reports, show (G.balance (a0.run G sofar).gate).2 = _ from hc, (hsell [] _).2]
    rfl
  have last : ∀ (z v : ν) (pick : CashInfo ν → Option ν), pick cash = some v → PyNum.truthy v = true →
      lastTruthy z ((reports G a0 (sofar ++ .syncBalance :: tail)).map (pick ·.1)) = v := by
    intro z v pick h1 h2
    rw [hrep]
    simp [lastTruthy, h1, h2]
  refine ⟨hsay, ?_, ?_, ?_, ?_⟩
  · intro v h1 h2
    have := hcash (c!"total_value", _) List.mem_cons_self
    rw [last _ v (·.total) h1 h2] at this
    exact this
  · intro v h1 h2
    have := hcash (c!"available_cash", _) (List.mem_cons_of_mem _ List.mem_cons_self)
    rw [last _ v (·.avail) h1 h2] at this
    exact this
  · intro v h1 h2
    have := hcash (c!"locked_cash", _) (List.mem_cons_of_mem _ (List.mem_cons_of_mem _ List.mem_cons_self))
    rw [last _ v (·.locked) h1 h2] at this
    exact this
  · rcases c99_positions G _ _ x hux hax with ⟨g1, _⟩ | ⟨before, after, cash', is', ps, g1, g2, g3, g4, g5⟩
    · rw [show reports G _ _ = _ from hrep] at g1
      simp at g1
    · obtain ⟨rfl, rfl⟩ := last_report G a0 sofar tail before after hnone g1 cash is hc g3
      have e : cash' = cash ∧ is' = is := by
        have := g2.symm.trans hc
        simpa using this
      obtain ⟨rfl, rfl⟩ := e
      obtain ⟨_, _, _, _, _, tp, _, _, _, _, _, _, _, _, _, hp⟩ := id hsay
      obtain ⟨hall, hlong⟩ := good_all hp g4
      refine ⟨fun code => (g5 code).2.2.2 ?_, ps, hall, fun code => ⟨fun q hq => ?_, (g5 code).2.1⟩⟩
      · rw [reported, List.getLast?_eq_none_iff, List.filter_eq_nil_iff]
        intro p hp
        simp [hlong p hp]
      · have := (g5 code).1 q hq
        rw [(hsell code _).1] at this
        exact this

private def uS : SetupEnv :=
  { there := fun p => decide (p = c!"/oq"), runtimeDir := c!"/run", task := c!"t", day := c!"20240102", read := fun _ => none }
private def uRest : GOpts := [(c!"order_dir", .str c!"/oq")]
private def uOpts : Opts where
  syncBalance := some true
  syncOrder := some false
  syncInternal := some (.ok (30000 * secUs))
  accountNo := some c!"88"
private def uEnv : StartEnv (GateIn Int) Int :=
  ⟨⟨false, 365, .ofPeriods [(0, 60 * secUs)], true, true, true, .error .valueError, .falsy⟩, 100, gateIn Int, fun _ => false,
    builtInSetup uS uRest, 5 * dayUs, none, fun _ _ => 5⟩
/-- The position file is found half written at first; later it reports less. -/
private def uDays (i : Nat) : Env :=
  let assets := tableText [c!"t", c!"acct", c!"exchange", c!"totalAsset", c!"enabledBalance", c!"currentBalance"]
    [[c!"1", c!"88", c!"", if i < 2 then c!"9000" else c!"9001", c!"600", c!"800"], [c!"1", c!"77", c!"", c!"1", c!"1", c!"1"]]
  let positions := tableText [c!"t", c!"acct", c!"symbol", c!"currentQty", c!"enabledQty", c!"costPrice", c!"lastPrice", c!"mktValue"]
    [[c!"1", c!"88", c!"000001.SZ", if i < 2 then c!"1000" else c!"700", if i < 2 then c!"900" else c!"600", c!"8", c!"9", c!"9000"],
     [c!"1", c!"77", c!"600000.SH", c!"5", c!"5", c!"1", c!"1", c!"5"]]
  { demoEnv with assets := fun _ => some assets, positions := fun k => if k = 0 then some (positions.take 60) else some positions }
private def uGate : GateIn Int := ⟨{}, fun _ => none, uDays, 0, false⟩
private def uInp : OptInputs (GateIn Int) := { gateCtor := .ok uGate, now := 5 * dayUs }
private def uProg : InitProg (GateIn Int) Int Nat := .setOptions uOpts uInp fun _ _ => .done 1 none
private def uFns (_ : Nat) (m : Nat) (_ : Ctx (GateIn Int) Int) : Prog (GateIn Int) Int Nat :=
  .call (.order (7 + m) demoEnv.now c!"000001.XSHE" (.int (-300)) (.style (.limit 9)) .falsy) fun _ _ => .done (m + 1) none
private def uTimers : List TimerSetup := [⟨5 * dayUs, 30000 * secUs, []⟩]
private def uP0 : PSt (GateIn Int) Int Nat := ⟨⟨true, some (initialAccount uEnv uProg 0 uOpts uOpts uGate)⟩, 1, []⟩
private def uFired : List (Msg Nat × Int) := [(⟨10, 2, 1, 1⟩, 15), (⟨20, 2, 2, 0⟩, 25), (⟨30, 2, 3, 1⟩, 35)]
private def uAfter (k : Nat) : PSt (GateIn Int) Int Nat :=
  stateAfter (gateIn Int) (fun _ => false) uFns (srcCbs uTimers (accCbs true false) id) uP0 uFired k
private def uState : LoopSt (RunW (PSt (GateIn Int) Int Nat)) Nat PyErr :=
  { world := { srcs := fun _ => { start := none, endAt := none },
               st := uAfter 3 }
    fired := uFired }
private def uOps : List (List (AOp Int)) :=
  [[.order 8 demoEnv.now c!"000001.XSHE" (-300) (.limit 9) .long], [.syncBalance], [.order 9 demoEnv.now c!"000001.XSHE" (-300) (.limit 9) .long]]

private theorem uWorks : ∃ s m, WorkingInit uEnv uProg 0 uOpts uOpts uInp uGate s m := by
  have h : ∃ s m, uProg.run uEnv (uEnv.entered 0) = some (s, m, none) := by
    have h1 : ((uProg.run uEnv (uEnv.entered 0)).map (·.2.2)) = some none := by decide +kernel
    cases hr : uProg.run uEnv (uEnv.entered 0) with
    | none => rw [hr] at h1; cases h1
    | some x =>
      obtain ⟨s, m, e⟩ := x
      rw [hr] at h1
      simp only [Option.map_some, Option.some.injEq] at h1
      subst h1
      exact ⟨s, m, rfl⟩
  obtain ⟨s, m, hr⟩ := h
  exact ⟨s, m, hr, by rfl, (parse_iff _ _).1 (by decide +kernel), rfl, rfl, rfl, rfl, rfl, by decide +kernel⟩

set_option maxRecDepth 8000 in
/-- `process_initialize` calls `set_options` with the account number 88; the files report 900 of 1000 shares as closeable for it; a task
sells 300; the timer fires, and the files then report 600 of 700; the task sells 300 again.  The hypotheses of `c99_started` and
`c99_refreshed` are met; what the user sees before the timer, after it and at the end, also of the other account. -/
example : (∃ s m, WorkingInit uEnv uProg 0 uOpts uOpts uInp uGate s m) ∧ OptsOk (gateOptions uRest uOpts) ∧ uOpts.accountNo = some c!"88" ∧
    wantBalance uEnv uOpts = true ∧ (∀ path, uGate.files (.data uS.day) = uS.read path) ∧ uP0.ctx.useAccount = true ∧
    AccountInRun uEnv.G uEnv.udig uFns (wantBalance uEnv uOpts) (wantOrders uEnv uOpts) uTimers id uP0
      (initialAccount uEnv uProg 0 uOpts uOpts uGate) uState uOps ∧
    (∃ cash is, Complete ((gateIn Int).balance ((Acct.init (uEnv.gateSetup uOpts uGate).1 : Acct _ Int).run (gateIn Int)
      (syncOps true false ++ uProg.ops uEnv (uEnv.entered 0) ++ (uOps.take 1).flatten)).gate).2 cash is ∧ cash.total = some 9001) ∧
    (uAfter 1).ctx.portfolioAttr c!"total_value" = .ok (.num 9000) ∧ (uAfter 2).ctx.portfolioAttr c!"total_value" = .ok (.num 9001) ∧
    (uAfter 2).ctx.portfolioAttr c!"locked_cash" = .ok (.num 200) ∧
    (uAfter 1).ctx.positionAttr c!"long_positions" c!"000001.XSHE" c!"closeable_amount" = .ok (.int 600) ∧
    (uAfter 2).ctx.positionAttr c!"long_positions" c!"000001.XSHE" c!"total_amount" = .ok (.int 700) ∧
    (uAfter 2).ctx.positionAttr c!"long_positions" c!"000001.XSHE" c!"closeable_amount" = .ok (.int 600) ∧
    (uAfter 3).ctx.positionAttr c!"long_positions" c!"000001.XSHE" c!"closeable_amount" = .ok (.int 300) ∧
    (uAfter 3).ctx.positionAttr c!"long_positions" c!"600000.XSHG" c!"total_amount" = .ok (.int 0) := by
  refine ⟨uWorks, ⟨by unfold DictOk; decide +kernel, ?_⟩, rfl, by decide +kernel, fun _ => rfl, rfl, ?_, ⟨_, _, rfl, by decide +kernel⟩,
    by decide +kernel, by decide +kernel, by decide +kernel, by decide +kernel, by decide +kernel, by decide +kernel, by decide +kernel,
    by decide +kernel⟩
  · intro k d t h
    simp [gateOptions, uOpts, uRest] at h
  · have h : uOps = (firedOps (gateIn Int) (fun _ => false) uFns (srcCbs uTimers (accCbs true false) id) uP0 uState.fired).map
        (·.flatMap POp.current) := by
      rfl
    rw [h]
    exact accountInRun_of _ _ _ _ _ _ _ _ _ rfl rfl _ rfl

end Jq
