import Verif.Lemmas.GateRun
import Verif.Lemmas.ManyAccounts
import Verif.Lemmas.NoAccount
import Verif.Props.C36_Again
import Verif.Props.C65_Process
/-!
# C83: accounts that were replaced

A second call of `set_options` makes a second account object (`strategy.py:232-242`); the callbacks of the first stay on the bus (C66)
and the first goes on synchronising, through the gate of the second.
-/
namespace Jq
variable {γ ν μ : Type} [PyNum ν]

private def SameP (R : γ → γ → Prop) (k : Nat) (p q : PSt γ ν μ) : Prop :=
  SameCtx R p.ctx q.ctx ∧ p.mem = q.mem ∧ p.olds.length = k ∧ q.olds = []

private theorem sameP_old {G : Gate γ ν} {R : γ → γ → Prop} (H : PollingIsHarmless G R) (udig : Char → Bool)
    (fns : Nat → μ → Ctx γ ν → Prog γ ν μ) {k : Nat} {p q : PSt γ ν μ} (h : SameP R k p q) {i : Nat} (hi : i < 2 * k) :
    SameP R k (procAct G udig fns (.account i) p).1 q := by
  obtain ⟨⟨a, b, ha, hb, hab⟩, hm, hk, hq⟩ := h
  have hi' : i / 2 < p.olds.length := by omega
  have e := procAct_ops G udig fns p ⟨a, p.olds⟩ ⟨ha, rfl⟩ (.account i)
  have hmem : (procAct G udig fns (.account i) p).1.mem = p.mem := by
    simp only [procAct, PSt.sync, ha, Bool.not_true, Bool.false_eq_true, if_false, List.getElem?_eq_getElem hi', sync_ok]
  have s := old_same H (i / 2) (decide (i % 2 = 1)) ⟨a, p.olds⟩ b hab
  have hc : (cbOps G udig fns p (.account i) : List (POp ν)) = [.old (i / 2) (decide (i % 2 = 1))] := by
    simp only [cbOps, accountOp, if_pos hi']
  have e2 := e.2
  rw [hc] at e
  exact ⟨⟨_, b, e.1, hb, s⟩, hmem.trans hm, (congrArg List.length e2).trans ((Accts.olds_length G _ _).trans hk), hq⟩

private theorem sameP_cur {G : Gate γ ν} {R : γ → γ → Prop} (H : PollingIsHarmless G R) (udig : Char → Bool)
    (fns : Nat → μ → Ctx γ ν → Prog γ ν μ) {k : Nat} {p q : PSt γ ν μ} (h : SameP R k p q) {i : Nat} (hi : i < 2) :
    SameP R k (procAct G udig fns (.account (2 * k + i)) p).1 (procAct G udig fns (.account i) q).1 := by
  obtain ⟨⟨a, b, ha, hb, hab⟩, hm, hk, hq⟩ := h
  have h1 : p.olds[(2 * k + i) / 2]? = none := List.getElem?_eq_none (by omega)
  have h2 : q.olds[i / 2]? = none := by rw [hq]; rfl
  have h3 : (2 * k + i) % 2 = i % 2 := by omega
  have s := sync_same H (decide (i % 2 = 1)) hab
  have h4 : (syncOp (decide (i % 2 = 1)) : AOp ν) = if i % 2 = 0 then .syncBalance else .syncOrders := by
    rcases Nat.mod_two_eq_zero_or_one i with h | h <;> simp [syncOp, h]
  rw [h4] at s
  simp only [procAct, PSt.sync, ha, hb, h1, h2, h3, sync_ok, Bool.not_true, Bool.false_eq_true, if_false]
  exact ⟨⟨_, _, rfl, rfl, s.1⟩, hm, hk, hq⟩

private theorem sameP_user {G : Gate γ ν} {R : γ → γ → Prop} (H : AskingIsHarmless G R) (udig : Char → Bool)
    {fns : Nat → μ → Ctx γ ν → Prog γ ν μ} (S : SeeAnswersOnly R fns) {k : Nat} {p q : PSt γ ν μ} (h : SameP R k p q) (i : Nat) (f : Option Nat) :
    SameP R k (procAct G udig fns (.user i f) p).1 (procAct G udig fns (.user i f) q).1 ∧
    (procAct G udig fns (.user i f) p).2 = (procAct G udig fns (.user i f) q).2 := by
  cases f with
  | none => exact ⟨h, rfl⟩
  | some f =>
    obtain ⟨⟨a, b, ha, hb, hab⟩, hm, hk, hq⟩ := h
    obtain ⟨s1, s2⟩ := S f p.mem a b hab
    have := prog_same H udig _ s2 (x := p.ctx) (y := q.ctx) ⟨a, b, ha, hb, hab⟩
    have e : fns f q.mem q.ctx = fns f p.mem ⟨true, some a⟩ := by rw [← hm, hb, s1]
    simp only [procAct, e]
    rw [← ha] at this ⊢
    exact ⟨⟨this.1, congrArg Prod.fst this.2, hk, hq⟩, congrArg Prod.snd this.2⟩

private theorem sameP_before {G : Gate γ ν} {R : γ → γ → Prop} (H : PollingIsHarmless G R) (udig : Char → Bool)
    (fns : Nat → μ → Ctx γ ν → Prog γ ν μ) {k : Nat} (before : List Cb) (hb : ∀ cb ∈ before, ∃ i, i < 2 * k ∧ cb = .account i)
    {p q : PSt γ ν μ} (h : SameP R k p q) : SameP R k (cbsState G udig fns p before) q := by
  induction before generalizing p with
  | nil => exact h
  | cons cb before ih =>
    obtain ⟨i, hi, rfl⟩ := hb _ List.mem_cons_self
    exact ih (fun cb hcb => hb cb (List.mem_cons_of_mem _ hcb)) (sameP_old H udig fns h hi)

private theorem sameP_event {G : Gate γ ν} {R : γ → γ → Prop} (H : PollingIsHarmless G R) (udig : Char → Bool)
    (fns : Nat → μ → Ctx γ ν → Prog γ ν μ) {k : Nat} (before : List Cb) (hb : ∀ cb ∈ before, ∃ i, i < 2 * k ∧ cb = .account i) (nb no : Bool)
    {p q : PSt γ ν μ} (h : SameP R k p q) :
    SameP R k (cbsState G udig fns p (before ++ cbsOf k nb no)) (cbsState G udig fns q (accCbs nb no)) := by
  rw [cbsState_append]
  have h := sameP_before H udig fns before hb h
  revert h
  generalize cbsState G udig fns p before = p
  intro h
  have c0 := fun {p q : PSt γ ν μ} (h : SameP R k p q) => sameP_cur H udig fns h (i := 0) (by omega)
  have c1 := fun {p q : PSt γ ν μ} (h : SameP R k p q) => sameP_cur H udig fns h (i := 1) (by omega)
  cases nb <;> cases no
  · exact h
  · exact c1 h
  · exact c0 h
  · exact c1 (c0 h)

/-- Replaced accounts do not disturb the one in use, when asking the gate for the balance or the orders does not change what it will
answer.  `before` are the callbacks that replaced accounts left on the bus.  At every moment of a run the user's variables and the
account in use are what they would be if no account had been replaced, and whatever fires next raises the same. -/
theorem c83_undisturbed_partial {G : Gate γ ν} {R : γ → γ → Prop} (H : AskingIsHarmless G R) (udig : Char → Bool)
    {fns : Nat → μ → Ctx γ ν → Prog γ ν μ} (S : SeeAnswersOnly R fns) (olds : List (Acct γ ν)) (before : List Cb)
    (hb : ∀ cb ∈ before, ∃ i, i < 2 * olds.length ∧ cb = .account i) (nb no : Bool) (timers : List TimerSetup) (fn : Nat → Nat)
    (a0 : Acct γ ν) (ha : R a0.gate a0.gate) (m : μ) (fired : List (Msg Nat × Int)) (n : Nat) :
    let P := stateAfter G udig fns (srcCbs timers (before ++ cbsOf olds.length nb no) fn) ⟨⟨true, some a0⟩, m, olds⟩ fired n
    let Q := stateAfter G udig fns (srcCbs timers (accCbs nb no) fn) ⟨⟨true, some a0⟩, m, []⟩ fired n
    P.mem = Q.mem ∧
    (∃ a b, P.ctx = ⟨true, some a⟩ ∧ Q.ctx = ⟨true, some b⟩ ∧ SameBut R a b) ∧
    ∀ i f, (procAct G udig fns (.user i f) P).2 = (procAct G udig fns (.user i f) Q).2 := by
  intro P Q
  have key : ∀ (fs : List (Msg Nat × Int)) (p q : PSt γ ν μ), SameP R olds.length p q →
      SameP R olds.length (cbsState G udig fns p (fs.flatMap fun f => srcCbs timers (before ++ cbsOf olds.length nb no) fn f.1.data))
        (cbsState G udig fns q (fs.flatMap fun f => srcCbs timers (accCbs nb no) fn f.1.data)) := by
    intro fs
    induction fs with
    | nil => intro p q h; exact h
    | cons f fs ih =>
      intro p q h
      simp only [List.flatMap_cons, cbsState_append]
      refine ih _ _ ?_
      by_cases hd : f.1.data < timers.length
      · simp only [srcCbs, bySource, List.length_map, hd, dite_true, List.getElem_map]
        exact sameP_event H.toPollingIsHarmless udig fns before hb nb no h
      · simp only [srcCbs, bySource, List.length_map, hd, dite_false]
        exact (sameP_user H udig S h _ _).1
  have h : SameP R olds.length P Q := key (fired.take n) _ _ ⟨⟨a0, a0, rfl, rfl, ⟨ha, rfl⟩⟩, rfl, rfl, rfl⟩
  exact ⟨h.2.1, h.1, fun i f => (sameP_user H udig S h i f).2⟩

/-- A gate that counts how often it is asked, and always answers the same; a function that looks at its orders and cancels one. -/
example : let G : Gate Nat Int := ⟨fun g _ => (g + 1, .ok ()), fun g _ => (g + 1, .ok ()), fun g => (g + 1, .error .osError), fun g => (g + 1, .ok [])⟩
    let fns : Nat → Nat → Ctx Nat Int → Prog Nat Int Nat := fun f m x =>
      .call (.cancel (natStr f)) fun y _ => .done (m + (y.acct.elim 0 (·.orders.length)) + (x.acct.elim 0 (·.orders.length))) none
    AskingIsHarmless G (fun _ _ => True) ∧ SeeAnswersOnly (fun _ _ => True) fns := by
  refine ⟨⟨⟨fun _ _ _ => trivial, fun _ _ _ _ _ => trivial, fun _ _ _ => ⟨trivial, rfl⟩, fun _ _ _ => ⟨trivial, rfl⟩, fun _ _ => trivial,
    fun _ _ => trivial⟩, fun _ _ _ _ => ⟨trivial, rfl⟩, fun _ _ _ _ => ⟨trivial, rfl⟩⟩, ?_⟩
  intro f m a b h
  have key : ∀ a b : Acct Nat Int, SameBut (fun _ _ => True) a b → a.orders = b.orders := fun a b h => by rw [h.2]
  refine ⟨?_, fun a' b' r h' => ⟨?_, trivial⟩⟩
  · simp only [Option.elim_some, key a b h]
  · simp only [Option.elim_some, key a' b' h']

/-- Without that it is false.  The gate reports each order once: the replaced account takes it, and the account in use, which alone
the user sees, never hears of it. -/
theorem c83_update_lost_refuted :
    ∃ (G : Gate Bool Int) (udig : Char → Bool) (fns : Nat → Unit → Ctx Bool Int → Prog Bool Int Unit) (timers : List TimerSetup) (a old : Acct Bool Int)
      (fired : List (Msg Nat × Int)),
      let P := stateAfter G udig fns (srcCbs timers (cbsOf 0 false true ++ cbsOf 1 false true) id) ⟨⟨true, some a⟩, (), [old]⟩ fired fired.length
      let Q := stateAfter G udig fns (srcCbs timers (accCbs false true) id) ⟨⟨true, some a⟩, (), []⟩ fired fired.length
      P.ctx.acct.map (·.orders.map (·.1)) = some [] ∧ P.olds.map (·.orders.map (·.1)) = [[c!"b1"]] ∧
      Q.ctx.acct.map (·.orders.map (·.1)) = some [c!"b1"] := by
  refine ⟨⟨fun g _ => (g, .ok ()), fun g _ => (g, .ok ()), fun g => (g, .error .osError), fun g => (true, .ok (if g then [] else
    [{ exOrder with price := some 9, action := some c!"open" }]))⟩, fun _ => false, fun _ _ _ => .done () none,
    [⟨0, 60000000, []⟩], Acct.init false, Acct.init false, [(⟨0, 2, 0, 0⟩, 0), (⟨60000, 2, 1, 0⟩, 60000)], ?_, ?_, ?_⟩ <;> decide +kernel

/-! ## The built-in gate -/

section builtin
variable {ν : Type} [CellNum ν] [Store ν]

/-- As long as nothing happens outside, asking the built-in gate is harmless. -/
theorem c83_builtin_gate_harmless (e : Env) (he : e.ext = id) :
    PollingIsHarmless (axGate ν) fun g h => g.env = (fun _ => e) ∧ h.env = (fun _ => e) ∧ g.ax.conf = h.ax.conf ∧
      g.ax.syncOrders e = h.ax.syncOrders e := by
  have hr : ∀ g : AXG ν, g.env = (fun _ => e) → g.ready = g.ax ∧ g.cur = e := by
    intro g hg
    simp only [AXG.ready, AXG.cur, hg, he, id]; exact ⟨trivial, trivial⟩
  refine ⟨?_, ?_, ?_, ?_, ?_, ?_⟩
  · rintro g h ⟨h1, h2, h3, h4⟩; exact ⟨h2, h1, h3.symm, h4.symm⟩
  · rintro g h k ⟨h1, h2, h3, h4⟩ ⟨k1, k2, k3, k4⟩; exact ⟨h1, k2, h3.trans k3, h4.trans k4⟩
  · rintro g h ⟨h1, h2, h3, h4⟩
    simp only [axGate, AXG.next, (hr g h1).1, (hr g h1).2, (hr h h2).1, (hr h h2).2]
    exact ⟨⟨h1, h2, h3, h4⟩, by simp only [AX.balance, h3]⟩
  · rintro g h ⟨h1, h2, h3, h4⟩
    simp only [axGate, AXG.next, (hr g h1).1, (hr g h1).2, (hr h h2).1, (hr h h2).2]
    exact ⟨⟨h1, h2, by rw [h4], by rw [h4]⟩, by rw [h4]⟩
  · rintro g ⟨h1, _⟩
    simp only [axGate, AXG.next, (hr g h1).1]
    exact ⟨h1, h1, trivial, trivial⟩
  · rintro g ⟨h1, _⟩
    simp only [axGate, AXG.next, (hr g h1).1, (hr g h1).2]
    exact ⟨h1, h1, (ax_syncOrders_conf e g.ax).symm, (c36_asking_again e g.ax).symm⟩

/-- One synchronisation event with the built-in gate, when nothing happens outside while it is handled: whatever replaced accounts ask
before, the account in use becomes what it would become without them, and the gate, asked for the orders again, answers the same and is
then in the same state. -/
theorem c83_builtin_event (e : Env) (he : e.ext = id) (udig : Char → Bool) (fns : Nat → μ → Ctx (AXG ν) ν → Prog (AXG ν) ν μ)
    (olds : List (Acct (AXG ν) ν)) (before : List Cb) (hb : ∀ cb ∈ before, ∃ i, i < 2 * olds.length ∧ cb = .account i) (nb no : Bool)
    (a0 : Acct (AXG ν) ν) (ha : a0.gate.env = fun _ => e) (m : μ) :
    let calls := fun (p : PSt (AXG ν) ν μ) (cbs : List Cb) => cbs.foldl (fun p cb => (procAct (axGate ν) udig fns cb p).1) p
    ∃ a b, (calls ⟨⟨true, some a0⟩, m, olds⟩ (before ++ cbsOf olds.length nb no)).ctx = ⟨true, some a⟩ ∧
      (calls ⟨⟨true, some a0⟩, m, []⟩ (accCbs nb no)).ctx = ⟨true, some b⟩ ∧
      b = { a with gate := b.gate } ∧ a.gate.ax.syncOrders e = b.gate.ax.syncOrders e := by
  intro calls
  have h := sameP_event (c83_builtin_gate_harmless e he) udig fns before hb nb no
    (p := ⟨⟨true, some a0⟩, m, olds⟩) (q := ⟨⟨true, some a0⟩, m, []⟩) ⟨⟨a0, a0, rfl, rfl, ⟨ha, ha, rfl, rfl⟩, rfl⟩, rfl, rfl, rfl⟩
  obtain ⟨⟨a, b, h1, h2, ⟨_, _, _, h3⟩, h4⟩, _⟩ := h
  exact ⟨a, b, h1, h2, h4, h3⟩


/-- Non-vacuity: one account has been replaced, and both synchronise; the file of the first day is empty. -/
example (udig : Char → Bool) (fns : Nat → Nat → Ctx (AXG Int) Int → Prog (AXG Int) Int Nat) :
    let e : Env := { now := ⟨2024, 1, 2, 9, 30, 0, 25⟩, day := c!"20240102" }
    let a0 : Acct (AXG Int) Int := Acct.init ⟨AX.setup { acctNo := some c!"88", dataDay := c!"20240102" } fun _ => some [], fun _ => e, 0⟩
    let calls := fun (p : PSt (AXG Int) Int Nat) (cbs : List Cb) => cbs.foldl (fun p cb => (procAct (axGate Int) udig fns cb p).1) p
    ∃ a b, (calls ⟨⟨true, some a0⟩, 0, [a0]⟩ ([.account 0, .account 1] ++ cbsOf 1 true true)).ctx = ⟨true, some a⟩ ∧
      (calls ⟨⟨true, some a0⟩, 0, []⟩ (accCbs true true)).ctx = ⟨true, some b⟩ ∧
      b = { a with gate := b.gate } ∧ a.gate.ax.syncOrders e = b.gate.ax.syncOrders e := by
  intro e a0
  refine c83_builtin_event e rfl udig fns [a0] [.account 0, .account 1] ?_ true true a0 rfl 0
  intro cb hcb
  rcases List.mem_cons.1 hcb with rfl | hcb
  · exact ⟨0, by decide, rfl⟩
  · rw [List.mem_singleton.1 hcb]; exact ⟨1, by decide, rfl⟩

end builtin

/-- All the accounts of a process, from the firings of the run. -/
theorem c83_accounts_in_run (G : Gate γ ν) (udig : Char → Bool) (fns : Nat → μ → Ctx γ ν → Prog γ ν μ) (cbs : List Cb)
    (hc : ∀ cb ∈ cbs, ∃ i, cb = .account i) (timers : List TimerSetup) (fn : Nat → Nat) (k : Nat) (prio : Nat → Int) (due : Nat → List Int)
    (p0 : PSt γ ν μ) (a0 : Acct γ ν) (h0 : p0.ctx = ⟨true, some a0⟩) (s : LoopSt (RunW (PSt γ ν μ)) Nat PyErr)
    (h : RunsAsDue (procAct G udig fns) p0 k prio (srcCbs timers cbs fn) due s) :
    ∃ ops, AccountsInRun G udig fns cbs timers fn p0 ⟨a0, p0.olds⟩ s ops :=
  ⟨_, accountsInRun_of G udig fns cbs hc timers fn p0 ⟨a0, p0.olds⟩ ⟨h0, rfl⟩ s (by rw [h.state, h.calls, stateAfter, List.take_length])⟩

/-! ## Without an account -/

/-- When the last `set_options` has switched the account off, the events of the timers that were set up before do nothing.  At every
moment of a run the state is as if they called nothing, and neither the accounts nor the gate have changed. -/
theorem c83_switched_off (G : Gate γ ν) (udig : Char → Bool) (fns : Nat → μ → Ctx γ ν → Prog γ ν μ) (cbs : List Cb)
    (hc : ∀ cb ∈ cbs, ∃ i, cb = .account i) (timers : List TimerSetup) (fn : Nat → Nat) (p0 : PSt γ ν μ) (h0 : p0.ctx.useAccount = false)
    (fired : List (Msg Nat × Int)) (n : Nat) :
    let P := stateAfter G udig fns (srcCbs timers cbs fn) p0 fired n
    P = stateAfter G udig fns (srcCbs timers [] fn) p0 fired n ∧ P.ctx = p0.ctx ∧ P.olds = p0.olds := by
  have one : ∀ (cb : Cb) (p : PSt γ ν μ), p.ctx.useAccount = false →
      (procAct G udig fns cb p).1.ctx = p.ctx ∧ (procAct G udig fns cb p).1.olds = p.olds ∧
        (∀ i, cb = .account i → (procAct G udig fns cb p).1 = p) := by
    intro cb p h
    cases cb with
    | account i =>
      have : (procAct G udig fns (.account i) p).1 = p := by simp only [procAct, PSt.sync, h, Bool.not_false, if_true]
      exact ⟨by rw [this], by rw [this], fun _ _ => this⟩
    | user i f =>
      cases f with
      | none => exact ⟨rfl, rfl, fun _ e => by cases e⟩
      | some f => exact ⟨Prog.run_off G udig _ _ h, rfl, fun _ e => by cases e⟩
  have many : ∀ (cbs : List Cb) (p : PSt γ ν μ), p.ctx.useAccount = false →
      (cbsState G udig fns p cbs).ctx = p.ctx ∧ (cbsState G udig fns p cbs).olds = p.olds := by
    intro cbs
    induction cbs with
    | nil => intro p _; exact ⟨rfl, rfl⟩
    | cons cb cbs ih =>
      intro p h
      obtain ⟨h1, h2, _⟩ := one cb p h
      obtain ⟨k1, k2⟩ := ih (procAct G udig fns cb p).1 (by rw [h1]; exact h)
      exact ⟨k1.trans h1, k2.trans h2⟩
  have none : ∀ (cbs : List Cb), (∀ cb ∈ cbs, ∃ i, cb = .account i) → ∀ p : PSt γ ν μ, p.ctx.useAccount = false →
      cbsState G udig fns p cbs = p := by
    intro cbs
    induction cbs with
    | nil => intro _ p _; rfl
    | cons cb cbs ih =>
      intro hc p h
      obtain ⟨i, hi⟩ := hc cb List.mem_cons_self
      have e := (one cb p h).2.2 i hi
      have := ih (fun cb hcb => hc cb (List.mem_cons_of_mem _ hcb)) p h
      simp only [cbsState, List.foldl_cons] at this ⊢
      rw [e]; exact this
  intro P
  refine ⟨?_, many _ _ h0⟩
  show cbsState G udig fns p0 _ = cbsState G udig fns p0 _
  generalize fired.take n = fs
  have : ∀ p : PSt γ ν μ, p.ctx.useAccount = false →
      cbsState G udig fns p (fs.flatMap fun f => srcCbs timers cbs fn f.1.data) =
        cbsState G udig fns p (fs.flatMap fun f => srcCbs timers [] fn f.1.data) := by
    induction fs with
    | nil => intro p _; rfl
    | cons f fs ih =>
      intro p h
      simp only [List.flatMap_cons, cbsState_append]
      have e : cbsState G udig fns p (srcCbs timers cbs fn f.1.data) = cbsState G udig fns p (srcCbs timers [] fn f.1.data) := by
        by_cases hd : f.1.data < timers.length
        · simp only [srcCbs, bySource, List.length_map, hd, dite_true, List.getElem_map]
          exact none cbs hc p h
        · simp only [srcCbs, bySource, List.length_map, hd, dite_false]
      rw [e]
      exact ih _ (by rw [(many _ p h).1]; exact h)
  exact this p0 h0

/-- Non-vacuity: two timers of accounts that are switched off, and a function that counts its calls. -/
example : let fns : Nat → Nat → Ctx Unit Int → Prog Unit Int Nat := fun _ m _ => .done (m + 1) none
    let G : Gate Unit Int := ⟨fun _ _ => ((), .ok ()), fun _ _ => ((), .ok ()), fun _ => ((), .error .osError), fun _ => ((), .ok [])⟩
    let old : Acct Unit Int := Acct.init ()
    let fired : List (Msg Nat × Int) := [(⟨1, 2, 1, 0⟩, 1), (⟨1, 0, 2, 1⟩, 1), (⟨2, 2, 3, 0⟩, 2), (⟨2, 0, 4, 1⟩, 3)]
    (stateAfter G (fun _ => false) fns (srcCbs [⟨0, 1, []⟩] [.account 0, .account 1] fun i => i) ⟨⟨false, some old⟩, 0, []⟩ fired 4).mem = 2 := rfl

end Jq
