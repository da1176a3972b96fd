import Verif.Spec.Process
/-! What the callbacks of a process do to the account. -/
namespace Jq
variable {γ ν μ : Type} [PyNum ν]

theorem Acct.run_append (G : Gate γ ν) (a : Acct γ ν) (xs ys : List (AOp ν)) : a.run G (xs ++ ys) = (a.run G xs).run G ys := by
  simp [Acct.run, List.foldl_append]

theorem tryExcept_ok {σ α : Type} (d : α) (r : σ × Py α) : ∃ v, (tryExcept d r).2 = .ok v := by
  obtain ⟨s, r⟩ := r
  cases r <;> exact ⟨_, rfl⟩

omit [PyNum ν] in
theorem Acct.cancel_ok (G : Gate γ ν) (a : Acct γ ν) (id : Str) : (a.cancel G id).2 = .ok () :=
  (tryExcept_ok () (a.cancelBody G id)).elim fun _ h => h

theorem Acct.syncBalance_ok (G : Gate γ ν) (a : Acct γ ν) : (a.syncBalance G).2 = .ok () :=
  (tryExcept_ok () _).elim fun _ h => h

theorem Acct.syncOrders_ok (G : Gate γ ν) (a : Acct γ ν) : (a.syncOrders G).2 = .ok () :=
  (tryExcept_ok () _).elim fun _ h => h

/-- The context with the account after some operations. -/
def Ctx.after (G : Gate γ ν) (x : Ctx γ ν) (a : Acct γ ν) (ops : List (AOp ν)) : Ctx γ ν := { x with acct := some (a.run G ops) }

theorem Ctx.order_ops (G : Gate γ ν) (udig : Char → Bool) (idn : Nat) (now : DT) (code : Str) (amount : AmtArg)
    (style : StyleArg ν) (side : SideArg) (x : Ctx γ ν) (a : Acct γ ν) (h : x.acct = some a) :
    (x.order G udig idn now code amount style side).1 =
      x.after G a (if x.useAccount then requestOps udig idn now code amount style side else []) := by
  have hx : x = { x with acct := some a } := by cases x; cases h; rfl
  simp only [Ctx.order, requestOps, Ctx.after]
  cases checkRequest udig code amount style side with
  | error e => simp [Acct.run, ← hx]
  | ok r =>
    obtain ⟨n, st, sd⟩ := r
    cases hu : x.useAccount with
    | false => simp only [Ctx.account, hu]; simpa [Acct.run, hu] using hx
    | true => simp only [Ctx.account, hu, h]; simp [Acct.run, Acct.step]

theorem Ctx.cancel_ops (G : Gate γ ν) (id : Str) (x : Ctx γ ν) (a : Acct γ ν) (h : x.acct = some a) :
    (x.cancel G id).1 = x.after G a (if x.useAccount then [.cancel id] else []) := by
  have hx : x = { x with acct := some a } := by cases x; cases h; rfl
  simp only [Ctx.cancel, Ctx.after]
  cases hu : x.useAccount with
  | false => simp only [Ctx.account, hu]; simpa [Acct.run, hu] using hx
  | true => simp only [Ctx.account, hu, h]; simp [Acct.run, Acct.step]

theorem Ctx.syncBalance_ops (G : Gate γ ν) (x : Ctx γ ν) (a : Acct γ ν) (h : x.acct = some a) :
    (x.syncBalance G).1 = x.after G a (if x.useAccount then [.syncBalance] else []) := by
  have hx : x = { x with acct := some a } := by cases x; cases h; rfl
  simp only [Ctx.syncBalance, Ctx.after]
  cases hu : x.useAccount with
  | false => simp only [Ctx.account, hu]; simpa [Acct.run, hu] using hx
  | true => simp only [Ctx.account, hu, h]; simp [Acct.run, Acct.step]

theorem Ctx.syncOrders_ops (G : Gate γ ν) (x : Ctx γ ν) (a : Acct γ ν) (h : x.acct = some a) :
    (x.syncOrders G).1 = x.after G a (if x.useAccount then [.syncOrders] else []) := by
  have hx : x = { x with acct := some a } := by cases x; cases h; rfl
  simp only [Ctx.syncOrders, Ctx.after]
  cases hu : x.useAccount with
  | false => simp only [Ctx.account, hu]; simpa [Acct.run, hu] using hx
  | true => simp only [Ctx.account, hu, h]; simp [Acct.run, Acct.step]

theorem Ctx.batchCancel_ops (G : Gate γ ν) (ids : List Str) (x : Ctx γ ν) (a : Acct γ ν) (h : x.acct = some a) :
    (x.batchCancel G ids).1 = x.after G a (if x.useAccount then ids.map .cancel else []) := by
  have hx : x = { x with acct := some a } := by cases x; cases h; rfl
  induction ids generalizing x a with
  | nil => simpa [Ctx.batchCancel, Ctx.after, Acct.run] using hx
  | cons id ids ih =>
    have h1 := Ctx.cancel_ops G id x a h
    simp only [Ctx.batchCancel]
    cases hu : x.useAccount with
    | false =>
      have : x.cancel G id = (x, .error .invalidCall) := by simp [Ctx.cancel, Ctx.account, hu]
      rw [this]
      simpa [Ctx.after, Acct.run] using hx
    | true =>
      have h2 : (x.cancel G id).2 = .ok () := by
        simp only [Ctx.cancel, Ctx.account, hu, h]
        exact Acct.cancel_ok G a id
      rw [hu] at h1
      revert h1 h2
      cases x.cancel G id with
      | mk y r =>
        intro h1 h2
        simp only at h1 h2
        subst h1 h2
        have := ih (x.after G a [.cancel id]) (a.run G [.cancel id]) rfl rfl
        simp only [if_true] at this ⊢
        rw [this]
        simp [Ctx.after, hu, Acct.run]

theorem Ctx.batchOne_ops (G : Gate γ ν) (udig : Char → Bool) (e : BatchEntry ν) (x : Ctx γ ν) (a : Acct γ ν) (h : x.acct = some a) :
    (x.batchOne G udig e).1 = x.after G a (if x.useAccount then (ApiCall.batchSubmit [e]).ops udig else []) := by
  have hx : x = { x with acct := some a } := by cases x; cases h; rfl
  simp only [Ctx.batchOne, ApiCall.ops, List.flatMap_cons, List.flatMap_nil, List.append_nil]
  cases e.code with
  | none => simpa [Ctx.after, Acct.run] using hx
  | some code =>
    cases e.amount with
    | none => simpa [Ctx.after, Acct.run] using hx
    | some amount =>
      simp only
      rw [← Ctx.order_ops G udig e.idn e.now code amount e.style e.side x a h]
      cases x.order G udig e.idn e.now code amount e.style e.side with
      | mk y r => cases r <;> rfl

theorem Ctx.batch_ops (G : Gate γ ν) (udig : Char → Bool) (es : List (BatchEntry ν)) (x : Ctx γ ν) (a : Acct γ ν) (h : x.acct = some a) :
    (x.batch G udig es).1 = x.after G a (if x.useAccount then (ApiCall.batchSubmit es).ops udig else []) := by
  induction es generalizing x a with
  | nil =>
    have hx : x = { x with acct := some a } := by cases x; cases h; rfl
    simpa [Ctx.batch, Ctx.after, Acct.run, ApiCall.ops] using hx
  | cons e es ih =>
    have h1 := Ctx.batchOne_ops G udig e x a h
    simp only [Ctx.batch]
    rw [ih _ (a.run G (if x.useAccount then (ApiCall.batchSubmit [e]).ops udig else [])) (by rw [h1]; rfl), Ctx.after, h1]
    cases hu : x.useAccount <;> simp [Ctx.after, ApiCall.ops, hu, Acct.run]

/-- A call does its operations when there is an account. -/
theorem Ctx.call_ops (G : Gate γ ν) (udig : Char → Bool) (c : ApiCall ν) (x : Ctx γ ν) (a : Acct γ ν) (h : x.acct = some a) :
    (x.call G udig c).1 = x.after G a (if x.useAccount then c.ops udig else []) := by
  cases c with
  | order => exact Ctx.order_ops G udig _ _ _ _ _ _ x a h
  | cancel => exact Ctx.cancel_ops G _ x a h
  | batchSubmit => exact Ctx.batch_ops G udig _ x a h
  | batchCancel => exact Ctx.batchCancel_ops G _ x a h
  | syncBalance => exact Ctx.syncBalance_ops G x a h
  | syncOrders => exact Ctx.syncOrders_ops G x a h

/-- So does a function of the user. -/
theorem Prog.run_ops (G : Gate γ ν) (udig : Char → Bool) (p : Prog γ ν μ) (x : Ctx γ ν) (a : Acct γ ν) (h : x.acct = some a) :
    (p.run G udig x).1 = x.after G a (p.ops G udig x) := by
  induction p generalizing x a with
  | done m e =>
    have hx : x = { x with acct := some a } := by cases x; cases h; rfl
    simpa [Prog.run, Prog.ops, Ctx.after, Acct.run] using hx
  | call c next ih =>
    have h1 := Ctx.call_ops G udig c x a h
    simp only [Prog.run, Prog.ops]
    rw [ih _ _ _ (a.run G (if x.useAccount then c.ops udig else [])) (by rw [h1]; rfl), Ctx.after, h1]
    simp [Ctx.after, Acct.run_append]

/-- The operations of a callback. -/
def cbOps (G : Gate γ ν) (udig : Char → Bool) (fns : Nat → μ → Ctx γ ν → Prog γ ν μ) (p : PSt γ ν μ) : Cb → List (POp ν)
  | .account i => accountOp p.olds.length (.account i)
  | .user _ none => []
  | .user _ (some f) => ((fns f p.mem p.ctx).ops G udig p.ctx).map .cur

theorem Accts.run_append (G : Gate γ ν) (x : Accts γ ν) (xs ys : List (POp ν)) : x.run G (xs ++ ys) = (x.run G xs).run G ys := by
  simp [Accts.run, List.foldl_append]

theorem Accts.run_cur (G : Gate γ ν) (ops : List (AOp ν)) (x : Accts γ ν) : x.run G (ops.map .cur) = ⟨x.cur.run G ops, x.olds⟩ := by
  induction ops generalizing x with
  | nil => rfl
  | cons op ops ih =>
    simp only [Accts.run, List.map_cons, List.foldl_cons] at ih ⊢
    rw [ih]
    simp [Accts.step, Acct.run]

theorem Accts.olds_length (G : Gate γ ν) (ops : List (POp ν)) (x : Accts γ ν) : (x.run G ops).olds.length = x.olds.length := by
  induction ops generalizing x with
  | nil => rfl
  | cons op ops ih =>
    simp only [Accts.run, List.foldl_cons] at ih ⊢
    rw [ih]
    cases op with
    | cur op => rfl
    | old n o => simp only [Accts.step]; split <;> simp

/-- The state has these accounts, the first of them in use. -/
def PSt.Has (p : PSt γ ν μ) (x : Accts γ ν) : Prop := p.ctx = ⟨true, some x.cur⟩ ∧ p.olds = x.olds

/-- A synchronisation raises nothing. -/
theorem sync_ok (G : Gate γ ν) (i : Nat) (a : Acct γ ν) :
    (if i % 2 = 0 then Acct.syncBalance G else Acct.syncOrders G) a = ((a.step G (if i % 2 = 0 then .syncBalance else .syncOrders)).1, .ok ()) := by
  by_cases h : i % 2 = 0
  · simp only [if_pos h, Acct.step]; exact Prod.ext rfl (Acct.syncBalance_ok G a)
  · simp only [if_neg h, Acct.step]; exact Prod.ext rfl (Acct.syncOrders_ok G a)

theorem procAct_ops (G : Gate γ ν) (udig : Char → Bool) (fns : Nat → μ → Ctx γ ν → Prog γ ν μ) (p : PSt γ ν μ) (x : Accts γ ν)
    (h : p.Has x) (cb : Cb) : (procAct G udig fns cb p).1.Has (x.run G (cbOps G udig fns p cb)) := by
  obtain ⟨h1, h2⟩ := h
  cases cb with
  | account i =>
    simp only [procAct, PSt.sync, h1, h2, Bool.not_true, Bool.false_eq_true, if_false, cbOps, accountOp]
    by_cases hi : i / 2 < x.olds.length
    · have hp : (if decide (i % 2 = 1) = true then (.syncOrders : AOp ν) else .syncBalance) = if i % 2 = 0 then .syncBalance else .syncOrders := by
        rcases Nat.mod_two_eq_zero_or_one i with h | h <;> simp [h]
      simp only [List.getElem?_eq_getElem hi, sync_ok, if_pos hi, Accts.run, List.foldl_cons, List.foldl_nil, Accts.step, hp]
      exact ⟨rfl, rfl⟩
    · simp only [List.getElem?_eq_none (Nat.le_of_not_lt hi), sync_ok, if_neg hi, Accts.run, List.foldl_cons, List.foldl_nil, Accts.step]
      exact ⟨rfl, rfl⟩
  | user i f =>
    cases f with
    | none => exact ⟨h1, h2⟩
    | some f =>
      have := Prog.run_ops G udig (fns f p.mem p.ctx) p.ctx x.cur (by rw [h1])
      simp only [cbOps, Accts.run_cur, procAct, PSt.Has, this, h2, and_true]
      rw [Ctx.after, h1]

/-- The account's callbacks raise nothing. -/
theorem procAct_account (G : Gate γ ν) (udig : Char → Bool) (fns : Nat → μ → Ctx γ ν → Prog γ ν μ) (p : PSt γ ν μ) (i : Nat) :
    (procAct G udig fns (.account i) p).2 = none := by
  simp only [procAct, PSt.sync, sync_ok]
  split
  · rfl
  · split
    · rfl
    · split <;> rfl

/-- The state after some callbacks. -/
def cbsState (G : Gate γ ν) (udig : Char → Bool) (fns : Nat → μ → Ctx γ ν → Prog γ ν μ) (p : PSt γ ν μ) (cbs : List Cb) : PSt γ ν μ :=
  cbs.foldl (fun p cb => (procAct G udig fns cb p).1) p

/-- … and their operations. -/
def cbsOps (G : Gate γ ν) (udig : Char → Bool) (fns : Nat → μ → Ctx γ ν → Prog γ ν μ) (p : PSt γ ν μ) : List Cb → List (POp ν)
  | [] => []
  | cb :: cbs => cbOps G udig fns p cb ++ cbsOps G udig fns (procAct G udig fns cb p).1 cbs

theorem cbsState_has (G : Gate γ ν) (udig : Char → Bool) (fns : Nat → μ → Ctx γ ν → Prog γ ν μ) (cbs : List Cb) (p : PSt γ ν μ)
    (x : Accts γ ν) (h : p.Has x) : (cbsState G udig fns p cbs).Has (x.run G (cbsOps G udig fns p cbs)) := by
  induction cbs generalizing p x with
  | nil => exact h
  | cons cb cbs ih =>
    have := ih (procAct G udig fns cb p).1 _ (procAct_ops G udig fns p x h cb)
    rw [cbsOps, cbsState, List.foldl_cons, ← cbsState, Accts.run_append]
    exact this

theorem cbsState_append (G : Gate γ ν) (udig : Char → Bool) (fns : Nat → μ → Ctx γ ν → Prog γ ν μ) (p : PSt γ ν μ) (xs ys : List Cb) :
    cbsState G udig fns p (xs ++ ys) = cbsState G udig fns (cbsState G udig fns p xs) ys := by
  simp [cbsState]

/-- The operations of callbacks of accounts. -/
theorem cbsOps_accounts (G : Gate γ ν) (udig : Char → Bool) (fns : Nat → μ → Ctx γ ν → Prog γ ν μ) (cbs : List Cb)
    (hc : ∀ cb ∈ cbs, ∃ i, cb = .account i) (p : PSt γ ν μ) (x : Accts γ ν) (h : p.Has x) :
    cbsOps G udig fns p cbs = cbs.flatMap (accountOp x.olds.length) := by
  induction cbs generalizing p x with
  | nil => rfl
  | cons cb cbs ih =>
    obtain ⟨i, rfl⟩ := hc _ (List.mem_cons_self)
    have h1 := procAct_ops G udig fns p x h (.account i)
    rw [cbsOps, ih (fun cb hcb => hc cb (List.mem_cons_of_mem _ hcb)) _ _ h1, Accts.olds_length, List.flatMap_cons]
    simp only [cbOps, h.2]

theorem accCbs_accounts (nb no : Bool) : ∀ cb ∈ accCbs nb no, ∃ i, cb = .account i := by
  cases nb <;> cases no <;> simp [accCbs]

omit [PyNum ν] in
theorem accCbs_ops (nb no : Bool) : (accCbs nb no).flatMap (accountOp 0) = (syncOps nb no : List (AOp ν)).map .cur := by
  cases nb <;> cases no <;> rfl

theorem cbsOps_user (G : Gate γ ν) (udig : Char → Bool) (fns : Nat → μ → Ctx γ ν → Prog γ ν μ) (p : PSt γ ν μ) (i f : Nat) :
    cbsOps G udig fns p [.user i (some f)] = ((fns f p.mem p.ctx).ops G udig p.ctx).map .cur := by
  simp [cbsOps, cbOps]

/-- The operations of each firing of a log. -/
def firedOps (G : Gate γ ν) (udig : Char → Bool) (fns : Nat → μ → Ctx γ ν → Prog γ ν μ) (cbs : Nat → List Cb) :
    PSt γ ν μ → List (Msg Nat × Int) → List (List (POp ν))
  | _, [] => []
  | p, f :: fs => cbsOps G udig fns p (cbs f.1.data) :: firedOps G udig fns cbs (cbsState G udig fns p (cbs f.1.data)) fs

theorem firedOps_length (G : Gate γ ν) (udig : Char → Bool) (fns : Nat → μ → Ctx γ ν → Prog γ ν μ) (cbs : Nat → List Cb)
    (fs : List (Msg Nat × Int)) (p : PSt γ ν μ) : (firedOps G udig fns cbs p fs).length = fs.length := by
  induction fs generalizing p with
  | nil => rfl
  | cons f fs ih => simp [firedOps, ih]

theorem firedOps_get (G : Gate γ ν) (udig : Char → Bool) (fns : Nat → μ → Ctx γ ν → Prog γ ν μ) (cbs : Nat → List Cb)
    (fs : List (Msg Nat × Int)) (p : PSt γ ν μ) (n : Nat) (f : Msg Nat × Int) (h : fs[n]? = some f) :
    (firedOps G udig fns cbs p fs)[n]? = some (cbsOps G udig fns (stateAfter G udig fns cbs p fs n) (cbs f.1.data)) := by
  induction fs generalizing p n with
  | nil => simp at h
  | cons g fs ih =>
    cases n with
    | zero => simp only [List.getElem?_cons_zero, Option.some.injEq] at h; subst h; simp [firedOps, stateAfter]
    | succ n =>
      simp only [List.getElem?_cons_succ] at h
      simp only [firedOps, List.getElem?_cons_succ]
      rw [ih _ n h]
      simp [stateAfter, cbsState]

theorem stateAfter_has (G : Gate γ ν) (udig : Char → Bool) (fns : Nat → μ → Ctx γ ν → Prog γ ν μ) (cbs : Nat → List Cb)
    (fs : List (Msg Nat × Int)) (p : PSt γ ν μ) (x : Accts γ ν) (h : p.Has x) (n : Nat) :
    (stateAfter G udig fns cbs p fs n).Has (x.run G ((firedOps G udig fns cbs p fs).take n).flatten) := by
  induction fs generalizing p x n with
  | nil => simpa [stateAfter, firedOps, Accts.run] using h
  | cons f fs ih =>
    cases n with
    | zero => simpa [stateAfter, Accts.run] using h
    | succ n =>
      have := ih (cbsState G udig fns p (cbs f.1.data)) _ (cbsState_has G udig fns (cbs f.1.data) p x h) n
      have e : stateAfter G udig fns cbs p (f :: fs) (n + 1) = stateAfter G udig fns cbs (cbsState G udig fns p (cbs f.1.data)) fs n := by
        simp [stateAfter, cbsState]
      rw [e]
      simpa [firedOps, Accts.run_append] using this

/-- The accounts during a run whose state is that after its firings. -/
theorem accountsInRun_of (G : Gate γ ν) (udig : Char → Bool) (fns : Nat → μ → Ctx γ ν → Prog γ ν μ) (cbs : List Cb)
    (hc : ∀ cb ∈ cbs, ∃ i, cb = .account i)
    (timers : List TimerSetup) (fn : Nat → Nat) (p0 : PSt γ ν μ) (x0 : Accts γ ν)
    (h0 : p0.Has x0) (s : LoopSt (RunW (PSt γ ν μ)) Nat PyErr)
    (h1 : s.world.st = stateAfter G udig fns (srcCbs timers cbs fn) p0 s.fired s.fired.length) :
    AccountsInRun G udig fns cbs timers fn p0 x0 s (firedOps G udig fns (srcCbs timers cbs fn) p0 s.fired) := by
  refine ⟨?_, ?_, ?_, ?_, ?_⟩
  · exact firedOps_length ..
  · intro n f hf hd
    rw [firedOps_get G udig fns _ _ _ n f hf, show srcCbs timers cbs fn f.1.data = cbs from by simp [srcCbs, bySource, hd],
      cbsOps_accounts G udig fns cbs hc _ _ (stateAfter_has G udig fns _ _ p0 x0 h0 n), Accts.olds_length]
  · intro n f hf hd
    rw [firedOps_get G udig fns _ _ _ n f hf, show srcCbs timers cbs fn f.1.data =
      [.user (f.1.data - timers.length) (some (fn (f.1.data - timers.length)))] from by simp [srcCbs, bySource, Nat.not_lt.2 hd],
      cbsOps_user]
  · intro n
    have := stateAfter_has G udig fns (srcCbs timers cbs fn) s.fired p0 x0 h0 n
    exact ⟨by rw [h0.1]; exact this.1, this.2⟩
  · have := stateAfter_has G udig fns (srcCbs timers cbs fn) s.fired p0 x0 h0 s.fired.length
    rw [← h1, List.take_of_length_le (by rw [firedOps_length]; exact Nat.le_refl _)] at this
    exact ⟨by rw [h0.1]; exact this.1, this.2⟩

/-- The operations on the account in use. -/
def POp.current : POp ν → List (AOp ν)
  | .cur op => [op]
  | .old _ _ => []

omit [PyNum ν] in
theorem current_map (ops : List (AOp ν)) : (ops.map POp.cur).flatMap POp.current = ops := by
  simp [List.flatMap_map, POp.current]

/-- The account during a run of a process that has replaced none. -/
theorem accountInRun_of (G : Gate γ ν) (udig : Char → Bool) (fns : Nat → μ → Ctx γ ν → Prog γ ν μ) (needBalance needOrders : Bool)
    (timers : List TimerSetup) (fn : Nat → Nat) (p0 : PSt γ ν μ) (a0 : Acct γ ν)
    (h0 : p0.ctx = ⟨true, some a0⟩) (ho : p0.olds = []) (s : LoopSt (RunW (PSt γ ν μ)) Nat PyErr)
    (h1 : s.world.st = stateAfter G udig fns (srcCbs timers (accCbs needBalance needOrders) fn) p0 s.fired s.fired.length) :
    AccountInRun G udig fns needBalance needOrders timers fn p0 a0 s
      ((firedOps G udig fns (srcCbs timers (accCbs needBalance needOrders) fn) p0 s.fired).map (·.flatMap POp.current)) := by
  have A := accountsInRun_of G udig fns _ (accCbs_accounts needBalance needOrders) timers fn p0 ⟨a0, []⟩ ⟨h0, ho⟩ s h1
  revert A
  generalize firedOps G udig fns (srcCbs timers (accCbs needBalance needOrders) fn) p0 s.fired = ops
  intro A
  have hall : ∀ n, ∃ l, (ops.take n).flatten = l.map POp.cur ∧ l = ((ops.map (·.flatMap POp.current)).take n).flatten := by
    intro n
    have : ∀ l ∈ ops, ∃ m : List (AOp ν), l = m.map POp.cur := by
      intro l hl
      obtain ⟨k, hk, rfl⟩ := List.getElem_of_mem hl
      have hk' : k < s.fired.length := by rw [← A.length]; exact hk
      rcases Nat.lt_or_ge s.fired[k].1.data timers.length with hd | hd
      · have := A.timer k s.fired[k] (List.getElem?_eq_getElem hk') hd
        rw [List.getElem?_eq_getElem hk, Option.some.injEq] at this
        exact ⟨_, this.trans (accCbs_ops _ _)⟩
      · have := A.task k s.fired[k] (List.getElem?_eq_getElem hk') hd
        rw [List.getElem?_eq_getElem hk, Option.some.injEq] at this
        exact ⟨_, this⟩
    refine ⟨_, ?_, rfl⟩
    rw [← List.map_take]
    have h2 : ∀ l ∈ ops.take n, ∃ m : List (AOp ν), l = m.map POp.cur := fun l hl => this l (List.mem_of_mem_take hl)
    revert h2
    generalize ops.take n = os
    intro h2
    induction os with
    | nil => rfl
    | cons l os ih =>
      obtain ⟨m, hm⟩ := h2 l (List.mem_cons_self)
      simp only [List.flatten_cons, List.map_cons, List.map_append]
      rw [← ih fun l hl => h2 l (List.mem_cons_of_mem _ hl), hm, current_map]
  refine ⟨?_, ?_, ?_, ?_, ?_⟩
  · simp [A.length]
  · intro n f hf hd
    have := A.timer n f hf hd
    rw [List.getElem?_map, this, Option.map_some]
    exact congrArg some ((congrArg _ (accCbs_ops needBalance needOrders)).trans (current_map _))
  · intro n f hf hd
    have := A.task n f hf hd
    simp only [List.getElem?_map, this, Option.map_some, current_map]
  · intro n
    obtain ⟨l, e1, e2⟩ := hall n
    have := (A.accounts n).1
    rw [e1, Accts.run_cur, e2] at this
    exact this
  · obtain ⟨l, e1, e2⟩ := hall ops.length
    have := A.now.1
    rw [List.take_of_length_le (Nat.le_refl _)] at e1
    rw [List.take_of_length_le (by simp)] at e2
    rw [e1, Accts.run_cur, e2] at this
    exact this

end Jq
