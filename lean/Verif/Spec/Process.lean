import Verif.Model.Process
import Verif.Spec.Run
/-! Specification vocabulary for a process with an account (C65). -/
namespace Jq

variable {γ ν μ : Type} [PyNum ν]

/-- The operations of one synchronisation. -/
def syncOps (needBalance needOrders : Bool) : List (AOp ν) :=
  (if needBalance then [.syncBalance] else []) ++ if needOrders then [.syncOrders] else []

/-- The account's callbacks. -/
def accCbs (needBalance needOrders : Bool) : List Cb :=
  (if needBalance then [.account 0] else []) ++ if needOrders then [.account 1] else []

/-- The operation on the account that a request stands for: none if it is invalid. -/
def requestOps (udig : Char → Bool) (idn : Nat) (now : DT) (code : Str) (amount : AmtArg) (style : StyleArg ν) (side : SideArg) :
    List (AOp ν) :=
  match checkRequest udig code amount style side with
  | .ok (n, st, sd) => [.order idn now code n st sd]
  | .error _ => []

/-- The operations on the account that a call stands for. -/
def ApiCall.ops (udig : Char → Bool) : ApiCall ν → List (AOp ν)
  | .order idn now code amount style side => requestOps udig idn now code amount style side
  | .cancel id => [.cancel id]
  | .batchSubmit es => es.flatMap fun e =>
      match e.code, e.amount with
      | some code, some amount => requestOps udig e.idn e.now code amount e.style e.side
      | _, _ => []
  | .batchCancel ids => ids.map .cancel
  | .syncBalance => [.syncBalance]
  | .syncOrders => [.syncOrders]

/-- The operations that a function of the user performs on the account, when it has one. -/
def Prog.ops (G : Gate γ ν) (udig : Char → Bool) : Prog γ ν μ → Ctx γ ν → List (AOp ν)
  | .done _ _, _ => []
  | .call c next, x => (if x.useAccount then c.ops udig else []) ++
      (next (x.call G udig c).1 (x.call G udig c).2).ops G udig (x.call G udig c).1

/-- What can be done to the accounts of a process: an operation on the one in use, or a synchronisation, of the balance or of the
orders, of the `n`-th of those that were replaced. -/
inductive POp (ν : Type) where
  | cur (op : AOp ν)
  | old (n : Nat) (orders : Bool)

/-- The account in use and those that were replaced. -/
structure Accts (γ ν : Type) where
  cur : Acct γ ν
  olds : List (Acct γ ν)

/-- Do it.  A replaced account uses the gate of the account in use. -/
def Accts.step (G : Gate γ ν) (x : Accts γ ν) : POp ν → Accts γ ν
  | .cur op => { x with cur := (x.cur.step G op).1 }
  | .old n orders =>
    match x.olds[n]? with
    | none => x
    | some b =>
      let b := ({ b with gate := x.cur.gate }.step G (if orders then .syncOrders else .syncBalance)).1
      ⟨{ x.cur with gate := b.gate }, x.olds.set n b⟩

/-- Do a sequence of them. -/
def Accts.run (G : Gate γ ν) (x : Accts γ ν) (ops : List (POp ν)) : Accts γ ν := ops.foldl (Accts.step G) x

/-- What a callback of an account object stands for when `k` accounts have been replaced. -/
def accountOp (k : Nat) : Cb → List (POp ν)
  | .account i => if i / 2 < k then [.old (i / 2) (decide (i % 2 = 1))] else [.cur (if i % 2 = 0 then .syncBalance else .syncOrders)]
  | .user _ _ => []

/-- The state of the process after the first `n` firings of a log. -/
def stateAfter (G : Gate γ ν) (udig : Char → Bool) (fns : Nat → μ → Ctx γ ν → Prog γ ν μ) (cbs : Nat → List Cb) (p0 : PSt γ ν μ)
    (fired : List (Msg Nat × Int)) (n : Nat) : PSt γ ν μ :=
  ((fired.take n).flatMap fun f => cbs f.1.data).foldl (fun p cb => (procAct G udig fns cb p).1) p0

/-- The account during a run with `timers` synchronisation timers: its operations are, firing by firing, those of a
synchronisation and those of the user's function. -/
structure AccountInRun (G : Gate γ ν) (udig : Char → Bool) (fns : Nat → μ → Ctx γ ν → Prog γ ν μ) (needBalance needOrders : Bool)
    (timers : List TimerSetup) (fn : Nat → Nat) (p0 : PSt γ ν μ) (a0 : Acct γ ν) (s : LoopSt (RunW (PSt γ ν μ)) Nat PyErr)
    (ops : List (List (AOp ν))) : Prop where
  /-- one list of operations for each firing -/
  length : ops.length = s.fired.length
  /-- a timer synchronises -/
  timer : ∀ (n : Nat) (f : Msg Nat × Int), s.fired[n]? = some f → f.1.data < timers.length → ops[n]? = some (syncOps needBalance needOrders)
  /-- a task does what its function does in the state at that moment -/
  task : ∀ (n : Nat) (f : Msg Nat × Int), s.fired[n]? = some f → timers.length ≤ f.1.data →
    let p := stateAfter G udig fns (srcCbs timers (accCbs needBalance needOrders) fn) p0 s.fired n
    ops[n]? = some ((fns (fn (f.1.data - timers.length)) p.mem p.ctx).ops G udig p.ctx)
  /-- the account at every moment is the result of these operations -/
  account : ∀ n, (stateAfter G udig fns (srcCbs timers (accCbs needBalance needOrders) fn) p0 s.fired n).ctx =
    { p0.ctx with acct := some (a0.run G (ops.take n).flatten) }
  /-- … and so is it now -/
  now : s.world.st.ctx = { p0.ctx with acct := some (a0.run G ops.flatten) }

/-- The accounts during a run of a process that has replaced some: `cbs` are the callbacks of a synchronisation event. -/
structure AccountsInRun (G : Gate γ ν) (udig : Char → Bool) (fns : Nat → μ → Ctx γ ν → Prog γ ν μ) (cbs : List Cb)
    (timers : List TimerSetup) (fn : Nat → Nat) (p0 : PSt γ ν μ) (x0 : Accts γ ν) (s : LoopSt (RunW (PSt γ ν μ)) Nat PyErr)
    (ops : List (List (POp ν))) : Prop where
  /-- one list of operations for each firing -/
  length : ops.length = s.fired.length
  /-- a timer synchronises all accounts that were ever made, in order -/
  timer : ∀ (n : Nat) (f : Msg Nat × Int), s.fired[n]? = some f → f.1.data < timers.length →
    ops[n]? = some (cbs.flatMap (accountOp x0.olds.length))
  /-- a task does what its function does in the state at that moment, to the account in use -/
  task : ∀ (n : Nat) (f : Msg Nat × Int), s.fired[n]? = some f → timers.length ≤ f.1.data →
    let p := stateAfter G udig fns (srcCbs timers cbs fn) p0 s.fired n
    ops[n]? = some (((fns (fn (f.1.data - timers.length)) p.mem p.ctx).ops G udig p.ctx).map .cur)
  /-- the accounts at every moment are the result of these operations -/
  accounts : ∀ n, let p := stateAfter G udig fns (srcCbs timers cbs fn) p0 s.fired n
    p.ctx = { p0.ctx with acct := some (x0.run G (ops.take n).flatten).cur } ∧ p.olds = (x0.run G (ops.take n).flatten).olds
  /-- … and so are they now -/
  now : s.world.st.ctx = { p0.ctx with acct := some (x0.run G ops.flatten).cur } ∧ s.world.st.olds = (x0.run G ops.flatten).olds

/-- When a task fires, each timer has synchronised exactly at those of its due times that are not later than the task's. -/
def SyncedBeforeTasks {σ ε : Type} (timers : Nat) (due : Nat → List Int) (s : LoopSt σ Nat ε) : Prop :=
  ∀ before f after, s.fired = before ++ f :: after → timers ≤ f.1.data → ∀ j, j < timers →
    firingsIn before j = (due j).filter fun t => decide (t ≤ millisToDt f.1.time)

/-- The user's functions raise nothing. -/
def NeverRaise (G : Gate γ ν) (udig : Char → Bool) (fns : Nat → μ → Ctx γ ν → Prog γ ν μ) : Prop :=
  ∀ f m x, ((fns f m x).run G udig x).2.2 = none

end Jq
