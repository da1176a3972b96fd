import Verif.Model.Run
import Verif.Model.Api
/-!
# A process with an account

Puts the account into a whole run (`Verif/Model/Run.lean`): what `Account.setup` does during `set_options`
(`account.py:92-159`), the account's callbacks on the bus, and the user's functions as programs that call the API.

Between its calls a function of the user computes with its own variables and may look at everything that the API shows;
both are arbitrary here.  The id and the time that `order` draws are part of the call.  The account is not replaced
during the run (`set_options` is refused after `process_initialize`), but the callbacks of accounts that were replaced before are
still called.
-/
namespace Jq

variable {γ ν : Type} [PyNum ν]

/-- The class of the account's event (`account.py:128`). -/
def accEvent : Str := c!"AccountSyncEvent"

/-- `account.py:127-128`, `153-157` of `_setup_sync_timer`: the class and the callbacks of the `n`-th account object, `sync_balance`
(`2n`) and `sync_orders` (`2n + 1`). -/
def SchedSt.registerSync (n : Nat) (needBalance needOrders : Bool) (s : SchedSt) : SchedSt :=
  let s := s.createClass accEvent 2
  let s := if needBalance then { s with bus := s.bus.register accEvent (.account (2 * n)) 0 } else s
  if needOrders then { s with bus := s.bus.register accEvent (.account (2 * n + 1)) 0 } else s

/-- `account.py:101-104` this is done only when something is to be synchronised. -/
def SchedSt.accountSetup (n : Nat) (needBalance needOrders : Bool) (s : SchedSt) : SchedSt :=
  if needBalance || needOrders then s.registerSync n needBalance needOrders else s

/-- `account.py:92-113` `Account.setup`, with the outcome of the gate's `setup` and of making and scheduling the timer. -/
def Acct.setup (G : Gate γ ν) (gateSetup : γ → γ × Py Unit) (needBalance needOrders : Bool) (timer : Py Unit) (a : Acct γ ν) :
    Acct γ ν × Py Unit :=
  match gateSetup a.gate with
  | (g, .error e) => ({ a with gate := g }, .error e)
  | (g, .ok ()) =>
    let a := { a with gate := g }
    if needBalance || needOrders then
      match timer with
      | .error e => (a, .error e)
      | .ok () =>
        match (if needBalance then a.syncBalance G else (a, .ok ())) with
        | (a, .error e) => (a, .error e)
        | (a, .ok ()) => if needOrders then a.syncOrders G else (a, .ok ())
    else (a, .ok ())

/-- A call of the API that can change something (`api.py`). -/
inductive ApiCall (ν : Type) where
  | order (idn : Nat) (now : DT) (code : Str) (amount : AmtArg) (style : StyleArg ν) (side : SideArg)
  | cancel (id : Str)
  | batchSubmit (entries : List (BatchEntry ν))
  | batchCancel (ids : List Str)
  | syncBalance
  | syncOrders

/-- What a call returns. -/
inductive ApiRes where
  | none
  | id (r : Option Str)
  | ids (r : List (Option Str))
deriving DecidableEq, Repr

/-- Perform a call. -/
def Ctx.call (G : Gate γ ν) (udig : Char → Bool) (x : Ctx γ ν) : ApiCall ν → Ctx γ ν × Py ApiRes
  | .order idn now code amount style side => (fun r => (r.1, r.2.map .id)) (x.order G udig idn now code amount style side)
  | .cancel id => (fun r => (r.1, r.2.map fun _ => .none)) (x.cancel G id)
  | .batchSubmit es => (fun r => (r.1, .ok (.ids r.2))) (x.batch G udig es)
  | .batchCancel ids => (fun r => (r.1, r.2.map fun _ => .none)) (x.batchCancel G ids)
  | .syncBalance => (fun r => (r.1, r.2.map fun _ => .none)) (x.syncBalance G)
  | .syncOrders => (fun r => (r.1, r.2.map fun _ => .none)) (x.syncOrders G)

/-- What a function of the user does from some point on: it ends, with new values of the user's variables `μ` and possibly an
exception, or it makes a call and goes on depending on the outcome and on what the API shows. -/
inductive Prog (γ ν μ : Type) where
  | done (m : μ) (raised : Option PyErr)
  | call (c : ApiCall ν) (next : Ctx γ ν → Py ApiRes → Prog γ ν μ)

/-- Run it. -/
def Prog.run {μ : Type} (G : Gate γ ν) (udig : Char → Bool) : Prog γ ν μ → Ctx γ ν → Ctx γ ν × μ × Option PyErr
  | .done m e, x => (x, m, e)
  | .call c next, x => (next (x.call G udig c).1 (x.call G udig c).2).run G udig (x.call G udig c).1

/-- The state of a process outside the loop: the context, the variables of the user's module, and the account objects that were
replaced by later calls of `set_options`, in the order in which they were made.  The gate of such an object is not used: all use
that of the context (`account.py:101`, `171`, `184`, `192`, `232`). -/
structure PSt (γ ν μ : Type) where
  ctx : Ctx γ ν
  mem : μ
  olds : List (Acct γ ν) := []

/-- A callback of the `n`-th account object, which the bus refers to directly.  The gate is that of the context; without
`use_account` the property raises (`context.py:96-102`) and the method catches it before it has done anything. -/
def PSt.sync {μ : Type} (f : Acct γ ν → Acct γ ν × Py Unit) (n : Nat) (p : PSt γ ν μ) : PSt γ ν μ × Option PyErr :=
  if !p.ctx.useAccount then (p, none)
  else
    match p.ctx.acct with
    | none => (p, none)
    | some a =>
      match p.olds[n]? with
      | none =>
        match f a with
        | (a', .ok ()) => ({ p with ctx := { p.ctx with acct := some a' } }, none)
        | (a', .error e) => ({ p with ctx := { p.ctx with acct := some a' } }, some e)
      | some b =>
        match f { b with gate := a.gate } with
        | (b', r) =>
          ({ p with
              ctx := { p.ctx with acct := some { a with gate := b'.gate } }
              olds := p.olds.set n b' },
            match r with
            | .ok () => none
            | .error e => some e)

/-- `bus.py:47-62` what the bus calls: `sync_balance`, `sync_orders` of an account object (`account.py:189-255`), or the function of
the user (`strategy.py:93-96`), which is looked up in `fns`. -/
def procAct {μ : Type} (G : Gate γ ν) (udig : Char → Bool) (fns : Nat → μ → Ctx γ ν → Prog γ ν μ) :
    Cb → PSt γ ν μ → PSt γ ν μ × Option PyErr
  | .account k, p => p.sync (if k % 2 = 0 then Acct.syncBalance G else Acct.syncOrders G) (k / 2)
  | .user _ none, p => (p, some .typeError)
  | .user _ (some f), p =>
    match (fns f p.mem p.ctx).run G udig p.ctx with
    | (x, m, e) => ({ p with ctx := x, mem := m }, e)

end Jq
