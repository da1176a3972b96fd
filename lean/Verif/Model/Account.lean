import Verif.Model.Order
import Verif.Py.Dict
/-!
# The account

Models `account/account.py` (`Account`) and `account/position.py` for an arbitrary trade gate.

`Order` and `Position` objects live on a heap (a list; an address is an index), because users keep references
to them (`UserOrder`, `UserPosition`).  The trade gate is any function on an abstract gate state `γ` (which may
contain files, clocks, oracles); it is assumed not to modify the `Order` objects it is given.
Amounts of positions are integers.  Logging is left out, except the notifications of order changes
(`account.py:268-332`), which are recorded.
-/
namespace Jq

/-- `position.py:14-38` the attributes of a `Position`. -/
structure Pos (ν : Type) where
  code : Str
  amount : Int
  avail : Int
  avgCost : ν
  side : Side
  lastPrice : Option ν := none
  value : Option ν := none
deriving DecidableEq, Repr

/-- The `cash` part of a balance report; `none`: key absent or `None`. -/
structure CashInfo (ν : Type) where
  total : Option ν := none
  avail : Option ν := none
  locked : Option ν := none
deriving DecidableEq, Repr

/-- One entry of the `positions` part; `none` is an absent key. -/
structure PosInfo (ν : Type) where
  side : Option Str := none
  code : Option Str := none
  amount : Option Int := none
  avail : Option Int := none
  avgCost : Option ν := none
  lastPrice : Option ν := none
  value : Option ν := none
deriving DecidableEq, Repr

/-- What `trade_gate.sync_balance` returns; `none` is an absent key. -/
structure BalInfo (ν : Type) where
  cash : Option (CashInfo ν) := none
  positions : Option (List (PosInfo ν)) := none
deriving DecidableEq, Repr

/-- A trade gate (`trade_gate.py:32-120`). -/
structure Gate (γ ν : Type) where
  order : γ → Order ν → γ × Py Unit
  cancel : γ → Str → γ × Py Unit
  balance : γ → γ × Py (BalInfo ν)
  orders : γ → γ × Py (List (OrderInfo ν))

/-- `account.py:289-332` the kinds of notification. -/
inductive NoteKind where
  | confirmed | partDeal | deal | canceling | canceled | rejected
deriving DecidableEq, Repr

structure Note where
  kind : NoteKind
  orderId : Str
deriving DecidableEq, Repr

/-- `account.py:72-93` the attributes of an `Account` (and the heap, the gate, the notifications). -/
structure Acct (γ ν : Type) where
  gate : γ
  oheap : List (Order ν) := []
  orders : Dict Str Nat := []
  pheap : List (Pos ν) := []
  long : Dict Str Nat := []
  short : Dict Str Nat := []
  total : ν
  avail : ν
  locked : ν
  synced : Bool := false
  notes : List Note := []
deriving DecidableEq, Repr

variable {γ ν : Type}

/-- `account.py:72-93` `Account(ctx)`. -/
def Acct.init [PyNum ν] (g : γ) : Acct γ ν := { gate := g, total := PyNum.zero, avail := PyNum.zero, locked := PyNum.zero }

/-- `self._orders.get(id)` as an object. -/
def Acct.find (a : Acct γ ν) (id : Str) : Option (Order ν) := (dget a.orders id).bind (a.oheap[·]?)

/-- `self._long_positions.get(code)` as an object. -/
def Acct.findLong (a : Acct γ ν) (code : Str) : Option (Pos ν) := (dget a.long code).bind (a.pheap[·]?)

def Acct.findShort (a : Acct γ ν) (code : Str) : Option (Pos ν) := (dget a.short code).bind (a.pheap[·]?)

/-- `self._orders[id] = order` for a new object. -/
def Acct.putOrder (a : Acct γ ν) (id : Str) (o : Order ν) : Acct γ ν :=
  { a with oheap := a.oheap ++ [o], orders := dset a.orders id a.oheap.length }

/-- `position.py:38-41` `Position.on_order_created`. -/
def Pos.onCreated (p : Pos ν) (o : Order ν) : Pos ν :=
  if o.action = .close then { p with avail := max (p.avail - o.amount) 0 } else p

/-- `account.py:256-263` `on_order_created`. -/
def Acct.onCreated (a : Acct γ ν) (o : Order ν) : Acct γ ν :=
  match dget (if o.side = some .long then a.long else a.short) o.code with
  | none => a
  | some p => { a with pheap := a.pheap.modify p (·.onCreated o) }

variable [PyNum ν]

/-- `account.py:163-166` the order object made for a request. -/
def newOrderInfo (id : Str) (now : DT) (code : Str) (amount : Int) (style : Style ν) : OrderInfo ν :=
  { code := some code, price := some style.price, amount := some amount.natAbs
    action := some (if amount < 0 then c!"close" else c!"open"), orderId := some id, style := some (.obj style)
    createTime := some (.dt now), status := some c!"new" }

/-- `try: body; except Exception as e: log` with the value returned after an exception: every exception
modelled here is an `Exception`; the changes made before it stay. -/
def tryExcept {σ α : Type} (default : α) (r : σ × Py α) : σ × Py α :=
  match r with
  | (s, .ok a) => (s, .ok a)
  | (s, .error _) => (s, .ok default)

/-- `account.py:171-173` the `try` block of `order`. -/
def Acct.orderBody (G : Gate γ ν) (id : Str) (o : Order ν) (a : Acct γ ν) : Acct γ ν × Py (Option Str) :=
  match G.order a.gate o with
  | (g, .error e) => ({ a with gate := g }, .error e)
  | (g, .ok ()) => (({ a with gate := g } : Acct γ ν).onCreated o, .ok (some id))

/-- `account.py:161-175` `order`.  `idn` is the number drawn by `generate_unique_number`, `now` the clock.
The `side` is not used (line 164). Returns the id, or `None` after an exception. -/
def Acct.order (G : Gate γ ν) (idn : Nat) (now : DT) (code : Str) (amount : Int) (style : Style ν) (_side : Side)
    (a : Acct γ ν) : Acct γ ν × Py (Option Str) :=
  let id := natStr idn
  match Order.load (newOrderInfo id now code amount style) with
  | .error e => (a, .error e)
  | .ok o => tryExcept none ((a.putOrder id o).orderBody G id o)

/-- `account.py:179-184` the `try` block of `cancel_order`. -/
def Acct.cancelBody (G : Gate γ ν) (id : Str) (a : Acct γ ν) : Acct γ ν × Py Unit :=
  if id ∈ dkeys a.orders then
    match G.cancel a.gate id with
    | (g, r) => ({ a with gate := g }, r)
  else (a, .ok ())

/-- `account.py:177-187` `cancel_order`. -/
def Acct.cancel (G : Gate γ ν) (id : Str) (a : Acct γ ν) : Acct γ ν × Py Unit := tryExcept () (a.cancelBody G id)

/-- `x or old`. -/
def orOld (x : Option ν) (old : ν) : ν :=
  match x with
  | some v => if PyNum.truthy v then v else old
  | none => old

/-- `dict.pop(key)`: `KeyError` when absent. -/
def needKey {α : Type} : Option α → Py α
  | some a => .ok a
  | none => .error .keyError

/-- `account.py:212-220` one reported position. -/
def Pos.load (i : PosInfo ν) : Py (Pos ν) := do
  let sideStr ← needKey i.side
  let side ← Side.get sideStr
  let code ← needKey i.code
  let amount ← needKey i.amount
  let avail ← needKey i.avail
  let avgCost ← needKey i.avgCost
  return { code, amount, avail, avgCost, side, lastPrice := i.lastPrice, value := i.value }

/-- `account.py:222-225` store a position object. -/
def Acct.putPos (a : Acct γ ν) (p : Pos ν) : Acct γ ν :=
  match p.side with
  | .long => { a with pheap := a.pheap ++ [p], long := dset a.long p.code a.pheap.length }
  | .short => { a with pheap := a.pheap ++ [p], short := dset a.short p.code a.pheap.length }

/-- `account.py:211-225` the loop over the reported positions. -/
def Acct.loadPositions : List (PosInfo ν) → Acct γ ν → Acct γ ν × Py Unit
  | [], a => (a, .ok ())
  | i :: is, a =>
    match Pos.load i with
    | .error e => (a, .error e)
    | .ok p => Acct.loadPositions is (a.putPos p)

/-- `account.py:194-225` the body of `sync_balance` after the gate returned. -/
def Acct.applyBalance (info : BalInfo ν) (a : Acct γ ν) : Acct γ ν × Py Unit :=
  match info.cash with
  | none => (a, .error .valueError)
  | some c =>
    match info.positions with
    | none => (a, .error .valueError)
    | some ps =>
      Acct.loadPositions ps { a with
        total := orOld c.total a.total
        avail := orOld c.avail a.avail
        locked := orOld c.locked a.locked
        long := []
        short := [] }

/-- `account.py:192-225` the `try` block of `sync_balance`. -/
def Acct.syncBalanceBody (G : Gate γ ν) (a : Acct γ ν) : Acct γ ν × Py Unit :=
  match G.balance a.gate with
  | (g, .error e) => ({ a with gate := g }, .error e)
  | (g, .ok info) => ({ a with gate := g } : Acct γ ν).applyBalance info

/-- `account.py:189-227` `sync_balance`. -/
def Acct.syncBalance (G : Gate γ ν) (a : Acct γ ν) : Acct γ ν × Py Unit := tryExcept () (a.syncBalanceBody G)

/-- `account.py:268-332` `_notify_changed` and the functions it calls: what is logged. -/
def notify (l r : Order ν) : List Note :=
  let deal : List Note := if l.hasFinished then [] else
    [⟨if r.status = some .filling then .partDeal else .deal, r.orderId⟩]
  if l.status ≠ r.status then
    match r.status with
    | some .opened => if l.status ≠ some .new then [] else [⟨.confirmed, r.orderId⟩]
    | some .filling => deal
    | some .filled => deal
    | some .canceling => if l.hasFinished then [] else [⟨.canceling, r.orderId⟩]
    | some .partlyCanceled => if l.hasFinished then [] else [⟨.canceled, r.orderId⟩]
    | some .canceled => if l.hasFinished then [] else [⟨.canceled, r.orderId⟩]
    | some .rejected => if l.hasFinished then [] else [⟨.rejected, r.orderId⟩]
    | _ => []
  else if r.status = some .filling then deal else []

/-- `account.py:235-250` one reported order. -/
def Acct.mergeOrder (i : OrderInfo ν) (a : Acct γ ν) : Acct γ ν × Py Unit :=
  match i.orderId with
  | none => (a, .error .keyError)
  | some id =>
    match Order.load i with
    | .error e => (a, .error e)
    | .ok r =>
      match a.find id with
      | none => (a.putOrder id r, .ok ())
      | some l =>
        if r.pyEq l then (a, .ok ())
        else ({ a.putOrder id r with notes := a.notes ++ notify l r }, .ok ())

/-- `account.py:234-250` the loop over the reported orders. -/
def Acct.mergeOrders : List (OrderInfo ν) → Acct γ ν → Acct γ ν × Py Unit
  | [], a => (a, .ok ())
  | i :: is, a =>
    match a.mergeOrder i with
    | (a, .error e) => (a, .error e)
    | (a, .ok ()) => Acct.mergeOrders is a

/-- `account.py:232-252` the `try` block of `sync_orders`. -/
def Acct.syncOrdersBody (G : Gate γ ν) (a : Acct γ ν) : Acct γ ν × Py Unit :=
  match G.orders a.gate with
  | (g, .error e) => ({ a with gate := g }, .error e)
  | (g, .ok infos) =>
    match ({ a with gate := g } : Acct γ ν).mergeOrders infos with
    | (a, .error e) => (a, .error e)
    | (a, .ok ()) => ({ a with synced := true }, .ok ())

/-- `account.py:229-254` `sync_orders`. -/
def Acct.syncOrders (G : Gate γ ν) (a : Acct γ ν) : Acct γ ν × Py Unit := tryExcept () (a.syncOrdersBody G)

/-- The operations of the account. -/
inductive AOp (ν : Type) where
  | order (idn : Nat) (now : DT) (code : Str) (amount : Int) (style : Style ν) (side : Side)
  | cancel (id : Str)
  | syncBalance
  | syncOrders

/-- Perform an operation. -/
def Acct.step (G : Gate γ ν) (a : Acct γ ν) : AOp ν → Acct γ ν × Py (Option Str)
  | .order idn now code amount style side => a.order G idn now code amount style side
  | .cancel id => (fun r => (r.1, r.2.map fun _ => none)) (a.cancel G id)
  | .syncBalance => (fun r => (r.1, r.2.map fun _ => none)) (a.syncBalance G)
  | .syncOrders => (fun r => (r.1, r.2.map fun _ => none)) (a.syncOrders G)

/-- The states after a sequence of operations. -/
def Acct.run (G : Gate γ ν) (a : Acct γ ν) (ops : List (AOp ν)) : Acct γ ν :=
  ops.foldl (fun a op => (a.step G op).1) a

end Jq
