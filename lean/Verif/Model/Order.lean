import Verif.Py.Time
/-!
# Orders

Models `account/order.py`.  Prices and money are of an abstract type `ν` (Python floats): only the operations
of `PyNum` are used, and nothing is assumed of them (so `NaN`, which is not equal to itself, is included).
Amounts are integers.
-/
namespace Jq

/-- What the code does with prices and money. -/
class PyNum (ν : Type) where
  /-- `a == b` -/
  eqv : ν → ν → Bool
  /-- `bool(a)` -/
  truthy : ν → Bool
  /-- the number 0 -/
  zero : ν

instance : PyNum Int := ⟨fun a b => decide (a = b), fun a => decide (a ≠ 0), 0⟩

/-- `order.py:13-35`. -/
inductive Status where
  | new | opened | filling | filled | canceling | partlyCanceled | canceled | rejected
deriving DecidableEq, Repr

/-- `order.py:57-62`. -/
inductive Side where
  | long | short
deriving DecidableEq, Repr

/-- `order.py:79-84`. -/
inductive Action where
  | opened | close
deriving DecidableEq, Repr

/-- Name (and value) of a member. -/
def Status.name : Status → Str
  | .new => c!"new" | .opened => c!"open" | .filling => c!"filling" | .filled => c!"filled"
  | .canceling => c!"canceling" | .partlyCanceled => c!"partly_canceled" | .canceled => c!"canceled"
  | .rejected => c!"rejected"

def Status.all : List Status := [.new, .opened, .filling, .filled, .canceling, .partlyCanceled, .canceled, .rejected]

/-- `order.py:46-54` `get_status` of a string (a member passed directly is the same as its name). -/
def Status.get (s : Str) : Py Status :=
  match Status.all.find? (fun x => decide (x.name = s)) with
  | some x => .ok x
  | none => .error .valueError

/-- `order.py:42-44` the finished statuses. -/
def Status.finished : Status → Bool
  | .filled | .partlyCanceled | .canceled | .rejected => true
  | _ => false

def Side.name : Side → Str
  | .long => c!"long" | .short => c!"short"

/-- `order.py:68-76` `get_side`. -/
def Side.get (s : Str) : Py Side :=
  if s = c!"long" then .ok .long else if s = c!"short" then .ok .short else .error .valueError

def Action.name : Action → Str
  | .opened => c!"open" | .close => c!"close"

/-- `order.py:90-98` `get_action`. -/
def Action.get (s : Str) : Py Action :=
  if s = c!"open" then .ok .opened else if s = c!"close" then .ok .close else .error .valueError

/-- `order.py:101-142` `MarketOrderStyle(price)` and `LimitOrderStyle(price)`. -/
inductive Style (ν : Type) where
  | market (price : ν)
  | limit (price : ν)
deriving DecidableEq, Repr

variable {ν : Type}

def Style.price : Style ν → ν
  | .market p => p
  | .limit p => p

/-- `value` of a style. -/
def Style.name : Style ν → Str
  | .market _ => c!"market"
  | .limit _ => c!"limit"

/-- The `style` argument of `Order`: an object or a string. -/
inductive StyleVal (ν : Type) where
  | obj (s : Style ν)
  | name (s : Str)
deriving DecidableEq, Repr

/-- `order.py:113-124` `get_style`. -/
def Style.get (v : StyleVal ν) (price : ν) : Py (Style ν) :=
  match v with
  | .obj s => .ok s
  | .name s =>
    if s = c!"market" then .ok (.market price)
    else if s = c!"limit" then .ok (.limit price)
    else .error .valueError

/-- `order.py:145-200` the attributes of an `Order`. -/
structure Order (ν : Type) where
  code : Str
  price : ν
  amount : Int
  action : Action
  orderId : Str
  status : Option Status
  style : Option (Style ν)
  createTime : Option DT
  entrustTime : Option DT
  side : Option Side
  confirmId : Option Str
  filled : Int
  canceled : Int
  dealBalance : ν
  avgCost : Option ν
  commission : ν
  errMsg : Str
deriving DecidableEq, Repr

/-- The keyword arguments of `Order(…)`, also the dictionaries made by `json()` and returned by
`trade_gate.sync_orders`; `none` is an absent key (or `None` where `None` is the default).
Enumeration members are given by name. -/
structure OrderInfo (ν : Type) where
  code : Option Str := none
  price : Option ν := none
  amount : Option Int := none
  action : Option Str := none
  orderId : Option Str := none
  status : Option Str := none
  style : Option (StyleVal ν) := none
  createTime : Option DtVal := none
  entrustTime : Option DtVal := none
  side : Option Str := none
  confirmId : Option Str := none
  filled : Option Int := none
  canceled : Option Int := none
  dealBalance : Option ν := none
  avgCost : Option ν := none
  commission : Option ν := none
  errMsg : Option Str := none
deriving DecidableEq, Repr

/-- `x if value else None`: absent and empty strings count as false. -/
def optStr (s : Option Str) : Option Str := s.bind fun s => if s = [] then none else some s

/-- A `style` that counts as true (an empty string does not; a style object always does). -/
def optStyle : Option (StyleVal ν) → Option (StyleVal ν)
  | some (.name []) => none
  | s => s

/-- A datetime value that counts as true. -/
def optDt : Option DtVal → Option DtVal
  | some (.str []) => none
  | s => s

/-- Required keyword argument: `TypeError` when missing. -/
def needArg {α : Type} : Option α → Py α
  | some a => .ok a
  | none => .error .typeError

/-- `f(x) if x else None`. -/
def optParse {α β : Type} (f : α → Py β) : Option α → Py (Option β)
  | none => .ok none
  | some a => (f a).map some

variable [PyNum ν]

/-- `order.py:145-200` `Order.__init__` and `load`.  All callers pass an `order_id`. Line 179: the side is kept
only when a style is given. -/
def Order.load (i : OrderInfo ν) : Py (Order ν) := do
  let code ← needArg i.code
  let price ← needArg i.price
  let amount ← needArg i.amount
  let actionStr ← needArg i.action
  let action ← Action.get actionStr
  let status ← optParse Status.get (optStr i.status)
  let style ← optParse (fun v => Style.get v price) (optStyle i.style)
  let createTime ← optParse parseDt (optDt i.createTime)
  let entrustTime ← optParse parseDt (optDt i.entrustTime)
  let side ← if (optStyle i.style).isSome then (Side.get (i.side.getD c!"long")).map some else .ok none
  return { code, price, amount, action, orderId := i.orderId.getD [], status, style, createTime, entrustTime, side
           confirmId := i.confirmId, filled := i.filled.getD 0, canceled := i.canceled.getD 0
           dealBalance := i.dealBalance.getD PyNum.zero, avgCost := i.avgCost
           commission := i.commission.getD PyNum.zero, errMsg := i.errMsg.getD [] }

/-- `.value`/`.strftime` of an attribute that must not be `None`. -/
def needAttr {α : Type} : Option α → Py α
  | some a => .ok a
  | none => .error .attributeError

/-- `order.py:202-221` `json`. -/
def Order.json (o : Order ν) : Py (OrderInfo ν) := do
  let status ← needAttr o.status
  let style ← needAttr o.style
  let createTime ← needAttr o.createTime
  let side ← needAttr o.side
  return { code := some o.code, price := some o.price, amount := some o.amount, action := some o.action.name
           orderId := some o.orderId, status := some status.name, style := some (.name style.name)
           createTime := some (.str createTime.full), entrustTime := o.entrustTime.map fun d => .str d.full
           side := some side.name, confirmId := o.confirmId, filled := some o.filled, canceled := some o.canceled
           dealBalance := some o.dealBalance, avgCost := o.avgCost, commission := some o.commission
           errMsg := some o.errMsg }

/-- `==` of optional numbers (`None == None`). -/
def optEqv : Option ν → Option ν → Bool
  | none, none => true
  | some a, some b => PyNum.eqv a b
  | _, _ => false

/-- `order.py:302-311` `__eq__`. -/
def Order.pyEq (a b : Order ν) : Bool :=
  decide (a.status = b.status) && decide (a.confirmId = b.confirmId) && decide (a.filled = b.filled) &&
  decide (a.canceled = b.canceled) && PyNum.eqv a.dealBalance b.dealBalance && optEqv a.avgCost b.avgCost &&
  PyNum.eqv a.commission b.commission

/-- `order.py:295-296` `has_finished`. -/
def Order.hasFinished (o : Order ν) : Bool := o.status.any Status.finished

end Jq
