import Verif.Model.Api
/-!
# What a strategy reads: the attributes of its objects

Models the properties of `UserOrder` (`api.py:184-250`), `UserPosition` (`api.py:273-315`) and `Portfolio` (`portfolio.py:8-42`), with those of
the objects behind them (`order.py:227-293`, `position.py:51-81`, `account.py:334-356`), by the names that a strategy writes.
Simplification: the attributes that every Python object has (`__class__`, `__dict__`, …) and the mangled private ones are left out.
-/
namespace Jq

variable {γ ν : Type}

/-- The value of an attribute. -/
inductive AttrVal (ν : Type) where
  | none
  | str (s : Str)
  | int (n : Int)
  | num (x : ν)
  | style (s : Style ν)
  | time (t : DT)
deriving DecidableEq, Repr

/-- A value that may be `None`. -/
def AttrVal.opt {α : Type} (f : α → AttrVal ν) : Option α → AttrVal ν
  | .none => .none
  | some a => f a

/-- `api.py:188-250` the properties of a `UserOrder`. -/
def orderAttrs : Dict Str (Order ν → Py (AttrVal ν)) :=
  [(c!"code", fun o => .ok (.str o.code)),
   (c!"status", fun o => (needAttr o.status).map fun s => .str s.name),
   (c!"side", fun o => (needAttr o.side).map fun s => .str s.name),
   (c!"style", fun o => .ok (.opt .style o.style)),
   (c!"order_price", fun o => .ok (.num o.price)),
   (c!"amount", fun o => .ok (.int o.amount)),
   (c!"filled_amount", fun o => .ok (.int o.filled)),
   (c!"avg_price", fun o => .ok (.opt .num o.avgCost)),
   (c!"action", fun o => .ok (.str o.action.name)),
   (c!"order_id", fun o => .ok (.str o.orderId)),
   (c!"commission", fun o => .ok (.num o.commission)),
   (c!"err_msg", fun o => .ok (.str o.errMsg)),
   (c!"canceled_amount", fun o => .ok (.int o.canceled)),
   (c!"create_time", fun o => .ok (.opt .time o.createTime)),
   (c!"entrust_time", fun o => .ok (.opt .time o.entrustTime)),
   (c!"deal_balance", fun o => .ok (.num o.dealBalance))]

/-- `getattr(user_order, name)`. -/
def Order.attr (o : Order ν) (name : Str) : Py (AttrVal ν) :=
  match dget orderAttrs name with
  | some f => f o
  | .none => .error .attributeError

/-- `api.py:282-315` the properties of a `UserPosition`; three have a second name (`api.py:298`, `309`, `315`). -/
def posAttrs : Dict Str (Pos ν → AttrVal ν) :=
  [(c!"security", fun p => .str p.code),
   (c!"total_amount", fun p => .int p.amount),
   (c!"closeable_amount", fun p => .int p.avail),
   (c!"avg_cost", fun p => .num p.avgCost),
   (c!"acc_avg_cost", fun p => .num p.avgCost),
   (c!"side", fun p => .str p.side.name),
   (c!"last_price", fun p => .opt .num p.lastPrice),
   (c!"price", fun p => .opt .num p.lastPrice),
   (c!"position_value", fun p => .opt .num p.value),
   (c!"value", fun p => .opt .num p.value)]

/-- `getattr(user_position, name)`. -/
def Pos.attr (p : Pos ν) (name : Str) : Py (AttrVal ν) :=
  match dget posAttrs name with
  | some f => .ok (f p)
  | .none => .error .attributeError

variable [PyNum ν]

/-- `portfolio.py:28-42` the amounts of a `Portfolio`. -/
def portfolioAttrs : Dict Str (Acct γ ν → Py (AttrVal ν)) :=
  [(c!"total_value", fun a => .ok (.num a.total)),
   (c!"available_cash", fun a => .ok (.num a.avail)),
   (c!"locked_cash", fun a => .ok (.num a.locked)),
   (c!"position_value", fun a => a.positionValue.map .num)]

/-- `portfolio.py:12-26`: the dictionaries of positions; `positions` is another name of `long_positions`. -/
def portfolioDicts : Dict Str (Acct γ ν → Str → Pos ν) :=
  [(c!"long_positions", Acct.longPosition), (c!"positions", Acct.longPosition), (c!"short_positions", Acct.shortPosition)]

/-- `context.portfolio.<name>` for an amount (`scheduler/api.py:25-27`, `context.py:108-115`: the portfolio is refused like the account, and is
`None` until there is one). -/
def Ctx.portfolioAttr (x : Ctx γ ν) (name : Str) : Py (AttrVal ν) := do
  let a ← x.account
  match dget portfolioAttrs name with
  | some f => f a
  | .none => .error .attributeError

/-- `context.portfolio.<dict>[code].<name>`. -/
def Ctx.positionAttr (x : Ctx γ ν) (dict code name : Str) : Py (AttrVal ν) := do
  let a ← x.account
  match dget portfolioDicts dict with
  | some f => (f a code).attr name
  | .none => .error .attributeError

/-- `get_orders()[id].<name>`. -/
def Ctx.orderAttr (udig : Char → Bool) (x : Ctx γ ν) (id name : Str) : Py (AttrVal ν) := do
  let d ← x.getOrders udig .none .none .none
  let a ← x.account
  match (dget d id).bind a.userOrder with
  | some o => o.attr name
  | .none => .error .keyError

end Jq
