import Verif.Model.UserView
import Verif.Spec.Account
/-! What the attributes should say (C99): tables of names and values, in terms of what was asked and what was reported. -/
namespace Jq
variable {ν : Type} [PyNum ν]

/-- All of the names can be read, with these values. -/
def Reads (read : Str → Py (AttrVal ν)) (table : List (Str × AttrVal ν)) : Prop := ∀ e ∈ table, read e.1 = .ok e.2

/-- A new order for `n` shares (sold, if `n < 0`). -/
def newOrderTable (id code : Str) (n : Int) (st : Style ν) (now : DT) : List (Str × AttrVal ν) :=
  [(c!"order_id", .str id), (c!"code", .str code), (c!"amount", .int n.natAbs),
   (c!"action", .str (if n < 0 then c!"close" else c!"open")), (c!"side", .str c!"long"), (c!"style", .style st), (c!"order_price", .num st.price),
   (c!"status", .str c!"new"), (c!"filled_amount", .int 0), (c!"canceled_amount", .int 0), (c!"avg_price", .none),
   (c!"deal_balance", .num PyNum.zero), (c!"commission", .num PyNum.zero), (c!"err_msg", .str []), (c!"create_time", .time now),
   (c!"entrust_time", .none)]

/-- A position with a closeable amount. -/
def positionTable (p : Pos ν) (closeable : Int) : List (Str × AttrVal ν) :=
  [(c!"security", .str p.code), (c!"total_amount", .int p.amount), (c!"closeable_amount", .int closeable), (c!"avg_cost", .num p.avgCost),
   (c!"acc_avg_cost", .num p.avgCost), (c!"side", .str p.side.name),
   (c!"last_price", match p.lastPrice with | some v => .num v | none => .none), (c!"price", match p.lastPrice with | some v => .num v | none => .none),
   (c!"position_value", match p.value with | some v => .num v | none => .none), (c!"value", match p.value with | some v => .num v | none => .none)]

/-- What is shown for a code that is not held. -/
def notHeldTable (code side : Str) : List (Str × AttrVal ν) :=
  [(c!"security", .str code), (c!"total_amount", .int 0), (c!"closeable_amount", .int 0), (c!"avg_cost", .num PyNum.zero),
   (c!"acc_avg_cost", .num PyNum.zero), (c!"side", .str side), (c!"last_price", .num PyNum.zero), (c!"price", .num PyNum.zero),
   (c!"position_value", .num PyNum.zero), (c!"value", .num PyNum.zero)]

/-- The names of the attributes of an order. -/
def orderNames : List Str :=
  [c!"code", c!"status", c!"side", c!"style", c!"order_price", c!"amount", c!"filled_amount", c!"avg_price", c!"action", c!"order_id", c!"commission",
   c!"err_msg", c!"canceled_amount", c!"create_time", c!"entrust_time", c!"deal_balance"]

end Jq
