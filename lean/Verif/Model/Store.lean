import Verif.Model.TradeGate
import Verif.Py.Json
/-!
# The order book as a JSON text

`json.dump(self._orders, wf)` and `json.load(rf)` (`trade_gate.py:496`, `507`) for dictionaries made by `Order.json`
(`order.py:202-221`) and changed by `_update_order`.  A text that is valid JSON but not such a dictionary (never written by
the code) is treated as unreadable.
-/
namespace Jq

/-- Prices and money as JSON numbers. -/
class JsonNum (ν : Type) where
  /-- `float.__repr__`, `int.__repr__`, `NaN`, …; `none`: `TypeError` (for instance `Decimal`) -/
  repr : ν → Option Str
  ofRepr : Str → Option ν

/-- `str(n)`. -/
def intStr (n : Int) : Str := if n < 0 then '-' :: natStr n.natAbs else natStr n.natAbs

variable {ν : Type} [JsonNum ν]

/-- A field whose value cannot be serialised makes `json.dump` fail: outer `none`; inner `none`: no such key. -/
def jvStr (s : Option Str) : Option (Option JV) := some (s.map .str)

def jvInt (n : Option Int) : Option (Option JV) := some (n.map fun n => .num (intStr n))

def jvNum : Option ν → Option (Option JV)
  | none => some none
  | some x => (JsonNum.repr x).map fun l => some (.num l)

def jvStyle : Option (StyleVal ν) → Option (Option JV)
  | none => some none
  | some (.name s) => some (some (.str s))
  | some (.obj _) => none

def jvDt : Option DtVal → Option (Option JV)
  | none => some none
  | some (.str s) => some (some (.str s))
  | some (.dt _) => none

/-- `None` is written as `null`. -/
def orNull (v : Option (Option JV)) : Option (Option JV) := v.map fun o => some (o.getD .null)

/-- The fields in the order of `Order.json`. -/
def infoFields (o : OrderInfo ν) : List (Str × Option (Option JV)) :=
  [(c!"code", jvStr o.code), (c!"price", jvNum o.price), (c!"amount", jvInt o.amount), (c!"action", jvStr o.action),
   (c!"order_id", jvStr o.orderId), (c!"status", jvStr o.status), (c!"style", jvStyle o.style), (c!"create_time", jvDt o.createTime),
   (c!"entrust_time", orNull (jvDt o.entrustTime)), (c!"side", jvStr o.side), (c!"confirm_id", orNull (jvStr o.confirmId)),
   (c!"filled_amount", jvInt o.filled), (c!"canceled_amount", jvInt o.canceled), (c!"deal_balance", jvNum o.dealBalance),
   (c!"avg_cost", orNull (jvNum o.avgCost)), (c!"commission", jvNum o.commission), (c!"err_msg", jvStr o.errMsg)]

/-- The members that are there; `none` when one cannot be serialised. -/
def collect : List (Str × Option (Option JV)) → Option (List (Str × JV))
  | [] => some []
  | (_, none) :: _ => none
  | (_, some none) :: l => collect l
  | (k, some (some v)) :: l => (collect l).map fun r => (k, v) :: r

/-- An order as a JSON object. -/
def infoJV (o : OrderInfo ν) : Option JV := (collect (infoFields o)).map .obj

/-- The members of the book. -/
def bookMembers : Book ν → Option (List (Str × JV))
  | [] => some []
  | (id, o) :: b =>
    match infoJV o, bookMembers b with
    | some v, some ms => some ((id, v) :: ms)
    | _, _ => none

/-- `json.dump(self._orders, wf)`. -/
def dumpBook (b : Book ν) : Option Str := (bookMembers b).map fun ms => (JV.obj ms).dump

/-- A dictionary from members: the last of equal keys wins. -/
def toDict (ms : List (Str × JV)) : Dict Str JV := ms.foldl (fun d m => dset d m.1 m.2) []

/-- Reading a key; `null` is `None`. -/
def fieldStr (d : Dict Str JV) (k : Str) : Option (Option Str) :=
  match dget d k with
  | none => some none
  | some .null => some none
  | some (.str s) => some (some s)
  | _ => none

def fieldInt (d : Dict Str JV) (k : Str) : Option (Option Int) :=
  match dget d k with
  | none => some none
  | some .null => some none
  | some (.num l) => (pyInt l).map some
  | _ => none

def fieldNum (ν : Type) [JsonNum ν] (d : Dict Str JV) (k : Str) : Option (Option ν) :=
  match dget d k with
  | none => some none
  | some .null => some none
  | some (.num l) => (JsonNum.ofRepr l).map some
  | _ => none

/-- An order from a JSON object. -/
def infoOf : JV → Option (OrderInfo ν)
  | .obj ms => do
    let d := toDict ms
    let code ← fieldStr d c!"code"
    let price ← fieldNum ν d c!"price"
    let amount ← fieldInt d c!"amount"
    let action ← fieldStr d c!"action"
    let orderId ← fieldStr d c!"order_id"
    let status ← fieldStr d c!"status"
    let style ← fieldStr d c!"style"
    let createTime ← fieldStr d c!"create_time"
    let entrustTime ← fieldStr d c!"entrust_time"
    let side ← fieldStr d c!"side"
    let confirmId ← fieldStr d c!"confirm_id"
    let filled ← fieldInt d c!"filled_amount"
    let canceled ← fieldInt d c!"canceled_amount"
    let dealBalance ← fieldNum ν d c!"deal_balance"
    let avgCost ← fieldNum ν d c!"avg_cost"
    let commission ← fieldNum ν d c!"commission"
    let errMsg ← fieldStr d c!"err_msg"
    return { code, price, amount, action, orderId, status, style := style.map .name, createTime := createTime.map .str
             entrustTime := entrustTime.map .str, side, confirmId, filled, canceled, dealBalance, avgCost, commission, errMsg }
  | _ => none

/-- The orders of the book. -/
def bookOf : Dict Str JV → Option (Book ν)
  | [] => some []
  | (id, v) :: d =>
    match infoOf v, bookOf d with
    | some o, some b => some ((id, o) :: b)
    | _, _ => none

/-- `json.load(rf)`. -/
def loadBook (text : Str) : Option (Book ν) :=
  match jsonLoads text with
  | some (.obj ms) => bookOf (toDict ms)
  | _ => none

/-- The data file of the trade gate. -/
instance : Store ν := ⟨dumpBook, loadBook⟩

/-- Whole numbers, for the examples; the number 666 stands for a value that `json` refuses (such as a `Decimal`). -/
instance : JsonNum Int where
  repr n := if n = 666 then none else some (intStr n)
  ofRepr := pyInt

end Jq
