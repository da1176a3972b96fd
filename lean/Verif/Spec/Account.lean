import Verif.Model.Api
/-! What the account and its API should do, stated without their functions. -/
namespace Jq
variable {ν : Type}

/-- A security code that the API may accept: digits, one character, exchange. -/
def ValidCode (udig : Char → Bool) (code : Str) : Prop :=
  ∃ stem sep suffix, code = stem ++ sep :: suffix ∧ stem ≠ [] ∧ (∀ c ∈ stem, isDigitU udig c = true) ∧
    (suffix = c!"XSHE" ∨ suffix = c!"XSHG")

/-- A request that may be sent, and what is to be sent: amount, style, side. -/
def ValidRequest [PyNum ν] (udig : Char → Bool) (code : Str) (amount : AmtArg) (style : StyleArg ν) (side : SideArg)
    (n : Int) (st : Style ν) (sd : Side) : Prop :=
  ValidCode udig code ∧ (amount = .int n ∧ n ≠ 0) ∧
  ((style = .falsy ∧ st = .market PyNum.zero) ∨ style = .style st) ∧
  ((side = .falsy ∧ sd = .long) ∨ (side = .str c!"long" ∧ sd = .long) ∨ (side = .str c!"short" ∧ sd = .short))

/-- The order says what was asked: code, absolute amount, direction, style and price; it is new and nothing of
it is done. -/
structure Order.SaysRequest [PyNum ν] (o : Order ν) (id : Str) (code : Str) (amount : Int) (style : Style ν) : Prop where
  hId : o.orderId = id
  hCode : o.code = code
  hAmount : o.amount = if amount < 0 then - amount else amount
  hAction : o.action = if amount < 0 then .close else .opened
  hStyle : o.style = some style
  hPrice : o.price = style.price
  hStatus : o.status = some .new
  hUntouched : o.filled = 0 ∧ o.canceled = 0 ∧ o.confirmId = none ∧ o.avgCost = none ∧ o.errMsg = []

/-- The filters of `get_orders`; an empty string is no filter. -/
def MatchesFilters (orderId code status : Option Str) (id : Str) (o : Order ν) : Prop :=
  (∀ i, orderId = some i → i ≠ [] → i = id) ∧
  (∀ c, code = some c → c ≠ [] → c = o.code) ∧
  (∀ s, status = some s → s ≠ [] → ∃ t, o.status = some t ∧ t.name = s)

/-- The report entry describes the position. -/
def PosInfo.Says (i : PosInfo ν) (p : Pos ν) : Prop :=
  i.side = some p.side.name ∧ i.code = some p.code ∧ i.amount = some p.amount ∧ i.avail = some p.avail ∧
  i.avgCost = some p.avgCost ∧ i.lastPrice = p.lastPrice ∧ i.value = p.value

/-- The position a report gives for a side and code: the last entry wins. -/
def reported (ps : List (Pos ν)) (side : Side) (code : Str) : Option (Pos ν) :=
  (ps.filter fun p => decide (p.side = side ∧ p.code = code)).getLast?

/-- The available amount after the sells of the given amounts. -/
def closeable (v : Int) (sells : List Int) : Int := if sells = [] then v else max (v - sells.sum) 0

/-- Equal, or the same number for Python (`1 == 1.0`). -/
def SameNum [PyNum ν] (a b : ν) : Prop := a = b ∨ PyNum.eqv b a = true

/-- The order shows the state that the report entry gives: status, fills, cancels, balance, cost, confirm id. -/
structure Order.ShowsReport [PyNum ν] (o : Order ν) (i : OrderInfo ν) : Prop where
  hId : i.orderId = some o.orderId
  hStatus : (o.status = none ∧ (i.status = none ∨ i.status = some [])) ∨ ∃ s, o.status = some s ∧ i.status = some s.name
  hConfirm : o.confirmId = i.confirmId
  hFilled : o.filled = i.filled.getD 0
  hCanceled : o.canceled = i.canceled.getD 0
  hBalance : SameNum o.dealBalance (i.dealBalance.getD PyNum.zero)
  hCommission : SameNum o.commission (i.commission.getD PyNum.zero)
  hCost : (o.avgCost = none ∧ i.avgCost = none) ∨ ∃ x y, o.avgCost = some x ∧ i.avgCost = some y ∧ SameNum x y

/-- A notification that closes the order's history. -/
def NoteKind.final : NoteKind → Bool
  | .deal | .canceled | .rejected => true
  | _ => false

/-- Two lists of the same length related entry by entry. -/
inductive AllRel {α β : Type} (R : α → β → Prop) : List α → List β → Prop
  | nil : AllRel R [] []
  | cons {a b as bs} : R a b → AllRel R as bs → AllRel R (a :: as) (b :: bs)

/-- A datetime that is valid and has a year of four digits. -/
def DT.ok (d : DT) : Prop := d.valid = true ∧ 1000 ≤ d.year

end Jq
