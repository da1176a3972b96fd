import Verif.Spec.Flow
/-! What the broker's files say about an order, value by value (C88). -/
namespace Jq
variable {ν : Type} [CellNum ν]

/-- The result file says that the broker refused the order, with this message. -/
def ReasonIn (id results m : Str) : Prop :=
  ∃ l ∈ rawLines results, ∃ t c, lineKind 6 l.1 = .fields [t, c!"1", id, c!"1", c, m]

/-- The update file has this update of the order. -/
def UpdateIn (id updates : Str) (ln : OrderLine) : Prop :=
  ∃ l ∈ rawLines updates, ∃ items, lineKind 20 l.1 = .fields items ∧ OrderLine.ofItems items = .ok ln ∧ ln.custBatchNo = id

/-- Every value that the order shows is that of a new order or was written by the broker about this order; a refused order shows the
message of a refusal (or was reported as refused by an update). -/
structure Order.OnlyReported (o : Order ν) (id results updates : Str) : Prop where
  hStatus : o.status = some .new ∨ (o.status = some .rejected ∧ ReasonIn id results o.errMsg) ∨
    ∃ ln st, UpdateIn id updates ln ∧ (ln.status, st) ∈ brokerStatuses ∧ o.status = some st
  hTime : o.entrustTime = none ∨
    ∃ ln d, UpdateIn id updates ln ∧ strptime mCompact (ln.orderDate ++ ln.orderTime) = .ok d ∧ o.entrustTime = some d
  hConfirm : o.confirmId = none ∨ ∃ ln, UpdateIn id updates ln ∧ o.confirmId = some ln.orderNo
  hFilled : o.filled = 0 ∨ ∃ ln, UpdateIn id updates ln ∧ pyInt ln.filledQty = some o.filled
  hCanceled : o.canceled = 0 ∨ ∃ ln, UpdateIn id updates ln ∧ pyInt ln.cancelQty = some o.canceled
  hBalance : o.dealBalance = PyNum.zero ∨
    ∃ ln x, UpdateIn id updates ln ∧ GateNum.parse ln.filledAmt = some x ∧ o.dealBalance = GateNum.round 4 x
  hCost : o.avgCost = none ∨ ∃ ln x, UpdateIn id updates ln ∧ GateNum.parse ln.avgPrice = some x ∧ o.avgCost = some (GateNum.round 3 x)
  hMsg : o.errMsg = [] ∨ ReasonIn id results o.errMsg ∨ ∃ ln, UpdateIn id updates ln ∧ o.errMsg = ln.text

end Jq
