import Verif.Spec.Flow
import Verif.Spec.UserView
/-! What the attributes of an order should say, in terms of the broker's files (C99). -/
namespace Jq
variable {ν : Type} [CellNum ν]

/-- What is read of an order is what was asked. -/
def ReadsAsAsked (read : Str → Py (AttrVal ν)) (k : Ack ν) : Prop :=
  Reads read
    [(c!"order_id", .str k.id), (c!"code", .str k.code), (c!"amount", .int k.amount.natAbs),
     (c!"action", .str (if k.amount < 0 then c!"close" else c!"open")), (c!"style", .style k.style), (c!"order_price", .num k.style.price),
     (c!"create_time", .time k.now)]

/-- What is read of an order is what was asked, and what the files say of it. -/
def ReadsAsFiled (read : Str → Py (AttrVal ν)) (k : Ack ν) (results updates : Str) : Prop :=
    ReadsAsAsked read k ∧
    (RejectedIn k.id results → read c!"status" = .ok (.str c!"rejected")) ∧
    (¬ RejectedIn k.id results → ¬ UpdatedIn k.id updates → Reads read
      [(c!"status", .str c!"new"), (c!"filled_amount", .int 0), (c!"canceled_amount", .int 0), (c!"avg_price", .none)]) ∧
    (∀ ln, LastUpdate k.id updates ln → ln.Parsable ν →
      (∃ st, (ln.status, st) ∈ brokerStatuses ∧ read c!"status" = .ok (.str st.name)) ∧
      (∃ m, pyInt ln.filledQty = some m ∧ read c!"filled_amount" = .ok (.int m)) ∧
      (∃ m, pyInt ln.cancelQty = some m ∧ read c!"canceled_amount" = .ok (.int m)) ∧
      (∃ v w : ν, GateNum.parse ln.filledAmt = some w ∧ read c!"deal_balance" = .ok (.num v) ∧ SameNum v (GateNum.round 4 w)) ∧
      ∃ v w : ν, GateNum.parse ln.avgPrice = some w ∧ read c!"avg_price" = .ok (.num v) ∧ SameNum v (GateNum.round 3 w))

end Jq
