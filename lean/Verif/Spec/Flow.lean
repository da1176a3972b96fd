import Verif.Model.Persist
import Verif.Spec.Account
import Verif.Spec.OrderSync
import Verif.Spec.TradeGate
/-! From the orders that were asked for and the broker's files to what the account shows, stated without the functions of the gate
and the account. -/
namespace Jq
variable {ν : Type} [CellNum ν] [Store ν]

/-- The broker during the day `D`: `R i` and `U i` are its result and update file at the `i`-th call of the gate.  It appends
whole lines of the right number of fields, with dates of this millennium; no order is both refused and updated.  Nobody else
touches the data files, and they are replaced by renaming. -/
structure Broker (D : Str) (env : Nat → Env) (R U : Nat → Option Str) : Prop where
  day : ∀ i, (env i).day = D
  results : ∀ i fs, (env i).ext fs (.results D) = R i
  updates : ∀ i fs, (env i).ext fs (.updates D) = U i
  data : ∀ i fs d, (env i).ext fs (.data d) = fs (.data d)
  renames : ∀ i, (env i).Renames
  growR : ∀ i, ∃ more, (R (i + 1)).getD [] = (R i).getD [] ++ more
  growU : ∀ i, ∃ more, (U (i + 1)).getD [] = (U i).getD [] ++ more
  wholeR : ∀ i, WholeLines ((R i).getD [])
  wholeU : ∀ i, WholeLines ((U i).getD [])
  goodR : ∀ i, ∀ l ∈ rawLines ((R i).getD []), lineKind 6 l.1 ≠ .stop
  goodU : ∀ i, ∀ l ∈ rawLines ((U i).getD []), lineKind 20 l.1 ≠ .stop
  times : ∀ i, ∀ l ∈ rawLines ((U i).getD []), ∀ items ln d, lineKind 20 l.1 = .fields items → OrderLine.ofItems items = .ok ln →
    strptime mCompact (ln.orderDate ++ ln.orderTime) = .ok d → 1000 ≤ d.year
  one : ∀ i id, ¬ (RejectedIn id ((R i).getD []) ∧ UpdatedIn id ((U i).getD []))

/-- What an operation asks for. -/
def AOp.asks : AOp ν → List (Ack ν)
  | .order idn now code n st _ => [⟨natStr idn, now, code, n, st⟩]
  | _ => []

/-- Operations and crashes with restarts, on a day with the broker's files `R`, `U`: together with the orders asked for.  The
broker has not yet reported on an id when it is drawn. -/
inductive FRun (R U : Nat → Option Str) (s : PState ν) : List (Ack ν) → PState ν → Prop
  | refl : FRun R U s [] s
  | step {asked : List (Ack ν)} {t u : PState ν} (op : AOp ν) : FRun R U s asked t → PStepBy op t u →
      (∀ k ∈ op.asks, k.now.ok ∧ ¬ RejectedIn k.id ((R t.acct.gate.n).getD []) ∧ ¬ UpdatedIn k.id ((U t.acct.gate.n).getD [])) →
      FRun R U s (asked ++ op.asks) u

/-- The order is the one that was asked for. -/
structure Order.AsAsked (o : Order ν) (k : Ack ν) : Prop where
  hId : o.orderId = k.id
  hCode : o.code = k.code
  hAmount : o.amount = if k.amount < 0 then - k.amount else k.amount
  hAction : o.action = if k.amount < 0 then .close else .opened
  hStyle : o.style = some k.style
  hPrice : o.price = k.style.price
  hCreated : o.createTime = some k.now

/-- The order shows what the update line says. -/
structure Order.ShowsLine (o : Order ν) (l : OrderLine) : Prop where
  hStatus : ∃ st, (l.status, st) ∈ brokerStatuses ∧ o.status = some st
  hConfirm : o.confirmId = some l.orderNo
  hFilled : pyInt l.filledQty = some o.filled
  hCanceled : pyInt l.cancelQty = some o.canceled
  hBalance : ∃ x : ν, GateNum.parse l.filledAmt = some x ∧ SameNum o.dealBalance (GateNum.round 4 x)
  hCost : ∃ x y : ν, GateNum.parse l.avgPrice = some x ∧ o.avgCost = some y ∧ SameNum y (GateNum.round 3 x)

/-- The line is the last update of the order in the file. -/
def LastUpdate (id : Str) (updates : Str) (ln : OrderLine) : Prop :=
  ∃ before l after items, rawLines updates = before ++ l :: after ∧ lineKind 20 l.1 = .fields items ∧
    OrderLine.ofItems items = .ok ln ∧ ln.custBatchNo = id ∧ ∀ x ∈ after, ¬ IsUpdateOf id x.1

/-- The order shows what the broker's files say about it: refused, or as the last update says (if that can be parsed), or new when
they do not name it. -/
structure Order.ShowsFiles (o : Order ν) (results updates : Str) : Prop where
  refused : RejectedIn o.orderId results → o.status = some .rejected
  updated : ∀ ln, LastUpdate o.orderId updates ln → ln.Parsable ν → o.ShowsLine ln
  untouched : ¬ RejectedIn o.orderId results → ¬ UpdatedIn o.orderId updates →
    o.status = some .new ∧ o.filled = 0 ∧ o.canceled = 0 ∧ o.confirmId = none ∧ o.avgCost = none

end Jq
