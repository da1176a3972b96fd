import Verif.Model.TradeGate
/-!
# What the synchronisation of orders writes to the log

Models the `logger.info` calls of `trade_gate.py:416-422` and `account.py:238-243`.  A refused cancellation is told to nobody except
through the first; the second tells that an order was found that the account did not know.  Both depend on whether a synchronisation
was completed before.  The lines of the log are modelled by what is put into them.
-/
namespace Jq

/-- `trade_gate.py:415-422` what is logged about a line with these fields: the id and the broker's message. -/
def cancelNotice : List Str → Option (Str × Str)
  | [_, resultType, custBatchNo, status, _, errorMsg] => if resultType = c!"2" ∧ status = c!"1" then some (custBatchNo, errorMsg) else none
  | _ => none

/-- `trade_gate.py:401-438` the loop over the result file again, with what it logs about cancellations: six fields are processed, any
other number (above six) raises `TypeError` in line 415. -/
def resultLog (synced ign : Bool) : List (Str × Nat) → List (Str × Str)
  | [] => []
  | (raw, _) :: ls =>
    match lineKind 6 raw with
    | .stop => []
    | .header => resultLog synced ign ls
    | .fields items =>
      if items.length = 6 then (if synced then (cancelNotice items).toList else []) ++ resultLog synced ign ls
      else if ign then resultLog synced ign ls
      else []

section
variable {ν : Type} [CellNum ν] [Store ν]

/-- `trade_gate.py:392-438` what `sync_orders` of the gate logs about cancellations. -/
def AX.syncLog (env : Env) (s : AX ν) : List (Str × Str) :=
  match s.files (.updates env.day), s.files (.results env.day) with
  | some _, some results => resultLog s.synced s.conf.ignoreErr (rawLines (results.drop s.resOff))
  | _, _ => []

/-- What an operation of the account makes the gate log about cancellations. -/
def Acct.cancelLog (a : Acct (AXG ν) ν) : AOp ν → List (Str × Str)
  | .syncOrders => a.gate.ready.syncLog a.gate.cur
  | _ => []

/-- The same for some operations. -/
def Acct.cancelLogs (a : Acct (AXG ν) ν) : List (AOp ν) → List (Str × Str)
  | [] => []
  | op :: ops => a.cancelLog op ++ (a.step (axGate ν) op).1.cancelLogs ops

end

variable {γ ν : Type} [PyNum ν]

/-- `account.py:234-250` the loop over the reported orders, with what it logs about orders that are not there: the id, and whether
this is not the first synchronisation. -/
def Acct.mergeLog : List (OrderInfo ν) → Acct γ ν → List (Str × Bool)
  | [], _ => []
  | i :: is, a =>
    match i.orderId, Order.load i with
    | some id, .ok _ => (if (a.find id).isNone then [(id, a.synced)] else []) ++ Acct.mergeLog is (a.mergeOrder i).1
    | _, _ => []

/-- `account.py:229-254` what `sync_orders` of the account logs about orders that are not there. -/
def Acct.newOrderLog (G : Gate γ ν) (a : Acct γ ν) : List (Str × Bool) :=
  match G.orders a.gate with
  | (_, .error _) => []
  | (g, .ok infos) => ({ a with gate := g } : Acct γ ν).mergeLog infos

end Jq
