import Verif.Model.OrderSync
/-! What the broker's files mean, stated without the reader. -/
namespace Jq
variable {ν : Type}

/-- The documented status codes of the broker. -/
def brokerStatuses : List (Str × Status) :=
  [(c!"0", .opened), (c!"1", .filling), (c!"2", .filled), (c!"3", .partlyCanceled), (c!"4", .canceled), (c!"5", .rejected),
   (c!"7", .new), (c!"8", .canceling)]

/-- The names of the statuses, as shown to strategies and stored. -/
def statusNames : List (Str × Status) :=
  [(c!"new", .new), (c!"open", .opened), (c!"filling", .filling), (c!"filled", .filled), (c!"canceling", .canceling),
   (c!"partly_canceled", .partlyCanceled), (c!"canceled", .canceled), (c!"rejected", .rejected)]

def sideNames : List (Str × Side) := [(c!"long", .long), (c!"short", .short)]

def actionNames : List (Str × Action) := [(c!"open", .opened), (c!"close", .close)]

/-- The order shows what the update line says. -/
structure OrderInfo.SaysLine [GateNum ν] (o : OrderInfo ν) (l : OrderLine) : Prop where
  hStatus : ∃ st, (l.status, st) ∈ brokerStatuses ∧ o.status = some st.name
  hTime : ∃ d, strptime mCompact (l.orderDate ++ l.orderTime) = .ok d ∧ o.entrustTime = some (.str d.full)
  hConfirm : o.confirmId = some l.orderNo
  hFilled : ∃ n, pyInt l.filledQty = some n ∧ o.filled = some n
  hBalance : ∃ x : ν, GateNum.parse l.filledAmt = some x ∧ o.dealBalance = some (GateNum.round 4 x)
  hCanceled : ∃ n, pyInt l.cancelQty = some n ∧ o.canceled = some n
  hCost : ∃ x : ν, GateNum.parse l.avgPrice = some x ∧ o.avgCost = some (GateNum.round 3 x)
  hText : o.errMsg = some l.text

/-- What an update never changes: what was asked for. -/
def SameRequest (o o' : OrderInfo ν) : Prop :=
  o'.code = o.code ∧ o'.price = o.price ∧ o'.amount = o.amount ∧ o'.action = o.action ∧ o'.orderId = o.orderId ∧
  o'.style = o.style ∧ o'.createTime = o.createTime ∧ o'.side = o.side ∧ o'.commission = o.commission

/-- The line can be parsed. -/
structure OrderLine.Parsable (ν : Type) [GateNum ν] (l : OrderLine) : Prop where
  status : ∃ st, (l.status, st) ∈ brokerStatuses
  time : ∃ d, strptime mCompact (l.orderDate ++ l.orderTime) = .ok d
  filled : ∃ n, pyInt l.filledQty = some n
  balance : ∃ x : ν, GateNum.parse l.filledAmt = some x
  canceled : ∃ n, pyInt l.cancelQty = some n
  cost : ∃ x : ν, GateNum.parse l.avgPrice = some x

/-- A field that can be written in a line: no separator, no line end, no blanks around it. -/
def CleanField (s : Str) : Prop := ',' ∉ s ∧ '\n' ∉ s ∧ '\r' ∉ s ∧ pyStrip s = s

/-- The line of a record. -/
def recordText (items : List Str) : Str := joinWith [','] items

/-- A record the broker may write: the right number of fields, each clean, and not the header. -/
def CleanRecord (cols : Nat) (items : List Str) : Prop :=
  items.length = cols ∧ (∀ s ∈ items, CleanField s) ∧ ∀ s ∈ items.head?, c!"updTime".isPrefixOf s = false

/-- A file of records, one per line. -/
def fileText (records : List (List Str)) : Str := records.flatMap fun r => recordText r ++ ['\n']

/-- A text that ends at a line end (or is empty). -/
def WholeLines (s : Str) : Prop := s = [] ∨ s.getLast? = some '\n'

/-- The line is an update of the order `id`. -/
def IsUpdateOf (id : Str) (raw : Str) : Prop :=
  ∃ items l, lineKind 20 raw = .fields items ∧ OrderLine.ofItems items = .ok l ∧ l.custBatchNo = id

/-- The file says that the broker refused the order. -/
def RejectedIn (id : Str) (results : Str) : Prop :=
  ∃ l ∈ rawLines results, ∃ t c m, lineKind 6 l.1 = .fields [t, c!"1", id, c!"1", c, m]

/-- The file has an update of the order. -/
def UpdatedIn (id : Str) (updates : Str) : Prop := ∃ l ∈ rawLines updates, IsUpdateOf id l.1

end Jq
