import Verif.Model.Order
import Verif.Py.Dict
/-!
# Reading the broker's order files

Models `trade_gate.py:392-491` (`sync_orders` without the save, `_update_order`, `_parse_status`).

A file is its characters; `tell()` is the number of characters consumed, which is only given back to `seek`
(for text files Python's values are opaque).  Lines end at `\n`, `\r` or `\r\n` (universal newlines).
Decoding errors are left out here; `Model/TextFile` has the bytes, and C82 says that this model is right for files that
can be decoded.
-/
namespace Jq

/-- What the trade gate does with prices and money, nothing being assumed of it. -/
class GateNum (ν : Type) extends PyNum ν where
  /-- `str(x)` -/
  str : ν → Str
  /-- `float(s)`; `none`: `ValueError` -/
  parse : Str → Option ν
  /-- `round(x, n)` -/
  round : Nat → ν → ν
  /-- `a - b` -/
  sub : ν → ν → ν

/-- Whole numbers, for the examples. -/
instance : GateNum Int where
  str x := if x < 0 then '-' :: natStr x.natAbs else natStr x.natAbs
  parse s := pyInt s
  round _ x := x
  sub a b := a - b

/-- The order book `_orders`: id ↦ dictionary. -/
abbrev Book (ν : Type) := Dict Str (OrderInfo ν)

/-- The rest of a file as lines: text without the line end, number of characters with it (`readline`, `tell`). -/
def rawLines : Str → List (Str × Nat)
  | [] => []
  | c :: s =>
    if c = '\n' then ([], 1) :: rawLines s
    else if c = '\r' then
      if s.head? = some '\n' then
        match rawLines s with
        | [] => []
        | (l, n) :: ls => (l, n + 1) :: ls
      else ([], 1) :: rawLines s
    else
      match rawLines s with
      | [] => [([c], 1)]
      | (l, n) :: ls => (c :: l, n + 1) :: ls

/-- `trade_gate.py:191-200` `STATUS_MAP` and `514-517` `_parse_status`. -/
def parseStatus (s : Str) : Py Status :=
  if s = c!"0" then .ok .opened
  else if s = c!"1" then .ok .filling
  else if s = c!"2" then .ok .filled
  else if s = c!"3" then .ok .partlyCanceled
  else if s = c!"4" then .ok .canceled
  else if s = c!"5" then .ok .rejected
  else if s = c!"7" then .ok .new
  else if s = c!"8" then .ok .canceling
  else .error .parserError

/-- `trade_gate.py:175-180` the fields of an update line that are used. -/
structure OrderLine where
  orderDate : Str
  orderTime : Str
  status : Str
  filledQty : Str
  avgPrice : Str
  filledAmt : Str
  cancelQty : Str
  orderNo : Str
  custBatchNo : Str
  text : Str
deriving DecidableEq, Repr

/-- `ORDER_LINE_CLS(*_items)`: exactly twenty fields, else `TypeError`. -/
def OrderLine.ofItems : List Str → Py OrderLine
  | [_, orderDate, orderTime, _, _, _, _, status, _, _, _, filledQty, avgPrice, filledAmt, cancelQty, orderNo, _,
      custBatchNo, text, _] =>
    .ok ⟨orderDate, orderTime, status, filledQty, avgPrice, filledAmt, cancelQty, orderNo, custBatchNo, text⟩
  | _ => .error .typeError

/-- The value of a conversion that raises `ValueError`. -/
def orValueError {α : Type} : Option α → Py α
  | some a => .ok a
  | none => .error .valueError

variable {ν : Type} [GateNum ν]

/-- `trade_gate.py:482-491` `_update_order`: field after field; what was set before an exception stays. -/
def updateOrder (o : OrderInfo ν) (l : OrderLine) : OrderInfo ν × Py Unit :=
  match parseStatus l.status with
  | .error e => (o, .error e)
  | .ok st =>
    match strptime mCompact (l.orderDate ++ l.orderTime) with
    | .error e => ({ o with status := some st.name }, .error e)
    | .ok d =>
      match pyInt l.filledQty with
      | none => ({ o with status := some st.name, entrustTime := some (.str d.full), confirmId := some l.orderNo }, .error .valueError)
      | some filled =>
        match GateNum.parse l.filledAmt with
        | none => ({ o with status := some st.name, entrustTime := some (.str d.full), confirmId := some l.orderNo
                            filled := some filled }, .error .valueError)
        | some amt =>
          match pyInt l.cancelQty with
          | none => ({ o with status := some st.name, entrustTime := some (.str d.full), confirmId := some l.orderNo
                              filled := some filled, dealBalance := some (GateNum.round 4 amt) }, .error .valueError)
          | some canceled =>
            match GateNum.parse l.avgPrice with
            | none => ({ o with status := some st.name, entrustTime := some (.str d.full), confirmId := some l.orderNo
                                filled := some filled, dealBalance := some (GateNum.round 4 amt)
                                canceled := some canceled }, .error .valueError)
            | some avg => ({ o with status := some st.name, entrustTime := some (.str d.full), confirmId := some l.orderNo
                                    filled := some filled, dealBalance := some (GateNum.round 4 amt)
                                    canceled := some canceled, avgCost := some (GateNum.round 3 avg)
                                    errMsg := some l.text }, .ok ())

/-- What a line is, for a file whose lines have `cols` columns. -/
inductive LineKind where
  /-- `break`: blank, or too few fields -/
  | stop
  /-- `startswith("updTime")` -/
  | header
  | fields (items : List Str)
deriving DecidableEq, Repr

/-- `trade_gate.py:403-413`, `444-454`: strip, test, split. -/
def lineKind (cols : Nat) (raw : Str) : LineKind :=
  let line := pyStrip raw
  if line = [] then .stop
  else if c!"updTime".isPrefixOf line then .header
  else
    let items := (splitOn ',' line).map pyStrip
    if items.length < cols then .stop else .fields items

/-- What processing the fields of a line does. -/
inductive LineRes (ν : Type) where
  /-- processed: the offset moves on -/
  | done (b : Book ν)
  /-- an unknown order: `continue`, the offset stays -/
  | unknown
  /-- an exception, with the changes made before it -/
  | failed (b : Book ν) (e : PyErr)
deriving DecidableEq

/-- `trade_gate.py:456-464` an update line. -/
def updateLine (b : Book ν) (items : List Str) : LineRes ν :=
  match OrderLine.ofItems items with
  | .error e => .failed b e
  | .ok l =>
    match dget b l.custBatchNo with
    | none => .unknown
    | some o =>
      match updateOrder o l with
      | (o', .ok ()) => .done (dset b l.custBatchNo o')
      | (o', .error e) => .failed (dset b l.custBatchNo o') e

/-- `trade_gate.py:415-430` a result line: a rejected order gets the status and the message; failed cancels are
only logged. -/
def resultLine (b : Book ν) (items : List Str) : LineRes ν :=
  match items with
  | [_, resultType, custBatchNo, status, _, errorMsg] =>
    if resultType = c!"1" ∧ status = c!"1" then
      match dget b custBatchNo with
      | some o => .done (dset b custBatchNo { o with status := some c!"rejected", errMsg := some errorMsg })
      | none => .done b
    else .done b
  | _ => .failed b .typeError

/-- How reading a file ends. -/
inductive PollEnd where
  | eof
  | stopped
  | raised (e : PyErr)
deriving DecidableEq, Repr

/-- `trade_gate.py:401-438`, `442-472` the loop over the lines.  `pos` is the position of the next line, `off` the
remembered offset. -/
def pollLoop (cols : Nat) (f : Book ν → List Str → LineRes ν) (ign : Bool) :
    List (Str × Nat) → Nat → Book ν → Nat → (Book ν × Nat) × PollEnd
  | [], _, b, off => ((b, off), .eof)
  | (raw, n) :: ls, pos, b, off =>
    match lineKind cols raw with
    | .stop => ((b, off), .stopped)
    | .header => pollLoop cols f ign ls (pos + n) b (pos + n)
    | .fields items =>
      match f b items with
      | .unknown => pollLoop cols f ign ls (pos + n) b off
      | .done b' => pollLoop cols f ign ls (pos + n) b' (pos + n)
      | .failed b' e => if ign then pollLoop cols f ign ls (pos + n) b' (pos + n) else ((b', off), .raised e)

/-- Reading a file from the remembered offset. -/
def pollFile (cols : Nat) (f : Book ν → List Str → LineRes ν) (ign : Bool) (content : Str) (b : Book ν) (off : Nat) :
    (Book ν × Nat) × PollEnd :=
  pollLoop cols f ign (rawLines (content.drop off)) off b off

/-- The update file: twenty columns (`trade_gate.py:440-472`). -/
def pollUpdates (ign : Bool) (content : Str) (b : Book ν) (off : Nat) : (Book ν × Nat) × PollEnd :=
  pollFile 20 updateLine ign content b off

/-- The result file: six columns (`trade_gate.py:399-438`). -/
def pollResults (ign : Bool) (content : Str) (b : Book ν) (off : Nat) : (Book ν × Nat) × PollEnd :=
  pollFile 6 resultLine ign content b off

/-- What the gate remembers about the broker's files. -/
structure SyncState (ν : Type) where
  book : Book ν
  resOff : Nat
  updOff : Nat
deriving DecidableEq

/-- `trade_gate.py:392-472` both files, results first; an exception from the first leaves the second unread. -/
def pollBoth (ign : Bool) (results updates : Str) (s : SyncState ν) : SyncState ν × Py Unit :=
  match pollResults ign results s.book s.resOff with
  | ((b, ro), .raised e) => ({ s with book := b, resOff := ro }, .error e)
  | ((b, ro), _) =>
    match pollUpdates ign updates b s.updOff with
    | ((b, uo), .raised e) => (⟨b, ro, uo⟩, .error e)
    | ((b, uo), _) => (⟨b, ro, uo⟩, .ok ())

end Jq
