import Verif.Model.OrderSync
import Verif.Model.Account
import Verif.Model.Code
import Verif.Model.Retry
/-!
# Cash and positions from the broker's files

Models `trade_gate.py:305-372` (`sync_balance`, `_read_csv`).

`pd.read_csv` is modelled on text without quotes: lines, those without anything but blanks and tabs skipped, split at commas; missing
fields and the `NA` words are NaN (`none`); a line with more fields than the header is an error.  What `int()` and `float()` make of a
cell, given its column (pandas chooses the type of a column by all its cells), is left open (`CellNum`).  Simplified: if the first line
after the header has more fields than it, pandas takes the first ones as index, and then nearly always `df.loc` in `_read_csv` raises
`KeyError`; here the line is an error.
-/
namespace Jq

/-- `pd.read_csv`: the words for NaN. -/
def naWords : List Str :=
  [[], c!"#N/A", c!"#N/A N/A", c!"#NA", c!"-1.#IND", c!"-1.#QNAN", c!"-NaN", c!"-nan", c!"1.#IND", c!"1.#QNAN", c!"<NA>",
   c!"N/A", c!"NA", c!"NULL", c!"NaN", c!"None", c!"n/a", c!"nan", c!"null"]

/-- A cell: `none` is NaN. -/
def cellOf (s : Str) : Option Str := if s ∈ naWords then none else some s

/-- A table. -/
structure Csv where
  header : List Str
  rows : List (List (Option Str))
deriving DecidableEq, Repr

/-- The fields of a line, filled up with NaN to the number of columns. -/
def rowOf (cols : Nat) (line : Str) : Py (List (Option Str)) :=
  let cells := (splitOn ',' line).map cellOf
  if cells.length ≤ cols then .ok (cells ++ List.replicate (cols - cells.length) none) else .error .parserError

/-- The rows, up to the first error. -/
def rowsOf (cols : Nat) : List Str → Py (List (List (Option Str)))
  | [] => .ok []
  | l :: ls =>
    match rowOf cols l with
    | .error e => .error e
    | .ok r =>
      match rowsOf cols ls with
      | .error e => .error e
      | .ok rs => .ok (r :: rs)

/-- A line that `pd.read_csv` skips. -/
def blankLine (l : Str) : Bool := l.all fun c => decide (c = ' ' ∨ c = '\t')

/-- `pd.read_csv`. -/
def parseCsv (text : Str) : Py Csv :=
  match ((rawLines text).map (·.1)).filter (fun l => !blankLine l) with
  | [] => .error .valueError
  | h :: ls =>
    match rowsOf (splitOn ',' h).length ls with
    | .error e => .error e
    | .ok rows => .ok ⟨splitOn ',' h, rows⟩

/-- `trade_gate.py:363-371` `_read_csv`: the last row must be empty; `df.loc[-1]` of an empty table is a `KeyError`. -/
def readCsv (file : Option Str) : Py Csv :=
  match file with
  | none => .error .fileNotFound
  | some text =>
    match parseCsv text with
    | .error e => .error e
    | .ok t =>
      match t.rows.getLast? with
      | none => .error .keyError
      | some r => if r.all (·.isNone) then .ok t else .error .osError

/-- What conversions make of a cell of a column. -/
class CellNum (ν : Type) extends GateNum ν where
  /-- `float(cell)`; `none`: it raises -/
  num : List (Option Str) → Option Str → Option ν
  /-- `int(cell)`; `none`: it raises -/
  int : List (Option Str) → Option Str → Option Int

/-- `row.name`: `AttributeError` if there is no such column. -/
def Csv.col (t : Csv) (row : List (Option Str)) (name : Str) : Py (Option Str) :=
  match t.header.findIdx? (fun h => decide (h = name)) with
  | none => .error .attributeError
  | some i => .ok (row.getD i none)

/-- The column of that name. -/
def Csv.column (t : Csv) (name : Str) : List (Option Str) :=
  match t.header.findIdx? (fun h => decide (h = name)) with
  | none => []
  | some i => t.rows.map fun r => r.getD i none

variable {ν : Type} [CellNum ν]

/-- `float(row.name)`. -/
def Csv.num (t : Csv) (row : List (Option Str)) (name : Str) : Py ν :=
  match t.col row name with
  | .error e => .error e
  | .ok c => orValueError (CellNum.num (t.column name) c)

/-- `int(row.name)`. -/
def Csv.int (ν : Type) [CellNum ν] (t : Csv) (row : List (Option Str)) (name : Str) : Py Int :=
  match t.col row name with
  | .error e => .error e
  | .ok c => orValueError (CellNum.int ν (t.column name) c)

/-- `trade_gate.py:323-327` the cash of a row. -/
def cashOfRow (t : Csv) (row : List (Option Str)) : Py (CashInfo ν) := do
  let total : ν ← t.num row c!"totalAsset"
  let enabled : ν ← t.num row c!"enabledBalance"
  let current : ν ← t.num row c!"currentBalance"
  let enabled' : ν ← t.num row c!"enabledBalance"
  return ⟨some (GateNum.round 4 total), some (GateNum.round 4 enabled), some (GateNum.round 4 (GateNum.sub current enabled'))⟩

/-- `trade_gate.py:316-327` the loop over the asset rows. -/
def cashLoop (acct : Str) (t : Csv) : List (List (Option Str)) → Option (CashInfo ν) → Py (Option (CashInfo ν))
  | [], c => .ok c
  | row :: rows, c => do
    let a ← t.col row c!"acct"
    if a ≠ some acct then cashLoop acct t rows c
    else do
      let ex ← t.col row c!"exchange"
      if ex ≠ none then cashLoop acct t rows c
      else do
        let c' ← cashOfRow t row
        cashLoop acct t rows (some c')

/-- `trade_gate.py:346-355` the position of a row. -/
def posOfRow (t : Csv) (row : List (Option Str)) (symbol : Str) : Py (PosInfo ν) := do
  let code ← decodeSecurity symbol
  let amount ← t.int ν row c!"currentQty"
  let avail ← t.int ν row c!"enabledQty"
  let cost : ν ← t.num row c!"costPrice"
  let last : ν ← t.num row c!"lastPrice"
  let value : ν ← t.num row c!"mktValue"
  return { side := some Side.long.name, code := some code, amount := some amount, avail := some avail
           avgCost := some (GateNum.round 3 cost), lastPrice := some (GateNum.round 3 last)
           value := some (GateNum.round 4 value) }

/-- `trade_gate.py:334-355` the loop over the position rows. -/
def posLoop (acct : Str) (t : Csv) : List (List (Option Str)) → Py (List (PosInfo ν))
  | [] => .ok []
  | row :: rows => do
    let a ← t.col row c!"acct"
    if a ≠ some acct then posLoop acct t rows
    else do
      let sym ← t.col row c!"symbol"
      match sym with
      | none => .ok []
      | some symbol => do
        let qty ← t.int ν row c!"currentQty"
        if qty = 0 then posLoop acct t rows
        else do
          let p ← posOfRow t row symbol
          let ps ← posLoop acct t rows
          return p :: ps

/-- `trade_gate.py:359-362` `check_file_exists`: it is not repeated. -/
def checkThere (there : Bool) : Py Unit := if there then .ok () else .error .fileNotFound

/-- `trade_gate.py:304-357` `sync_balance`; of both files: what `check_file_exists` finds, and the result of the `_read_csv` call (retries
included); `none` as account: not configured.  The asset table is not empty, as `_read_csv` returned. -/
def balanceOf (acct : Option Str) (assets positions : Bool × Py Csv) : Py (BalInfo ν) := do
  checkThere assets.1
  let acct ← (match acct with
    | none => .error .invalidParam
    | some a => if a = [] then .error .invalidParam else .ok a)
  let t ← assets.2
  let cash ← cashLoop acct t t.rows none
  checkThere positions.1
  let p ← positions.2
  let ps ← posLoop acct p p.rows
  return ⟨cash, some ps⟩

/-- Whole numbers, for the examples. -/
instance : CellNum Int where
  num _ c := c.bind pyInt
  int _ c := c.bind pyInt

end Jq
