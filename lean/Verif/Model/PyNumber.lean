import Verif.Model.Balance
import Verif.Model.Store
import Verif.Py.Double
/-!
# Prices and money as Python has them

A price or an amount of money is an `int` (`MarketOrderStyle(0)`, a price that the user wrote without a point, `Order` with
`deal_balance=0`: `order.py:131`, `146-168`) or a `float` (`trade_gate.py:325-327`, `350-354`, `488`, `490`, a price of the user).  These are the
operations that the classes `GateNum` and `JsonNum` leave open.  What pandas makes of a cell is still open: its reader of
floats (`precise_xstrtod`) may be one unit in the last place off.

Simplified: no `Decimal`, no `bool`, no subclasses of `float` with other texts.
-/
namespace Jq

/-- A number. -/
inductive PNum where
  | int (n : Int)
  | flt (x : Dbl)
deriving DecidableEq

/-- `float(n)` of an integer that is not too large. -/
def Dbl.ofInt (n : Int) : Dbl := .ofRatio (decide (n < 0)) n.natAbs 1

/-- As a `float`. -/
def PNum.toFloat : PNum → Dbl
  | .int n => .ofInt n
  | .flt x => x

/-- `a == b`; an `int` and a `float` are compared exactly. -/
def PNum.eqv : PNum → PNum → Bool
  | .int m, .int n => m = n
  | .flt x, .flt y => x.eqv y
  | .int m, .flt (.fin neg n _) => m * unit1 = signedUnits neg n
  | .flt (.fin neg n _), .int m => m * unit1 = signedUnits neg n
  | _, _ => false

/-- `bool(a)`. -/
def PNum.truthy : PNum → Bool
  | .int n => n ≠ 0
  | .flt x => x.truthy

/-- `str(a)`. -/
def PNum.str : PNum → Str
  | .int n => intStr n
  | .flt x => x.repr

/-- `round(a, n)`, `n` not negative. -/
def PNum.round (n : Nat) : PNum → PNum
  | .int m => .int m
  | .flt x => .flt (x.round n)

/-- `a - b`. -/
def PNum.sub : PNum → PNum → PNum
  | .int m, .int n => .int (m - n)
  | a, b => .flt (a.toFloat.sub b.toFloat)

instance : PyNum PNum := ⟨PNum.eqv, PNum.truthy, .int 0⟩

instance : GateNum PNum where
  str := PNum.str
  parse s := (pyFloat s).map .flt
  round := PNum.round
  sub := PNum.sub

/-- How `json` writes a number (`float.__repr__`, and names for what is not finite). -/
def PNum.json : PNum → Str
  | .flt .nan => c!"NaN"
  | .flt (.inf neg) => if neg then c!"-Infinity" else c!"Infinity"
  | .flt x => x.repr
  | .int n => intStr n

/-- How `json` reads it: a number without a point and an exponent is an `int`. -/
def PNum.ofJson (s : Str) : Option PNum :=
  if s = c!"NaN" then some (.flt .nan)
  else if s = c!"Infinity" then some (.flt (.inf false))
  else if s = c!"-Infinity" then some (.flt (.inf true))
  else if s.any (fun c => c = '.' || c = 'e' || c = 'E') then (pyFloat s).map .flt
  else (pyInt s).map .int

instance : JsonNum PNum where
  repr x := some x.json
  ofRepr := PNum.ofJson

/-- What pandas makes of a cell of a column, left open. -/
class PandasCells where
  num : List (Option Str) → Option Str → Option PNum
  int : List (Option Str) → Option Str → Option Int

instance [PandasCells] : CellNum PNum where
  num := PandasCells.num
  int := PandasCells.int

end Jq
