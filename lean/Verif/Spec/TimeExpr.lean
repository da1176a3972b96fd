import Verif.Model.TimeExpr
/-! Specification vocabulary for time expressions (C09, C10). -/
namespace Jq

/-- A count with its unit, e.g. `30m`. -/
structure Chunk where
  digits : Str
  unit : Char
deriving DecidableEq

/-- One or two digits and one of the units h, m, s. -/
def Chunk.Valid (c : Chunk) : Prop :=
  (c.digits.length = 1 ∨ c.digits.length = 2) ∧ (∀ d ∈ c.digits, isDig d = true) ∧
  (c.unit = 'h' ∨ c.unit = 'm' ∨ c.unit = 's')

/-- The text of a list of chunks. -/
def renderChunks (cs : List Chunk) : Str := cs.flatMap fun c => c.digits ++ [c.unit]

/-- Seconds in a unit. -/
def unitSeconds (u : Char) : Int := if u = 'h' then 3600 else if u = 'm' then 60 else 1

/-- The sum of the stated offsets, in seconds. -/
def totalSeconds (cs : List Chunk) : Int :=
  (cs.map fun c => (natOfDigits c.digits : Int) * unitSeconds c.unit).sum

/-- Of several offsets with one unit, the last one. -/
def lastOfUnit : List Chunk → List Chunk
  | [] => []
  | c :: cs => if c.unit ∈ cs.map (·.unit) then lastOfUnit cs else c :: lastOfUnit cs

/-- The market base of an expression: its name and time of day. -/
inductive IsBase (mp : Periods) : Str → Int → Prop
  | op {first rest} : mp = first :: rest → IsBase mp c!"open" first.1
  | cl {init last} : mp = init ++ [last] → IsBase mp c!"close" last.2

end Jq
