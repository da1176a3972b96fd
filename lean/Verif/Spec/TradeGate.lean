import Verif.Model.TradeGate
/-! What the broker should be told, stated without the functions of the trade gate. -/
namespace Jq
variable {ν : Type}

/-- The temporary file is renamed, or the data file stays as it was: `shutil.move` does not have to copy.  (On Windows it has to whenever
the data file exists; then nothing of this holds.) -/
def Env.Renames (env : Env) : Prop := ∀ e n, env.save ≠ .copy e n ∧ env.save ≠ .unlink e

/-- Price type, ticks, upper and lower limit. -/
inductive PriceColumns [GateNum ν] : Int → Style ν → List Str → Prop
  | marketBuy {n : Int} (p : ν) : 0 < n → PriceColumns n (.market p) [c!"P6", c!"0", c!"0", c!"0"]
  | marketSell {n : Int} (p : ν) : n < 0 → PriceColumns n (.market p) [c!"P7", c!"0", c!"0", c!"0"]
  | limit {n : Int} (p : ν) : PriceColumns n (.limit p) [c!"AT", c!"0", GateNum.str p, GateNum.str p]

/-- The record of an order written at time `t`: twelve columns. -/
structure OrderRecord [GateNum ν] (conf : AXConf) (t : DT) (id enc : Str) (n : Int) (st : Style ν) (items : List Str) : Prop where
  columns : items.length = 12
  time : items[0]? = some t.hmsf
  hId : items[1]? = some id
  counter : items[2]? = some conf.counter
  acct : items[3]? = conf.acctNo
  code : items[4]? = some enc
  side : (0 < n ∧ items[5]? = some c!"1") ∨ (n < 0 ∧ items[5]? = some c!"2")
  qty : ∃ k : Nat, (n = k ∨ n = -k) ∧ items[6]? = some (natStr k)
  algo : items[7]? = some conf.algo
  price : PriceColumns n st (items.drop 8)

/-- The account number or the account type does not allow any order. -/
def Unconfigured (c : AXConf) : Prop := c.acctNo = none ∨ c.acctNo = some [] ∨ c.acctType ≠ c!"STOCK"

/-- The columns of the order file. -/
def orderColumns : List Str :=
  [c!"updTime", c!"custBatchNo", c!"acctType", c!"acct", c!"symbol", c!"tradeSide", c!"targetQty", c!"algoId", c!"priceType",
   c!"ticks", c!"highLimitPrice", c!"lowLimitPrice"]

/-- The columns of the cancel file. -/
def cancelColumns : List Str := [c!"updTime", c!"custBatchNo"]

/-- The line end that a file gets: on Windows the text layer turns the `\n` of `os.linesep` into `\r\n` once more. -/
def lineEnd (win : Bool) : Str := if win then c!"\r\r\n" else c!"\n"

/-- Appending a record to a file: an empty file gets the header first. -/
def Appended (win : Bool) (columns items : List Str) (old : Option Str) (new : Option Str) : Prop :=
  ((old = none ∨ old = some []) ∧ new = some (joinWith c!"," columns ++ lineEnd win ++ (joinWith c!"," items ++ lineEnd win))) ∨
  (∃ text, old = some text ∧ text ≠ [] ∧ new = some (text ++ (joinWith c!"," items ++ lineEnd win)))

/-- The records of an order or cancel file: nothing, or header and records appended one after the other. -/
inductive RecordFile (win : Bool) (columns : List Str) : Option Str → List (List Str) → Prop
  | absent : RecordFile win columns none []
  | empty : RecordFile win columns (some []) []
  | record {old new recs items} : RecordFile win columns old recs → Appended win columns items old new →
      RecordFile win columns new (recs ++ [items])

/-- The text with the given lines. -/
def linesText (win : Bool) (lines : List (List Str)) : Str := lines.flatMap fun l => joinWith c!"," l ++ lineEnd win

/-- The ids that a sequence of operations asks to be ordered. -/
def requested : List (AOp ν) → List Str
  | [] => []
  | .order idn _ _ _ _ _ :: ops => natStr idn :: requested ops
  | _ :: ops => requested ops

/-- The ids that the user got back. -/
def acknowledged {γ : Type} [PyNum ν] (G : Gate γ ν) : Acct γ ν → List (AOp ν) → List Str
  | _, [] => []
  | a, op :: ops =>
    match (a.step G op).2 with
    | .ok (some id) => id :: acknowledged G (a.step G op).1 ops
    | _ => acknowledged G (a.step G op).1 ops

/-- Commas and line ends would change the fields of a record. -/
def PlainField (s : Str) : Prop := ',' ∉ s ∧ '\n' ∉ s ∧ '\r' ∉ s

end Jq
