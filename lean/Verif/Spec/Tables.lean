import Verif.Model.Balance
/-! # What can be wrong with the rows of the broker's tables -/
namespace Jq

/-- What a row has in the first column of that name. -/
def Csv.Cell (t : Csv) (row : List (Option Str)) (name : Str) (c : Option Str) : Prop :=
  ∃ i : Nat, t.header[i]? = some name ∧ (∀ j, j < i → t.header[j]? ≠ some name) ∧ row.getD i none = c

variable (ν : Type) [CellNum ν]

/-- A number that cannot be had from a row: there is no such column, or the cell is none (a whole one if `whole`). -/
def BadField (t : Csv) (row : List (Option Str)) (field : Str × Bool) (e : PyErr) : Prop :=
  (field.1 ∉ t.header ∧ e = .attributeError) ∨
  ∃ c, t.Cell row field.1 c ∧ e = .valueError ∧
    if field.2 then CellNum.int ν (t.column field.1) c = none else (CellNum.num (t.column field.1) c : Option ν) = none

/-- The first of some numbers that cannot be had. -/
def FirstBad (t : Csv) (row : List (Option Str)) (fields : List (Str × Bool)) (e : PyErr) : Prop :=
  ∃ pre f post, fields = pre ++ f :: post ∧ (∀ g ∈ pre, ∀ e', ¬ BadField ν t row g e') ∧ BadField ν t row f e

/-- What is wrong with a row of the assets, for an account: the column of the accounts is missing; or it is a row of the account, and the
column of the exchanges is missing; or the row is not of an exchange, and a number cannot be had. -/
def WrongAssets (acct : Str) (t : Csv) (row : List (Option Str)) (e : PyErr) : Prop :=
  (c!"acct" ∉ t.header ∧ e = .attributeError) ∨
  t.Cell row c!"acct" (some acct) ∧
    ((c!"exchange" ∉ t.header ∧ e = .attributeError) ∨
     t.Cell row c!"exchange" none ∧ FirstBad ν t row [(c!"totalAsset", false), (c!"enabledBalance", false), (c!"currentBalance", false)] e)

/-- A row of the account without a symbol is the last one that is looked at. -/
def EndsPositions (acct : Str) (t : Csv) (row : List (Option Str)) : Prop :=
  t.Cell row c!"acct" (some acct) ∧ t.Cell row c!"symbol" none

/-- What is wrong with a row of the positions, for an account: a column is missing; or the amount cannot be had; or it is not zero, and the
code is of no known exchange or another number cannot be had. -/
def WrongPosition (acct : Str) (t : Csv) (row : List (Option Str)) (e : PyErr) : Prop :=
  (c!"acct" ∉ t.header ∧ e = .attributeError) ∨
  t.Cell row c!"acct" (some acct) ∧
    ((c!"symbol" ∉ t.header ∧ e = .attributeError) ∨
     ∃ sym, t.Cell row c!"symbol" (some sym) ∧
      (BadField ν t row (c!"currentQty", true) e ∨
       (∃ c n, t.Cell row c!"currentQty" c ∧ CellNum.int ν (t.column c!"currentQty") c = some n ∧ n ≠ 0) ∧
        (((∀ p : Str, sym ≠ p ++ c!"SZ" ∧ sym ≠ p ++ c!"SH") ∧ e = .valueError) ∨
         (∃ p : Str, sym = p ++ c!"SZ" ∨ sym = p ++ c!"SH") ∧
          FirstBad ν t row [(c!"enabledQty", true), (c!"costPrice", false), (c!"lastPrice", false), (c!"mktValue", false)] e)))

/-- The first row that is wrong, none of the rows before it being the last that is looked at. -/
def FirstWrongRow (ends : List (Option Str) → Prop) (wrong : List (Option Str) → PyErr → Prop) (rows : List (List (Option Str))) (e : PyErr) : Prop :=
  ∃ pre row post, rows = pre ++ row :: post ∧ (∀ r ∈ pre, ¬ ends r ∧ ∀ e', ¬ wrong r e') ∧ wrong row e

/-- A file is read up to `n` times: the result is that of the first reading that works, or of the last one. -/
def ReadsUpTo {α : Type} (n : Nat) (reading : Nat → Py α) (r : Py α) : Prop :=
  ∃ j, j < n ∧ r = reading j ∧ (∀ i, i < j → ∃ e, reading i = .error e) ∧ ((∃ a, reading j = .ok a) ∨ j + 1 = n)

end Jq
