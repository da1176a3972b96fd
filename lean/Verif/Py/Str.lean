/-!
# Python strings

Strings are lists of characters; `c!"…"` is a literal (kernel-reducible).  Only the operations the code
uses are defined.
-/
namespace Jq

abbrev Str := List Char

open Lean in
/-- Literal: `c!"ab"` is `['a', 'b']`. -/
macro:max "c!" s:str : term => do
  let cs := s.getString.toList.map fun c => Syntax.mkCharLit c
  `(([$(cs.toArray),*] : List Char))

/-- Python exceptions that the code raises or lets through. -/
inductive PyErr where
  | valueError
  | keyError
  | typeError
  | indexError
  | attributeError
  | invalidParam
  | invalidCall
  | taskError
  | configError
  | internalError
  | timeOut
  | fileNotFound
  | runtimeError
  | assertionError
  | zeroDivision
  | osError
  | parserError
  | dmaError
  | noSuchProcess
  | accessDenied
  | importError
deriving Repr, DecidableEq

abbrev Py (α : Type) := Except PyErr α

instance {ε α : Type} [DecidableEq ε] [DecidableEq α] : DecidableEq (Except ε α)
  | .ok a, .ok b => if h : a = b then isTrue (h ▸ rfl) else isFalse (fun e => h (Except.ok.inj e))
  | .error a, .error b => if h : a = b then isTrue (h ▸ rfl) else isFalse (fun e => h (Except.error.inj e))
  | .ok _, .error _ => isFalse (fun e => nomatch e)
  | .error _, .ok _ => isFalse (fun e => nomatch e)

/-- `sub in s`. -/
def hasSub (sub : Str) : Str → Bool
  | [] => sub = []
  | c :: s => sub.isPrefixOf (c :: s) || hasSub sub s

/-- `str.split(sep)` with a one-character separator: always at least one part. -/
def splitOn (sep : Char) : Str → List Str
  | [] => [[]]
  | c :: cs =>
    if c = sep then [] :: splitOn sep cs
    else
      match splitOn sep cs with
      | [] => [[c]]
      | p :: ps => (c :: p) :: ps

/-- `sep.join(parts)`. -/
def joinWith (sep : Str) : List Str → Str
  | [] => []
  | [p] => p
  | p :: ps => p ++ sep ++ joinWith sep ps

/-- ASCII decimal digit. -/
def isDig (c : Char) : Bool := '0' ≤ c && c ≤ '9'

/-- Value of an ASCII digit. -/
def digVal (c : Char) : Nat := c.toNat - '0'.toNat

/-- `str.isspace()` of a character: what `str.strip()` removes and `\s` matches. -/
def isSpace (c : Char) : Bool :=
  let n := c.toNat
  (9 ≤ n && n ≤ 13) || (0x1c ≤ n && n ≤ 0x20) || n = 0x85 || n = 0xa0 || n = 0x1680 || (0x2000 ≤ n && n ≤ 0x200a) ||
  n = 0x2028 || n = 0x2029 || n = 0x202f || n = 0x205f || n = 0x3000

/-- What `int()` accepts around a number: `isSpace` without the four separators of ASCII. -/
def isIntSpace (c : Char) : Bool := isSpace c && !(0x1c ≤ c.toNat && c.toNat ≤ 0x1f)

/-- `str.lstrip()` by a predicate. -/
def lstripBy (p : Char → Bool) : Str → Str := List.dropWhile p

/-- `str.rstrip()` by a predicate. -/
def rstripBy (p : Char → Bool) (s : Str) : Str := (lstripBy p s.reverse).reverse

/-- Both. -/
def stripBy (p : Char → Bool) (s : Str) : Str := rstripBy p (lstripBy p s)

/-- `str.strip()`. -/
def pyStrip (s : Str) : Str := rstripBy isSpace (lstripBy isSpace s)

/-- Value of a string of digits, most significant first. -/
def natOfDigits (ds : Str) : Nat := ds.foldl (fun n c => 10 * n + digVal c) 0

/-- Digits with single underscores between digits, as `int()` accepts; returns the digits.
`prev` says whether the previous character was a digit. -/
def digitsUnderscore (prev : Bool) : Str → Option Str
  | [] => if prev then some [] else none
  | c :: cs =>
    if isDig c then (digitsUnderscore true cs).map (c :: ·)
    else if c = '_' && prev then digitsUnderscore false cs
    else none

/-- `int(s)` on a string: surrounding white space, optional sign, digits with underscores.
(ASCII digits only; `int()` also accepts other Unicode decimal digits, and refuses more than 4300 digits.)  `none` is
`ValueError`. -/
def pyInt (s : Str) : Option Int :=
  match stripBy isIntSpace s with
  | '-' :: ds => (digitsUnderscore false ds).map fun d => - (natOfDigits d : Int)
  | '+' :: ds => (digitsUnderscore false ds).map fun d => (natOfDigits d : Int)
  | ds => (digitsUnderscore false ds).map fun d => (natOfDigits d : Int)

/-- Decimal digit character. -/
def digChar (n : Nat) : Char := Char.ofNat ('0'.toNat + n)

/-- `str(n)` for a natural number. -/
def natStr (n : Nat) : Str := go (n + 1) n
where
  /-- Structural in the fuel, so that it computes; `n + 1` is always enough. -/
  go : Nat → Nat → Str
    | 0, _ => []
    | f + 1, n => if n < 10 then [digChar n] else go f (n / 10) ++ [digChar (n % 10)]

/-- Two-digit field as printed by `strftime` (`%H`, `%M`, `%S`, `%m`, `%d`). -/
def two (n : Nat) : Str := [digChar (n / 10), digChar (n % 10)]

end Jq
