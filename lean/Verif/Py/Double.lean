import Verif.Py.Str
/-!
# Python's `float`

Doubles of IEEE 754 and what the repository does with them: `float(text)`, `repr` (also `str`), `round(x, n)`, `-`, `==`, `bool`.

A finite double is a whole number of units of 2^-1074, with a sign.  `float(text)` is the double nearest to the decimal number (ties to
even), `repr` the shortest decimal number that is read back, of two the nearer one (`Python/dtoa.c`, `Objects/floatobject.c`).  ASCII
digits only.  The payload of a `nan` is left out.
-/
namespace Jq

/-- Units in 1. -/
@[irreducible] def unit1 : Nat := 2 ^ 1074

/-- The whole number of units nearest to `p / q` that has 53 significant bits; ties to even. -/
@[irreducible] def nearest (p q : Nat) : Nat :=
  let k := (p / q).log2 - 52
  let d := q * 2 ^ k
  let m := p / d
  let r := p % d
  (if 2 * r < d then m else if d < 2 * r then m + 1 else m + m % 2) * 2 ^ k

/-- 2^1024 in units. -/
@[irreducible] def tooLarge : Nat := 2 ^ 2098

/-- 53 significant bits, and below 2^1024. -/
def isDouble (n : Nat) : Bool := n % 2 ^ (n.log2 - 52) = 0 && n < tooLarge

/-- A double. -/
inductive Dbl where
  | nan
  | inf (neg : Bool)
  | fin (neg : Bool) (n : Nat) (ok : isDouble n = true)
deriving DecidableEq, Repr

/-- The double with that sign and number of units; too large: infinite. -/
def Dbl.mk (neg : Bool) (n : Nat) : Dbl := if h : isDouble n = true then .fin neg n h else .inf neg

/-- The double nearest to `p / q`. -/
def Dbl.ofRatio (neg : Bool) (p q : Nat) : Dbl := .mk neg (nearest (p * unit1) q)

/-- The double nearest to `d * 10 ^ e`. -/
def Dbl.ofDec (neg : Bool) (d : Nat) (e : Int) : Dbl :=
  if 0 ≤ e then .ofRatio neg (d * 10 ^ e.toNat) 1 else .ofRatio neg d (10 ^ (-e).toNat)

/-- A sign at the beginning: whether it is a minus, and the rest. -/
def cutSign : Str → Bool × Str
  | '-' :: b => (true, b)
  | '+' :: b => (false, b)
  | b => (false, b)

/-- `[eE][+-]?digits`; no exponent is 0. -/
def expPart : Str → Option Int
  | [] => some 0
  | c :: s =>
    if c = 'e' ∨ c = 'E' then
      let ds := (cutSign s).2
      if ds ≠ [] ∧ ds.all isDig then some (if (cutSign s).1 then - (natOfDigits ds : Int) else natOfDigits ds) else none
    else none

/-- A number without a sign: digits, perhaps with a point, and perhaps an exponent. -/
def decParts (s : Str) : Option (Nat × Int) :=
  let ip := s.takeWhile isDig
  let r := s.dropWhile isDig
  let fp := if r.head? = some '.' then (r.drop 1).takeWhile isDig else []
  let ex := if r.head? = some '.' then (r.drop 1).dropWhile isDig else r
  if ip ++ fp = [] then none
  else (expPart ex).map fun e => (natOfDigits (ip ++ fp), e - fp.length)

/-- `float()` of a text without underscores and white space around it. -/
def floatBody (s : Str) : Option Dbl :=
  let neg := (cutSign s).1
  let b := (cutSign s).2
  let low := b.map Char.toLower
  if low = c!"inf" ∨ low = c!"infinity" then some (.inf neg)
  else if low = c!"nan" then some .nan
  else (decParts b).map fun x => .ofDec neg x.1 x.2

/-- Underscores are allowed between digits; without them. -/
def dropUnderscores (prev : Option Char) : Str → Option Str
  | [] => if prev = some '_' then none else some []
  | c :: s =>
    if c = '_' then
      if prev.any isDig then dropUnderscores (some c) s else none
    else if prev = some '_' ∧ !isDig c then none
    else (dropUnderscores (some c) s).map (c :: ·)

/-- `float(s)`; `none`: `ValueError`. -/
def pyFloat (s : Str) : Option Dbl := (dropUnderscores none (stripBy isIntSpace s)).bind floatBody

/-- Powers of ten from 10^-1074 on: `10 ^ j` stands for `10 ^ (j - 1074)`. -/
@[irreducible] def tens : Nat := 10 ^ 1074

/-- The number of units that the multiple `c` of `10 ^ j / t` is read as, `u` units being 1. -/
def readTen (u t c j : Nat) : Nat := nearest (c * 10 ^ j * u) t

/-- Of `f` and `f + 1` the one that will do; if both, the nearer one to `f + r / d`; of two equally near the even one. -/
def pick (low up : Bool) (f r d : Nat) : Option Nat :=
  if low && up then some (if 2 * r < d then f else if d < 2 * r then f + 1 else f + f % 2)
  else if low then some f
  else if up then some (f + 1)
  else none

/-- The multiple of `10 ^ j / t` that is next to `n` units and read as these. -/
@[irreducible] def candidate (u t n j : Nat) : Option Nat :=
  let d := 10 ^ j * u
  let f := n * t / d
  pick (readTen u t f j == n) (readTen u t (f + 1) j == n) f (n * t % d) d

/-- The shortest decimal: the greatest power of ten that has such a multiple. -/
def shortest (u t n : Nat) : Nat → Nat × Nat
  | 0 => (n * t / u, 0)
  | j + 1 =>
    match candidate u t n (j + 1) with
    | some c => (c, j + 1)
    | none => shortest u t n j

/-- 10^308, the greatest power of ten that is a double. -/
@[irreducible] def topTen : Nat := 1382

/-- Without the zeros at the end. -/
def dropZeros (s : Str) : Str := (s.reverse.dropWhile (· = '0')).reverse

/-- The digits `0.ds * 10 ^ pt` as `repr` writes them. -/
def reprDigits (ds : Str) (pt : Int) : Str :=
  if -4 < pt ∧ pt ≤ 16 then
    if pt ≤ 0 then c!"0." ++ List.replicate (-pt).toNat '0' ++ ds
    else if ds.length ≤ pt.toNat then ds ++ List.replicate (pt.toNat - ds.length) '0' ++ c!".0"
    else ds.take pt.toNat ++ '.' :: ds.drop pt.toNat
  else
    let e := pt - 1
    let es := natStr e.natAbs
    ds.take 1 ++ (if ds.length ≤ 1 then [] else '.' :: ds.drop 1) ++ 'e' :: (if e < 0 then '-' else '+') ::
      (if es.length < 2 then '0' :: es else es)

/-- `repr` of a number of units. -/
def reprUnits (n : Nat) : Str :=
  if n = 0 then c!"0.0"
  else
    let (c, j) := shortest unit1 tens n topTen
    let ds := natStr c
    reprDigits (dropZeros ds) (ds.length + j - 1074)

/-- `repr(x)`, `str(x)`. -/
def Dbl.repr : Dbl → Str
  | .nan => c!"nan"
  | .inf neg => if neg then c!"-inf" else c!"inf"
  | .fin neg n _ => (if neg then c!"-" else []) ++ reprUnits n

/-- The whole number nearest to `p / q`; ties to even. -/
def halfEven (p q : Nat) : Nat :=
  let m := p / q
  let r := p % q
  if 2 * r < q then m else if q < 2 * r then m + 1 else m + m % 2

/-- `round(x, n)`. -/
def Dbl.round (n : Nat) : Dbl → Dbl
  | .fin neg u _ => .ofRatio neg (halfEven (u * 10 ^ n) unit1) (10 ^ n)
  | x => x

/-- The number of units with its sign. -/
def signedUnits (neg : Bool) (n : Nat) : Int := if neg then - (n : Int) else n

/-- `a - b`. -/
def Dbl.sub : Dbl → Dbl → Dbl
  | .nan, _ => .nan
  | _, .nan => .nan
  | .inf a, .inf b => if a = b then .nan else .inf a
  | .inf a, _ => .inf a
  | _, .inf b => .inf (!b)
  | .fin a m _, .fin b n _ =>
    let d := signedUnits a m - signedUnits b n
    if d = 0 then .mk (a && !b) 0 else .mk (decide (d < 0)) (nearest d.natAbs 1)

/-- `a == b`. -/
def Dbl.eqv : Dbl → Dbl → Bool
  | .inf a, .inf b => a = b
  | .fin a m _, .fin b n _ => signedUnits a m = signedUnits b n
  | _, _ => false

/-- `bool(x)`. -/
def Dbl.truthy : Dbl → Bool
  | .fin _ n _ => n ≠ 0
  | _ => true

end Jq
