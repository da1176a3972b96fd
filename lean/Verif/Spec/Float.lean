import Verif.Spec.Times
/-!
# What a floating-point number text stands for, and which double it should be

Only the grammar and exact arithmetic; no reader, no rounding function.
-/
namespace Jq

/-- Digits or nothing. -/
def DigitsOnly (s : Str) : Prop := ∀ c ∈ s, '0' ≤ c ∧ c ≤ '9'

/-- The exponent: nothing, or `e`, perhaps a sign, and digits. -/
def ExpOf (s : Str) (e : Int) : Prop :=
  (s = [] ∧ e = 0) ∨
  ∃ x sign ds n, s = x :: (sign ++ ds) ∧ (x = 'e' ∨ x = 'E') ∧ Num ds n ∧
    ((sign = ['-'] ∧ e = - (n : Int)) ∨ ((sign = [] ∨ sign = ['+']) ∧ e = n))

/-- The text of the number `d * 10 ^ e`: digits, perhaps a point among, before or after them, perhaps an exponent. -/
def DecText (s : Str) (d : Nat) (e : Int) : Prop :=
  ∃ whole frac point exp e0, s = whole ++ (point ++ exp) ∧ DigitsOnly whole ∧ DigitsOnly frac ∧
    (point = '.' :: frac ∨ (point = [] ∧ frac = [])) ∧ ExpOf exp e0 ∧ Num (whole ++ frac) d ∧ e = e0 - frac.length

/-- `d * 10 ^ e` and `d' * 10 ^ e'` are the same number. -/
def SameNumber (d : Nat) (e : Int) (d' : Nat) (e' : Int) : Prop := d * 10 ^ (e - e').toNat = d' * 10 ^ (e' - e).toNat

/-- A sign or none before a text. -/
def SignOf (s : Str) (neg : Bool) (b : Str) : Prop := (s = '-' :: b ∧ neg = true) ∨ ((s = b ∨ s = '+' :: b) ∧ neg = false)

/-- A whole number with at most 53 significant bits. -/
def Bits53 (n : Nat) : Prop := ∃ a k, a < 2 ^ 53 ∧ n = a * 2 ^ k

/-- How far `n` is from `p / q` (in parts of `1 / q`). -/
def gap (p q n : Nat) : Nat := ((p : Int) - n * q).natAbs

/-- `n` is the number of 53 bits nearest to `p / q`; of two equally near ones the one divisible by the greater power of two. -/
def IsNearest (p q n : Nat) : Prop :=
  Bits53 n ∧ ∀ m, Bits53 m → m ≠ n → gap p q n < gap p q m ∨ (gap p q n = gap p q m ∧ ∃ k, 2 ^ k ∣ n ∧ ¬ 2 ^ k ∣ m)

/-- Of the sign of a difference only that of 0 may depend on the last bits. -/
def DiffSign (x y : Nat) (neg : Bool) : Prop := (x < y → neg = true) ∧ (y < x → neg = false)

/-- The text of the number `k / 10 ^ m`, with a sign. -/
def PlaceText (s : Str) (neg : Bool) (k m : Nat) : Prop := ∃ b d e, SignOf s neg b ∧ DecText b d e ∧ SameNumber d e k (-m)

/-- `b` is `t` without its underscores, and each of these stands between two digits. -/
def Ungrouped (t b : Str) : Prop :=
  b = t.filter (· ≠ '_') ∧ ∀ x y, t = x ++ '_' :: y → (∃ c ∈ x.getLast?, '0' ≤ c ∧ c ≤ '9') ∧ (∃ c ∈ y.head?, '0' ≤ c ∧ c ≤ '9')

/-- The whole number `h` is nearest to `p / q`; of two equally near ones it is the even one. -/
def IsRounded (p q h : Nat) : Prop := ∀ m, m ≠ h → gap p q h < gap p q m ∨ (gap p q h = gap p q m ∧ h % 2 = 0)

end Jq
