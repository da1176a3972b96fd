/-!
# Python floats as far as times need them

The value of an operation on floats is the exact value rounded to the nearest number with 53 binary digits, to the even one of two
equally near (IEEE 754).  Only numbers that are not negative; overflow and the subnormal numbers below 2^-1022 are not modelled.
-/
namespace Jq

/-- `round half to even`. -/
def roundEven (y : Rat) : Int :=
  if y - y.floor < 1 / 2 then y.floor
  else if 1 / 2 < y - y.floor then y.floor + 1
  else if y.floor % 2 = 0 then y.floor
  else y.floor + 1

/-- The distance of the floats around `x`. -/
def ulp (x : Rat) : Rat :=
  if 1 ≤ x then 2 ^ Nat.log2 x.floor.toNat / 2 ^ 52
  else 1 / 2 ^ (Nat.log2 (1 / x).floor.toNat + 53)

/-- The float nearest to `x`. -/
def double (x : Rat) : Rat := roundEven (x / ulp x) * ulp x

end Jq
