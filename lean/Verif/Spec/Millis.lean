/-! # What is assumed of the rounding of float operations -/
namespace Jq

/-- Numbers below 2^k are rounded by at most half of the distance of the floats there, and whole and half numbers not at all; no
number is rounded past a whole number. -/
structure Rounds (rnd : Rat → Rat) : Prop where
  err : ∀ (k : Nat) (x : Rat), 0 ≤ x → x < 2 ^ k → x - 2 ^ k / 2 ^ 54 ≤ rnd x ∧ rnd x ≤ x + 2 ^ k / 2 ^ 54
  whole : ∀ n : Nat, n < 2 ^ 53 → rnd n = n
  half : ∀ n : Nat, n < 2 ^ 53 → rnd ((n : Rat) / 2) = (n : Rat) / 2
  order : ∀ (n : Nat) (x : Rat), 0 ≤ x → x < 2 ^ 53 → ((n : Rat) ≤ x → (n : Rat) ≤ rnd x) ∧ (x ≤ n → rnd x ≤ n)

/-- The millisecond in which a datetime (in microseconds) lies. -/
def millisecondOf (dt : Int) : Int := dt / 1000

end Jq
