import Mathlib.Data.Rat.Floor

/-!
# Rounding of floats

IEEE 754 binary64 rounding of positive rationals (round half to even), without subnormals and overflow. Used where the
outcome of an integer computation depends on rounding.
-/

namespace Verif.Double

/-- The exponent of the binade of a positive rational. -/
def expo (x : ℚ) : ℤ :=
  let l : ℤ := (Nat.log2 x.num.natAbs : ℤ) - (Nat.log2 x.den : ℤ)
  if x < (2 : ℚ) ^ l then l - 1 else l

/-- Nearest integer, ties to even. -/
def roundEven (x : ℚ) : ℤ :=
  if x - ⌊x⌋ < 1 / 2 then ⌊x⌋
  else if 1 / 2 < x - ⌊x⌋ then ⌊x⌋ + 1
  else if ⌊x⌋ % 2 = 0 then ⌊x⌋ else ⌊x⌋ + 1

/-- The double nearest to a positive rational. -/
def dbl (x : ℚ) : ℚ := roundEven (x * (2 : ℚ) ^ (52 - expo x)) * (2 : ℚ) ^ (expo x - 52)

end Verif.Double
