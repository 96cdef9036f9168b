import Mathlib.Data.Rat.Floor
import Mathlib.Data.Int.Log

/-!
# Rounding to double precision (IEEE 754 binary64)

Every arithmetic operation of the code on `double` gives the exact result rounded to a nearest double, ties to even.  Left out:
the overflow to infinity beyond `2^1024`, and the sign of zero.
-/

namespace Verif.Double

/-- the nearest integer, ties to even (for `x` not negative) -/
def nearestEven (x : ℚ) : ℤ :=
  let f := ⌊x⌋
  if x - f < 1 / 2 then f
  else if 1 / 2 < x - f then f + 1
  else if f % 2 = 0 then f else f + 1

/-- the exponent of the last of the 53 bits of a double near `x`, not below that of the subnormal numbers -/
def lastBit (x : ℚ) : ℤ := max (Int.log 2 |x| - 52) (-1074)

/-- the double nearest to `x`, ties to even -/
def round64 (x : ℚ) : ℚ :=
  if 0 ≤ x then nearestEven (x / 2 ^ lastBit x) * 2 ^ lastBit x else -(nearestEven (-x / 2 ^ lastBit x) * 2 ^ lastBit x)

end Verif.Double
