import Mathlib.Algebra.Order.Field.Rat
import Mathlib.Algebra.Order.Group.Unbundled.Abs

/-!
# What the rounding of doubles is relied on for

IEEE 754 double precision, round to nearest: `fl x` is a double nearest to `x`.  In the binade that ends at `2^e` two doubles
are `2^(e-53)` apart, so that the nearest is at most half of that away (down to the subnormal numbers).  Numbers too large for
a double are not considered.
-/

namespace Verif.DoubleSpec

/-- `fl` rounds to a nearest double -/
structure Doubles (fl : ℚ → ℚ) : Prop where
  near : ∀ (e : ℤ) (x : ℚ), -1021 ≤ e → e ≤ 1023 → |x| ≤ 2 ^ e → |fl x - x| ≤ 2 ^ (e - 54)
  whole : ∀ n : ℤ, |n| ≤ 2 ^ 53 → fl n = n
  mono : ∀ x y, x ≤ y → fl x ≤ fl y

/-- a number that can be stored in a double (leaving out that the exponent is also bounded above): 53 bits and an exponent -/
def IsDouble (y : ℚ) : Prop := ∃ m e : ℤ, |m| < 2 ^ 53 ∧ -1074 ≤ e ∧ y = m * 2 ^ e

/-- the last of the bits of a double is zero -/
def EvenDouble (y : ℚ) : Prop :=
  ∃ m e : ℤ, |m| < 2 ^ 53 ∧ -1074 ≤ e ∧ y = m * 2 ^ e ∧ (2 ^ 52 ≤ |m| ∨ e = -1074) ∧ m % 2 = 0

/-- the sampling frequencies considered, in Hz: no overflow and no underflow -/
def Usual (f : ℚ) : Prop := 1 / 10 ^ 6 ≤ f ∧ f ≤ 10 ^ 6

end Verif.DoubleSpec
