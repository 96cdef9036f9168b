import Mathlib.Algebra.Order.Field.Rat
import Mathlib.Algebra.Order.AbsoluteValue.Basic
import Verif.Base.Fl

/-!
# What a number written with a limited number of digits is read as
-/

namespace Verif.Decimal.Spec

/-- `y` is the decimal number with `n` digits after the point that is nearest to `x`; of two equally near ones the one with
an even last digit -/
def Nearest (n : Nat) (x y : ℚ) : Prop :=
  ∃ z : ℤ, y = z / 10 ^ n ∧ |y - x| ≤ 1 / 2 / 10 ^ n ∧ (|y - x| = 1 / 2 / 10 ^ n → z % 2 = 0)

/-- `y` agrees with `x` in six significant digits -/
def SixSignificant (x y : ℚ) : Prop := |y - x| ≤ |x| / 200000

/-- a finite number is at most `10^308` in size: a double, with a small margin (the largest double is `1.8 * 10^308`) -/
def Bounded : Fl ℚ → Prop
  | .num x => |x| ≤ 10 ^ 308
  | _ => True

/-- a finite number is 0 or between `10^-307` and `10^308` in size: a double of full precision, with a small margin (the
smallest one is `2.2 * 10^-308`) -/
def Precise : Fl ℚ → Prop
  | .num x => x = 0 ∨ (1 / 10 ^ 307 ≤ |x| ∧ |x| ≤ 10 ^ 308)
  | _ => True

instance (v : Fl ℚ) : Decidable (Bounded v) := by cases v <;> unfold Bounded <;> infer_instance
instance (v : Fl ℚ) : Decidable (Precise v) := by cases v <;> unfold Precise <;> infer_instance

end Verif.Decimal.Spec
