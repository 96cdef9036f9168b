import Mathlib.Data.Rat.Floor
import Mathlib.Algebra.Order.Round
import Mathlib.Tactic.Linarith
import Mathlib.Tactic.Ring
import Mathlib.Tactic.FieldSimp
import Mathlib.Tactic.Positivity
import Mathlib.Tactic.NormNum

/-!
# `std::round` on rational numbers

C's `round`: to the nearest integer, halfway cases away from zero.
-/

namespace Verif

/-- C `round()` (halfway cases away from zero) -/
def cround (x : ℚ) : ℤ := if 0 ≤ x then ⌊x + 1 / 2⌋ else -⌊-x + 1 / 2⌋

theorem cround_le_add_half (x : ℚ) : (cround x : ℚ) ≤ x + 1 / 2 := by
  unfold cround
  split
  · exact Int.floor_le _
  · push_cast
    have := Int.lt_floor_add_one (-x + 1 / 2)
    linarith

theorem sub_half_le_cround (x : ℚ) : x - 1 / 2 ≤ (cround x : ℚ) := by
  unfold cround
  split
  · have := Int.lt_floor_add_one (x + 1 / 2)
    linarith
  · push_cast
    have := Int.floor_le (-x + 1 / 2)
    linarith

theorem sub_half_lt_cround {x : ℚ} (hx : 0 ≤ x) : x - 1 / 2 < (cround x : ℚ) := by
  unfold cround
  rw [if_pos hx]
  have := Int.lt_floor_add_one (x + 1 / 2)
  linarith

theorem cround_intCast (n : ℤ) : cround (n : ℚ) = n := by
  have h1 := cround_le_add_half (n : ℚ)
  have h2 := sub_half_le_cround (n : ℚ)
  have h3 : ((cround (n : ℚ) : ℤ) : ℚ) < (n : ℚ) + 1 := by linarith
  have h4 : (n : ℚ) < ((cround (n : ℚ) : ℤ) : ℚ) + 1 := by linarith
  have h3' : cround (n : ℚ) < n + 1 := by exact_mod_cast h3
  have h4' : n < cround (n : ℚ) + 1 := by exact_mod_cast h4
  omega

theorem cround_nonneg {x : ℚ} (hx : 0 ≤ x) : 0 ≤ cround x := by
  have h := sub_half_lt_cround hx
  have : (-1 : ℚ) < (cround x : ℚ) := by linarith
  have : (-1 : ℤ) < cround x := by exact_mod_cast this
  omega

/-- rounding never passes an integer -/
theorem cround_le_of_le_int {x : ℚ} {n : ℤ} (h : x ≤ n) : cround x ≤ n := by
  have h1 := cround_le_add_half x
  have : ((cround x : ℤ) : ℚ) < (n : ℚ) + 1 := by linarith
  have : cround x < n + 1 := by exact_mod_cast this
  omega

theorem le_cround_of_int_le {x : ℚ} {n : ℤ} (h : (n : ℚ) ≤ x) : n ≤ cround x := by
  have h1 := sub_half_le_cround x
  have : (n : ℚ) < ((cround x : ℤ) : ℚ) + 1 := by linarith
  have : n < cround x + 1 := by exact_mod_cast this
  omega

end Verif
