import Verif.Model.FloatTime
import Verif.Proofs.Double
import Verif.Props.TimeWindow
import Verif.Props.Trace

/-!
# Rounding errors of times
-/

namespace Verif.FloatTime
open Verif.DoubleSpec

variable {fl : ℚ → ℚ}

/-- less than half a microsecond away from a whole number of microseconds -/
theorem cround_near {x : ℚ} {n : ℤ} (h : |x - n| < 1 / 2) : cround x = n := by
  have h1 := cround_le_add_half x
  have h2 := sub_half_le_cround x
  rw [abs_lt] at h
  have h3 : ((cround x : ℤ) : ℚ) < (n : ℚ) + 1 := by linarith [h.2]
  have h4 : (n : ℚ) < ((cround x : ℤ) : ℚ) + 1 := by linarith [h.1]
  have h3' : cround x < n + 1 := by exact_mod_cast h3
  have h4' : n < cround x + 1 := by exact_mod_cast h4
  omega

theorem cround_mono {x y : ℚ} (h : x ≤ y) : cround x ≤ cround y := by
  unfold cround
  split_ifs with h1 h2 h2
  · exact Int.floor_le_floor (by linarith)
  · exact absurd (h1.trans h) h2
  · have e1 : 0 ≤ ⌊-x + 1 / 2⌋ := Int.floor_nonneg.mpr (by linarith)
    have e2 : 0 ≤ ⌊y + 1 / 2⌋ := Int.floor_nonneg.mpr (by linarith)
    omega
  · have : ⌊-y + 1 / 2⌋ ≤ ⌊-x + 1 / 2⌋ := Int.floor_le_floor (by linarith)
    omega

/-- the relative error of a rounding -/
theorem fl_relative (h : Doubles fl) {x : ℚ} (hlo : (2 : ℚ) ^ (-1022 : ℤ) ≤ |x|) (hhi : |x| ≤ 2 ^ (1023 : ℤ)) :
    |fl x - x| ≤ |x| / 2 ^ 53 := by
  have hx : x ≠ 0 := by
    rintro rfl
    rw [abs_zero] at hlo
    have : (0 : ℚ) < 2 ^ (-1022 : ℤ) := by positivity
    linarith
  have hb := Double.log_bounds hx
  rcases hhi.eq_or_lt with heq | hlt
  · -- the largest power of two: it is near itself
    have := h.near 1023 x (by norm_num) le_rfl heq.le
    refine this.trans ?_
    rw [heq, zpow_sub₀ (by norm_num)]
    have : (2 : ℚ) ^ (54 : ℤ) = 2 ^ 53 * 2 := by norm_num
    rw [this]
    apply div_le_div_of_nonneg_left (by positivity) (by positivity)
    norm_num
  · have hl := Double.log_lt hx hlt
    have hlow : -1022 ≤ Int.log 2 |x| := by
      by_contra hc
      have : (2 : ℚ) ^ (Int.log 2 |x| + 1) ≤ 2 ^ (-1022 : ℤ) := zpow_le_zpow_right₀ (by norm_num) (by omega)
      linarith [hb.2]
    refine (h.near (Int.log 2 |x| + 1) x (by omega) (by omega) hb.2.le).trans ?_
    have e : (2 : ℚ) ^ (Int.log 2 |x| + 1 - 54) = 2 ^ Int.log 2 |x| / 2 ^ 53 := by
      rw [show Int.log 2 |x| + 1 - 54 = Int.log 2 |x| - 53 by ring, zpow_sub₀ (by norm_num)]
      norm_num
    rw [e]
    exact div_le_div_of_nonneg_right hb.1 (by positivity)

theorem fl_int (h : Doubles fl) {n : ℤ} (hn : |n| ≤ 2 ^ 53) : fl (n : ℚ) = n := h.whole n hn

theorem fl_zero (h : Doubles fl) : fl 0 = 0 := by simpa using h.whole 0 (by norm_num)

theorem fl_nonneg (h : Doubles fl) {x : ℚ} (hx : 0 ≤ x) : 0 ≤ fl x := by
  have := h.mono 0 x hx
  rwa [fl_zero h] at this

/-- the seconds are less than a quarter of a microsecond away -/
theorem durToSec_near (h : Doubles fl) {d : ℤ} (hd : |d| ≤ 2 ^ 32 * 10 ^ 6) :
    |durToSec fl d * 1000000 - d| ≤ 1000000 / 2 ^ 22 := by
  have hq : |(d : ℚ)| ≤ 2 ^ 32 * 10 ^ 6 := by
    rw [← Int.cast_abs]
    exact_mod_cast hd
  unfold durToSec
  rw [fl_int h (by omega)]
  have h1 := h.near 32 ((d : ℚ) / 1000000) (by norm_num) (by norm_num) (by
    rw [abs_div, abs_of_pos (by norm_num : (0 : ℚ) < 1000000), div_le_iff₀ (by norm_num)]
    norm_num at hq ⊢
    linarith)
  rw [abs_le] at h1 ⊢
  norm_num at h1 ⊢
  constructor <;> linarith [h1.1, h1.2]

theorem secToDur_durToSec (h : Doubles fl) {d : ℤ} (hd : |d| ≤ 2 ^ 32 * 10 ^ 6) : secToDur fl (durToSec fl d) = some d := by
  have hq : |(d : ℚ)| ≤ 2 ^ 32 * 10 ^ 6 := by
    rw [← Int.cast_abs]
    exact_mod_cast hd
  have h1 := durToSec_near h hd
  have h2 := h.near 52 (durToSec fl d * 1000000) (by norm_num) (by norm_num) (by
    rw [abs_le] at *
    norm_num at *
    constructor <;> linarith [h1.1, h1.2, hq.1, hq.2])
  have h3 : cround (fl (durToSec fl d * 1000000)) = d := by
    apply cround_near
    rw [abs_le] at *
    rw [abs_lt]
    norm_num at *
    constructor <;> linarith [h1.1, h1.2, h2.1, h2.2]
  unfold secToDur
  rw [h3]
  simp only
  rw [abs_le] at hd
  rw [if_pos (by omega)]

theorem durToSec_mono (h : Doubles fl) {a b : ℤ} (hab : a ≤ b) : durToSec fl a ≤ durToSec fl b := by
  unfold durToSec
  apply h.mono
  apply div_le_div_of_nonneg_right _ (by norm_num)
  apply h.mono
  exact_mod_cast hab

end Verif.FloatTime
