import Verif.Model.MapProject
import Mathlib.Analysis.SpecialFunctions.Trigonometric.Bounds
import Mathlib.Analysis.SpecialFunctions.Trigonometric.Deriv
import Mathlib.Tactic.Linarith
import Mathlib.Tactic.FieldSimp
import Mathlib.Tactic.Positivity
import Mathlib.Tactic.Ring
import Mathlib.Tactic.LinearCombination

/-!
# Transverse Mercator: the series of the foot-point latitude undoes the series of the meridian arc

`n` is the third flattening (`e1` in the code); the squared eccentricity is 4n/(1+n)².
-/

set_option linter.unusedSimpArgs false

namespace Verif.Geo
open Real

/-! ## polynomials in n, sin 2φ and cos 2φ -/

/-- the value of a list of monomials: coefficient, exponents of n, S and C -/
noncomputable def polyVal (l : List (ℚ × ℕ × ℕ × ℕ)) (n S C : ℝ) : ℝ :=
  (l.map fun m => (m.1 : ℝ) * n ^ m.2.1 * S ^ m.2.2.1 * C ^ m.2.2.2).sum

/-- the sum of the absolute values of the monomials for `|n| ≤ N`, `|S| ≤ 1`, `|C| ≤ 1` -/
def polyBound (l : List (ℚ × ℕ × ℕ × ℕ)) (N : ℚ) : ℚ := (l.map fun m => |m.1| * N ^ m.2.1).sum

theorem polyVal_le {l : List (ℚ × ℕ × ℕ × ℕ)} {N : ℚ} {n S C : ℝ} (hn : |n| ≤ N) (hS : |S| ≤ 1) (hC : |C| ≤ 1) :
    |polyVal l n S C| ≤ (polyBound l N : ℚ) := by
  induction l with
  | nil => simp [polyVal, polyBound]
  | cons m l ih =>
    unfold polyVal polyBound at *
    rw [List.map_cons, List.map_cons, List.sum_cons, List.sum_cons]
    refine (abs_add_le _ _).trans ?_
    push_cast at ih ⊢
    refine add_le_add ?_ ih
    rw [abs_mul, abs_mul, abs_mul, abs_pow, abs_pow, abs_pow]
    have h1 : |n| ^ m.2.1 ≤ (N : ℝ) ^ m.2.1 := pow_le_pow_left₀ (abs_nonneg _) hn _
    have h2 : |S| ^ m.2.2.1 ≤ 1 := pow_le_one₀ (abs_nonneg _) hS
    have h3 : |C| ^ m.2.2.2 ≤ 1 := pow_le_one₀ (abs_nonneg _) hC
    calc |(m.1 : ℝ)| * |n| ^ m.2.1 * |S| ^ m.2.2.1 * |C| ^ m.2.2.2
        ≤ |(m.1 : ℝ)| * |n| ^ m.2.1 * |S| ^ m.2.2.1 * 1 := by gcongr
      _ ≤ |(m.1 : ℝ)| * |n| ^ m.2.1 * 1 * 1 := by gcongr
      _ ≤ |(m.1 : ℝ)| * (N : ℝ) ^ m.2.1 * 1 * 1 := by gcongr
      _ = |(m.1 : ℝ)| * (N : ℝ) ^ m.2.1 := by ring

/-- the fourth order remainder of the composition of the two series -/
def remainder : List (ℚ × ℕ × ℕ × ℕ) :=
  [(65/16, 0, 1, 1), (95/16, 0, 3, 1), (-177/128, 1, 1, 0), (-827/128, 1, 3, 0), (395/64, 1, 5, 0), (-1299/128, 2, 1, 1),
   (3795/128, 2, 3, 1), (-525/16, 2, 5, 1), (715/64, 3, 1, 0), (-111079/3072, 3, 3, 0), (146975/3072, 3, 5, 0),
   (-1225/48, 3, 7, 0), (-5265/512, 4, 3, 1), (4725/256, 4, 5, 1), (4563/1024, 5, 3, 0), (-4095/256, 5, 5, 0),
   (3675/256, 5, 7, 0)]

/-- the distance between the latitude and the rectifying latitude, to third order -/
noncomputable def shift0 (n S C : ℝ) : ℝ :=
  -(3/2*n - 9/16*n^3) * S + 15/16*n^2 * (2*S*C) - 35/48*n^3 * (3*S - 4*S^3)

theorem series_cancel {n S C : ℝ} (h : C^2 = 1 - S^2) :
    shift0 n S C + (3/2*n - 27/32*n^3) * (S*(1 - 2*shift0 n S C^2) + C*(2*shift0 n S C)) +
      (21/16*n^2 - 55/32*n^4) * (2*S*C + (1 - 2*S^2)*(4*shift0 n S C)) + 151/96*n^3*(3*S - 4*S^3) =
    n^4 * polyVal remainder n S C := by
  unfold polyVal remainder shift0
  simp only [List.map_cons, List.map_nil, List.sum_cons, List.sum_nil]
  push_cast
  linear_combination ((45/8)*n^3*S + (-405/128)*n^5*S + (-675/64)*n^5*S^3 + (6075/1024)*n^7*S^3) * h

theorem abs_sin_sub_id {x : ℝ} (h : |x| ≤ 1) : |sin x - x| ≤ |x|^3 / 4 := by
  have h1 := sin_bound h
  have e : sin x - x = (sin x - (x - x^3/6)) + -(x^3/6) := by ring
  rw [e]
  refine (abs_add_le _ _).trans ?_
  rw [abs_neg, abs_div, abs_pow, abs_of_pos (by norm_num : (0:ℝ) < 6)]
  have h0 := abs_nonneg x
  have h5 : |x|^5 ≤ |x|^3 := by
    calc |x|^5 = |x|^3 * (|x| * |x|) := by ring
      _ ≤ |x|^3 * (1 * 1) := by gcongr
      _ = |x|^3 := by ring
  nlinarith [pow_nonneg h0 3]

theorem abs_cos_sub_one {x : ℝ} : |cos x - 1| ≤ |x|^2 / 2 := by
  have h1 := one_sub_sq_div_two_le_cos (x := x)
  have h2 := cos_le_one x
  rw [abs_of_nonpos (by linarith), sq_abs]
  linarith

/-- the composition of the two series, at a distance `d` between the latitude and the rectifying latitude -/
noncomputable def composed (n phi d : ℝ) : ℝ :=
  d + (3/2*n - 27/32*n^3) * sin (2*(phi+d)) + (21/16*n^2 - 55/32*n^4) * sin (4*(phi+d)) + 151/96*n^3 * sin (6*(phi+d)) +
    1097/512*n^4 * sin (8*(phi+d))

theorem composed_lipschitz {n : ℝ} (h0 : 0 ≤ n) (h1 : n ≤ 1/500) (phi d d' : ℝ) :
    |composed n phi d - composed n phi d'| ≤ 11/10 * |d - d'| := by
  have hs : ∀ k : ℝ, 0 ≤ k → |sin (k*(phi+d)) - sin (k*(phi+d'))| ≤ k * |d - d'| := by
    intro k hk
    refine (abs_sin_sub_sin_le _ _).trans ?_
    rw [show k*(phi+d) - k*(phi+d') = k*(d-d') by ring, abs_mul, abs_of_nonneg hk]
  have n2 : n^2 ≤ 1/250000 := by nlinarith
  have n3 : n^3 ≤ 1/125000000 := by nlinarith [pow_nonneg h0 2]
  have n4 : n^4 ≤ 1/62500000000 := by nlinarith [pow_nonneg h0 3]
  have p2 := pow_nonneg h0 2
  have p3 := pow_nonneg h0 3
  have p4 := pow_nonneg h0 4
  have a1 : |3/2*n - 27/32*n^3| ≤ 1/100 := by rw [abs_le]; constructor <;> linarith
  have a2 : |21/16*n^2 - 55/32*n^4| ≤ 1/1000 := by rw [abs_le]; constructor <;> linarith
  have a3 : |151/96*n^3| ≤ 1/1000 := by rw [abs_le]; constructor <;> linarith
  have a4 : |1097/512*n^4| ≤ 1/1000 := by rw [abs_le]; constructor <;> linarith
  have hd := abs_nonneg (d - d')
  have e : composed n phi d - composed n phi d' = (d - d') + (3/2*n - 27/32*n^3) * (sin (2*(phi+d)) - sin (2*(phi+d'))) +
      (21/16*n^2 - 55/32*n^4) * (sin (4*(phi+d)) - sin (4*(phi+d'))) + 151/96*n^3 * (sin (6*(phi+d)) - sin (6*(phi+d'))) +
      1097/512*n^4 * (sin (8*(phi+d)) - sin (8*(phi+d'))) := by unfold composed; ring
  rw [e]
  refine (abs_add_le _ _).trans ?_
  have t1 : |(3/2*n - 27/32*n^3) * (sin (2*(phi+d)) - sin (2*(phi+d')))| ≤ 1/100 * (2 * |d - d'|) := by
    rw [abs_mul]; exact mul_le_mul a1 (hs 2 (by norm_num)) (abs_nonneg _) (by norm_num)
  have t2 : |(21/16*n^2 - 55/32*n^4) * (sin (4*(phi+d)) - sin (4*(phi+d')))| ≤ 1/1000 * (4 * |d - d'|) := by
    rw [abs_mul]; exact mul_le_mul a2 (hs 4 (by norm_num)) (abs_nonneg _) (by norm_num)
  have t3 : |151/96*n^3 * (sin (6*(phi+d)) - sin (6*(phi+d')))| ≤ 1/1000 * (6 * |d - d'|) := by
    rw [abs_mul]; exact mul_le_mul a3 (hs 6 (by norm_num)) (abs_nonneg _) (by norm_num)
  have t4 : |1097/512*n^4 * (sin (8*(phi+d)) - sin (8*(phi+d')))| ≤ 1/1000 * (8 * |d - d'|) := by
    rw [abs_mul]; exact mul_le_mul a4 (hs 8 (by norm_num)) (abs_nonneg _) (by norm_num)
  have u1 := abs_add_le ((d - d') + (3/2*n - 27/32*n^3) * (sin (2*(phi+d)) - sin (2*(phi+d'))) +
      (21/16*n^2 - 55/32*n^4) * (sin (4*(phi+d)) - sin (4*(phi+d')))) (151/96*n^3 * (sin (6*(phi+d)) - sin (6*(phi+d'))))
  have u2 := abs_add_le ((d - d') + (3/2*n - 27/32*n^3) * (sin (2*(phi+d)) - sin (2*(phi+d'))))
      ((21/16*n^2 - 55/32*n^4) * (sin (4*(phi+d)) - sin (4*(phi+d'))))
  have u3 := abs_add_le (d - d') ((3/2*n - 27/32*n^3) * (sin (2*(phi+d)) - sin (2*(phi+d'))))
  linarith

theorem shift0_le {n S C : ℝ} (h0 : 0 ≤ n) (h1 : n ≤ 1/500) (hS : |S| ≤ 1) (hC : |C| ≤ 1) : |shift0 n S C| ≤ 8/5 * n := by
  have p2 := pow_nonneg h0 2
  have p3 := pow_nonneg h0 3
  have n2 : n^2 ≤ n/500 := by nlinarith
  have n3 : n^3 ≤ n/250000 := by nlinarith
  have hS3 : |S^3| ≤ 1 := by rw [abs_pow]; exact pow_le_one₀ (abs_nonneg _) hS
  have hSC : |S*C| ≤ 1 := by rw [abs_mul]; exact mul_le_one₀ hS (abs_nonneg _) hC
  have t1 : |-(3/2*n - 9/16*n^3) * S| ≤ 3/2*n := by
    rw [abs_mul, abs_neg]
    have : |3/2*n - 9/16*n^3| ≤ 3/2*n := by rw [abs_le]; constructor <;> linarith
    calc _ ≤ 3/2*n * 1 := mul_le_mul this hS (abs_nonneg _) (by linarith)
      _ = _ := by ring
  have t2 : |15/16*n^2 * (2*S*C)| ≤ 15/8*n^2 := by
    rw [show 15/16*n^2 * (2*S*C) = 15/8*n^2*(S*C) by ring, abs_mul, abs_of_nonneg (by positivity)]
    calc _ ≤ 15/8*n^2 * 1 := by gcongr
      _ = _ := by ring
  have t3 : |35/48*n^3 * (3*S - 4*S^3)| ≤ 35/48*n^3 * 7 := by
    rw [abs_mul, abs_of_nonneg (by positivity)]
    have : |3*S - 4*S^3| ≤ 7 := by
      have := abs_le.1 hS
      have := abs_le.1 hS3
      rw [abs_le]; constructor <;> linarith
    gcongr
  unfold shift0
  refine (abs_sub _ _).trans ?_
  have := abs_add_le (-(3/2*n - 9/16*n^3) * S) (15/16*n^2 * (2*S*C))
  linarith

theorem composed_shift0 {n : ℝ} (h0 : 0 ≤ n) (h1 : n ≤ 1/500) (phi : ℝ) :
    |composed n phi (shift0 n (sin (2*phi)) (cos (2*phi)))| ≤ 90 * n^4 := by
  set S := sin (2*phi) with hS
  set C := cos (2*phi) with hC
  have bS : |S| ≤ 1 := abs_sin_le_one _
  have bC : |C| ≤ 1 := abs_cos_le_one _
  set d := shift0 n S C with hd
  have bd : |d| ≤ 8/5*n := shift0_le h0 h1 bS bC
  have hd0 := abs_nonneg d
  have p2 := pow_nonneg h0 2
  have p3 := pow_nonneg h0 3
  have p4 := pow_nonneg h0 4
  have n2' : n^2 ≤ n/500 := by nlinarith only [h0, h1]
  have n3' : n^3 ≤ n^2/500 := by nlinarith only [h0, h1, p2]
  have n4' : n^4 ≤ n^3/500 := by nlinarith only [h0, h1, p3]
  have n4 : n^4 ≤ n^2/250000 := by linarith only [n3', n4']
  have n3 : n^3 ≤ n/250000 := by linarith only [n2', n3']
  have sc : C^2 = 1 - S^2 := by rw [hS, hC, cos_sq']
  have s4 : sin (4*phi) = 2*S*C := by rw [show 4*phi = 2*(2*phi) by ring, sin_two_mul]
  have c4 : cos (4*phi) = 1 - 2*S^2 := by rw [show 4*phi = 2*(2*phi) by ring, cos_two_mul, ← hC, sc]; ring
  have s6 : sin (6*phi) = 3*S - 4*S^3 := by rw [show 6*phi = 3*(2*phi) by ring, sin_three_mul]
  have main := series_cancel (n := n) sc
  rw [← hd] at main
  have hrem : |n^4 * polyVal remainder n S C| ≤ 11 * n^4 := by
    have hb := polyVal_le (l := remainder) (N := 1/500) (n := n) (S := S) (C := C)
      (by rw [abs_of_nonneg h0]; push_cast; exact h1) bS bC
    have hv : ((polyBound remainder (1/500) : ℚ) : ℝ) ≤ 11 := by
      have : polyBound remainder (1/500) ≤ 11 := by
        unfold polyBound remainder
        simp only [List.map_cons, List.map_nil, List.sum_cons, List.sum_nil]
        norm_num [abs_of_pos, abs_of_neg]
      exact_mod_cast this
    rw [abs_mul, abs_of_nonneg p4, mul_comm]
    exact mul_le_mul_of_nonneg_right (hb.trans hv) p4
  -- the errors of the expansions
  have bd2 : |2*d| ≤ 1 := by rw [abs_mul, abs_of_pos (by norm_num : (0:ℝ) < 2)]; linarith
  have bd4 : |4*d| ≤ 1 := by rw [abs_mul, abs_of_pos (by norm_num : (0:ℝ) < 4)]; linarith
  have d2 : |d|^2 ≤ 64/25*n^2 := by calc |d|^2 ≤ (8/5*n)^2 := pow_le_pow_left₀ hd0 bd 2
      _ = _ := by ring
  have d3 : |d|^3 ≤ 512/125*n^3 := by calc |d|^3 ≤ (8/5*n)^3 := pow_le_pow_left₀ hd0 bd 3
      _ = _ := by ring
  have d4 : |d|^4 ≤ 4096/625*n^4 := by calc |d|^4 ≤ (8/5*n)^4 := pow_le_pow_left₀ hd0 bd 4
      _ = _ := by ring
  have e1 : |sin (2*(phi+d)) - (S*(1-2*d^2) + C*(2*d))| ≤ 9 * n^3 := by
    rw [show 2*(phi+d) = 2*phi + 2*d by ring, sin_add, ← hS, ← hC]
    have a := cos_bound bd2
    have b := abs_sin_sub_id bd2
    rw [abs_mul, abs_of_pos (by norm_num : (0:ℝ) < 2)] at a b
    rw [show S * cos (2*d) + C * sin (2*d) - (S*(1-2*d^2) + C*(2*d)) = S * (cos (2*d) - (1 - (2*d)^2/2)) + C * (sin (2*d) - 2*d) by ring]
    refine (abs_add_le _ _).trans ?_
    rw [abs_mul, abs_mul]
    have a' : |S| * |cos (2*d) - (1 - (2*d)^2/2)| ≤ 1 * ((2*|d|)^4 * (5/96)) := mul_le_mul bS a (abs_nonneg _) (by norm_num)
    have b' : |C| * |sin (2*d) - 2*d| ≤ 1 * ((2*|d|)^3/4) := mul_le_mul bC b (abs_nonneg _) (by norm_num)
    have e1 : (2*|d|)^4 = 16*|d|^4 := by ring
    have e2 : (2*|d|)^3 = 8*|d|^3 := by ring
    rw [e1] at a'
    rw [e2] at b'
    linarith only [a', b', d3, d4, n4', p3]
  have e2 : |sin (4*(phi+d)) - (2*S*C + (1-2*S^2)*(4*d))| ≤ 22 * n^2 := by
    rw [show 4*(phi+d) = 4*phi + 4*d by ring, sin_add, s4, c4]
    have a := abs_cos_sub_one (x := 4*d)
    have b := abs_sin_sub_id bd4
    rw [abs_mul (4:ℝ) d, abs_of_pos (by norm_num : (0:ℝ) < 4)] at a b
    rw [show 2*S*C * cos (4*d) + (1-2*S^2) * sin (4*d) - (2*S*C + (1-2*S^2)*(4*d)) = 2*S*C*(cos (4*d) - 1) + (1-2*S^2)*(sin (4*d) - 4*d) by ring]
    refine (abs_add_le _ _).trans ?_
    rw [abs_mul, abs_mul (1-2*S^2)]
    have b4 : |2*S*C| ≤ 1 := by rw [← s4]; exact abs_sin_le_one _
    have b5 : |1-2*S^2| ≤ 1 := by rw [← c4]; exact abs_cos_le_one _
    have a' : |2*S*C| * |cos (4*d) - 1| ≤ 1 * ((4*|d|)^2/2) := mul_le_mul b4 a (abs_nonneg _) (by norm_num)
    have b' : |1-2*S^2| * |sin (4*d) - 4*d| ≤ 1 * ((4*|d|)^3/4) := mul_le_mul b5 b (abs_nonneg _) (by norm_num)
    have e1 : (4*|d|)^2 = 16*|d|^2 := by ring
    have e2 : (4*|d|)^3 = 64*|d|^3 := by ring
    rw [e1] at a'
    rw [e2] at b'
    linarith only [a', b', d2, d3, n3', p2]
  have e3 : |sin (6*(phi+d)) - (3*S - 4*S^3)| ≤ 10 * n := by
    rw [← s6]
    refine (abs_sin_sub_sin_le _ _).trans ?_
    rw [show 6*(phi+d) - 6*phi = 6*d by ring, abs_mul, abs_of_pos (by norm_num : (0:ℝ) < 6)]
    linarith
  have e4 : |sin (8*(phi+d))| ≤ 1 := abs_sin_le_one _
  have split : composed n phi d = n^4 * polyVal remainder n S C +
      (3/2*n - 27/32*n^3) * (sin (2*(phi+d)) - (S*(1-2*d^2) + C*(2*d))) +
      (21/16*n^2 - 55/32*n^4) * (sin (4*(phi+d)) - (2*S*C + (1-2*S^2)*(4*d))) +
      151/96*n^3 * (sin (6*(phi+d)) - (3*S - 4*S^3)) + 1097/512*n^4 * sin (8*(phi+d)) := by
    rw [← main]; unfold composed; ring
  rw [split]
  have a1 : |3/2*n - 27/32*n^3| ≤ 3/2*n := by rw [abs_le]; constructor <;> linarith
  have a2 : |21/16*n^2 - 55/32*n^4| ≤ 21/16*n^2 := by rw [abs_le]; constructor <;> linarith
  have t1 : |(3/2*n - 27/32*n^3) * (sin (2*(phi+d)) - (S*(1-2*d^2) + C*(2*d)))| ≤ 27/2*n^4 := by
    rw [abs_mul]
    calc _ ≤ 3/2*n * (9*n^3) := mul_le_mul a1 e1 (abs_nonneg _) (by linarith)
      _ = _ := by ring
  have t2 : |(21/16*n^2 - 55/32*n^4) * (sin (4*(phi+d)) - (2*S*C + (1-2*S^2)*(4*d)))| ≤ 231/8*n^4 := by
    rw [abs_mul]
    calc _ ≤ 21/16*n^2 * (22*n^2) := mul_le_mul a2 e2 (abs_nonneg _) (by positivity)
      _ = _ := by ring
  have t3 : |151/96*n^3 * (sin (6*(phi+d)) - (3*S - 4*S^3))| ≤ 755/48*n^4 := by
    rw [abs_mul, abs_of_nonneg (by positivity)]
    calc _ ≤ 151/96*n^3 * (10*n) := by gcongr
      _ = _ := by ring
  have t4 : |1097/512*n^4 * sin (8*(phi+d))| ≤ 1097/512*n^4 := by
    rw [abs_mul, abs_of_nonneg (by positivity)]
    calc _ ≤ 1097/512*n^4 * 1 := by gcongr
      _ = _ := by ring
  refine (abs_add_le _ _).trans ?_
  have u1 := abs_add_le (n^4 * polyVal remainder n S C +
      (3/2*n - 27/32*n^3) * (sin (2*(phi+d)) - (S*(1-2*d^2) + C*(2*d))) +
      (21/16*n^2 - 55/32*n^4) * (sin (4*(phi+d)) - (2*S*C + (1-2*S^2)*(4*d)))) (151/96*n^3 * (sin (6*(phi+d)) - (3*S - 4*S^3)))
  have u2 := abs_add_le (n^4 * polyVal remainder n S C +
      (3/2*n - 27/32*n^3) * (sin (2*(phi+d)) - (S*(1-2*d^2) + C*(2*d))))
      ((21/16*n^2 - 55/32*n^4) * (sin (4*(phi+d)) - (2*S*C + (1-2*S^2)*(4*d))))
  have u3 := abs_add_le (n^4 * polyVal remainder n S C) ((3/2*n - 27/32*n^3) * (sin (2*(phi+d)) - (S*(1-2*d^2) + C*(2*d))))
  linarith only [u1, u2, u3, t1, t2, t3, t4, hrem, p4]

/-! ## the coefficients of the code -/

/-- the coefficients of the two series as functions of the third flattening -/
structure Coefficients (p : TransMerc) (n : ℝ) : Prop where
  low : 0 ≤ n
  high : n ≤ 1/585
  ecc2 : p.e.ecc2 = 4*n/(1+n)^2
  ecc4 : p.e.ecc4 = p.e.ecc2^2
  ecc6 : p.e.ecc6 = p.e.ecc2^3
  c1 : p.c1 = 1 - 1/4*p.e.ecc2 - 3/64*p.e.ecc2^2 - 5/256*p.e.ecc2^3
  c2 : p.c2 = 3/8*p.e.ecc2 + 3/32*p.e.ecc2^2 + 45/1024*p.e.ecc2^3
  c3 : p.c3 = 15/256*p.e.ecc2^2 + 45/1024*p.e.ecc2^3
  c4 : p.c4 = 35/3072*p.e.ecc2^3
  ic1 : p.ic1 = 3/2*n - 27/32*n^3
  ic2 : p.ic2 = 21/16*n^2 - 55/32*n^4
  ic3 : p.ic3 = 151/96*n^3
  ic4 : p.ic4 = 1097/512*n^4

theorem flattening_range {name : String} {x : String × ℝ × ℝ} (h : ellipsoids.find? (fun e => e.1 == name) = some x) :
    0 ≤ x.2.2 ∧ x.2.2 ≤ 1/293 ∧ 6000000 ≤ x.2.1 ∧ x.2.1 ≤ 6400000 := by
  have hm := List.mem_of_find?_eq_some h
  simp only [ellipsoids, List.mem_cons, List.not_mem_nil, or_false] at hm
  rcases hm with h | h | h | h | h | h | h | h | h | h | h | h | h | h | h <;> rw [h] <;> norm_num

theorem vtm_coefficients {name : String} {lon0 lat0 : ℝ} {b : Bool} {fe : ℤ} {k : ℝ} {p : TransMerc}
    (h : vtm name lon0 lat0 b fe k = .ok p) : (∃ n, Coefficients p n) ∧ 6000000 ≤ p.e.eqRad ∧ p.e.eqRad ≤ 6400000 := by
  unfold vtm mapSetup at h
  cases hf : ellipsoids.find? (fun e => e.1 == name) with
  | none => rw [hf] at h; cases h
  | some x =>
    obtain ⟨x1, r, f⟩ := x
    obtain ⟨h0, h1, h2, h3⟩ := flattening_range hf
    simp only at h0 h1 h2 h3
    rw [hf] at h
    simp only [Outcome.bind_ok] at h
    cases h
    have hs : dSqrt (1 - (2*f - f*f)) = 1 - f := by
      have e : 1 - (2*f - f*f) = (1-f)^2 := by ring
      rw [e]
      unfold dSqrt
      rw [if_neg (not_lt.2 (sq_nonneg _)), Real.sqrt_sq (by linarith)]
    have h2f : (2 - f) ≠ 0 := by linarith
    have hn : (1 - (1 - f)) / (1 + (1 - f)) = f/(2-f) := by congr 1 <;> ring
    refine ⟨⟨f/(2-f), ?_⟩, h2, h3⟩
    constructor
    · exact div_nonneg h0 (by linarith)
    · rw [div_le_iff₀ (by linarith)]; linarith
    · simp only
      have : 1 + f/(2-f) = 2/(2-f) := by field_simp; ring
      rw [this]; field_simp; ring
    · simp only; ring
    · simp only; ring
    · simp only; ring
    · simp only; ring
    · simp only; ring
    · simp only; ring
    all_goals simp only [hs, hn]; ring

theorem abs_div_pow_le {n P B : ℝ} (h0 : 0 ≤ n) (hP : |P| ≤ B) : |P / (1+n)^6| ≤ B := by
  rw [abs_div, abs_of_pos (by positivity : (0:ℝ) < (1+n)^6)]
  exact (div_le_self (abs_nonneg _) (one_le_pow₀ (by linarith))).trans hP

/-- the forward coefficients agree to third order with those of `shift0` -/
theorem forward_coefficients {p : TransMerc} {n : ℝ} (h : Coefficients p n) :
    99/100 ≤ p.c1 ∧ |p.c2 - (3/2*n - 9/16*n^3) * p.c1| ≤ 7*n^4 ∧ |p.c3 - 15/16*n^2 * p.c1| ≤ 9*n^4 ∧
      |p.c4 - 35/48*n^3 * p.c1| ≤ 4*n^4 := by
  have h0 := h.low
  have h1 := h.high
  have hp : (1+n)^2 ≠ 0 := by positivity
  have hp6 : (1+n)^6 ≠ 0 := by positivity
  have p4 := pow_nonneg h0 4
  have n5 : n^5 ≤ n^4/500 := by nlinarith only [h0, h1, p4]
  have p5 := pow_nonneg h0 5
  have n6 : n^6 ≤ n^5/500 := by nlinarith only [h0, h1, p5]
  have p6 := pow_nonneg h0 6
  have n7 : n^7 ≤ n^6/500 := by nlinarith only [h0, h1, p6]
  have p7 := pow_nonneg h0 7
  have n8 : n^8 ≤ n^7/500 := by nlinarith only [h0, h1, p7]
  have p8 := pow_nonneg h0 8
  have n9 : n^9 ≤ n^8/500 := by nlinarith only [h0, h1, p8]
  have p9 := pow_nonneg h0 9
  refine ⟨?_, ?_, ?_, ?_⟩
  · have he : p.e.ecc2 ≤ 1/146 := by
      rw [h.ecc2, div_le_iff₀ (by positivity)]
      nlinarith only [h0, h1]
    have he0 : 0 ≤ p.e.ecc2 := by rw [h.ecc2]; positivity
    have he2 : p.e.ecc2^2 ≤ 1/146 := by nlinarith only [he, he0]
    have he3 : p.e.ecc2^3 ≤ 1/146 := by nlinarith only [he, he0, he2, pow_nonneg he0 2]
    rw [h.c1]
    linarith
  · have e : p.c2 - (3/2*n - 9/16*n^3) * p.c1 =
        (-105/16*n^4 - 519/64*n^5 - 75/64*n^6 + 273/64*n^7 + 45/16*n^8 + 9/16*n^9) / (1+n)^6 := by
      rw [h.c2, h.c1, h.ecc2]; field_simp; ring
    rw [e]
    refine abs_div_pow_le h0 ?_
    rw [abs_le]; constructor <;> linarith
  · have e : p.c3 - 15/16*n^2 * p.c1 =
        (-555/64*n^4 - 675/64*n^5 - 615/64*n^6 - 75/16*n^7 - 15/16*n^8) / (1+n)^6 := by
      rw [h.c3, h.c1, h.ecc2]; field_simp; ring
    rw [e]
    refine abs_div_pow_le h0 ?_
    rw [abs_le]; constructor <;> linarith
  · have e : p.c4 - 35/48*n^3 * p.c1 =
        (-175/48*n^4 - 1435/192*n^5 - 525/64*n^6 - 1435/192*n^7 - 175/48*n^8 - 35/48*n^9) / (1+n)^6 := by
      rw [h.c4, h.c1, h.ecc2]; field_simp; ring
    rw [e]
    refine abs_div_pow_le h0 ?_
    rw [abs_le]; constructor <;> linarith

/-- the foot-point latitude of the arc of a meridian is the latitude, to fourth order -/
theorem foot_arc {p : TransMerc} {n : ℝ} (h : Coefficients p n) (hr : p.e.eqRad ≠ 0) (phi : ℝ) :
    |p.foot (p.arc phi / (p.e.eqRad * p.c1)) - phi| ≤ 115 * n^4 := by
  obtain ⟨hc1, hc2, hc3, hc4⟩ := forward_coefficients h
  have h0 := h.low
  have h1 : n ≤ 1/500 := by linarith [h.high]
  have hc0 : p.c1 ≠ 0 := by linarith
  set d := (-p.c2 * sin (2*phi) + p.c3 * sin (4*phi) - p.c4 * sin (6*phi)) / p.c1 with hd
  have hmu : p.arc phi / (p.e.eqRad * p.c1) = phi + d := by
    unfold TransMerc.arc
    rw [mul_div_mul_left _ _ hr, hd]
    field_simp
    ring
  have hfoot : p.foot (phi + d) - phi = composed n phi d := by
    unfold TransMerc.foot composed
    rw [h.ic1, h.ic2, h.ic3, h.ic4]
    ring
  rw [hmu, hfoot]
  set d0 := shift0 n (sin (2*phi)) (cos (2*phi)) with hd0
  have s4 : sin (4*phi) = 2*sin (2*phi)*cos (2*phi) := by rw [show 4*phi = 2*(2*phi) by ring, sin_two_mul]
  have s6 : sin (6*phi) = 3*sin (2*phi) - 4*sin (2*phi)^3 := by rw [show 6*phi = 3*(2*phi) by ring, sin_three_mul]
  have p4 := pow_nonneg h0 4
  have hdd : |d - d0| ≤ 22*n^4 := by
    have e : d - d0 = (-(p.c2 - (3/2*n - 9/16*n^3) * p.c1) * sin (2*phi) + (p.c3 - 15/16*n^2 * p.c1) * sin (4*phi)
        - (p.c4 - 35/48*n^3 * p.c1) * sin (6*phi)) / p.c1 := by
      rw [hd, hd0]
      unfold shift0
      rw [← s4, ← s6]
      field_simp
      ring
    rw [e, abs_div, abs_of_pos (by linarith : (0:ℝ) < p.c1), div_le_iff₀ (by linarith)]
    have m1 : |-(p.c2 - (3/2*n - 9/16*n^3) * p.c1) * sin (2*phi)| ≤ 7*n^4 := by
      rw [abs_mul, abs_neg]
      calc _ ≤ 7*n^4 * 1 := mul_le_mul hc2 (abs_sin_le_one _) (abs_nonneg _) (by positivity)
        _ = _ := by ring
    have m2 : |(p.c3 - 15/16*n^2 * p.c1) * sin (4*phi)| ≤ 9*n^4 := by
      rw [abs_mul]
      calc _ ≤ 9*n^4 * 1 := mul_le_mul hc3 (abs_sin_le_one _) (abs_nonneg _) (by positivity)
        _ = _ := by ring
    have m3 : |(p.c4 - 35/48*n^3 * p.c1) * sin (6*phi)| ≤ 4*n^4 := by
      rw [abs_mul]
      calc _ ≤ 4*n^4 * 1 := mul_le_mul hc4 (abs_sin_le_one _) (abs_nonneg _) (by positivity)
        _ = _ := by ring
    have u1 := abs_sub (-(p.c2 - (3/2*n - 9/16*n^3) * p.c1) * sin (2*phi) + (p.c3 - 15/16*n^2 * p.c1) * sin (4*phi))
      ((p.c4 - 35/48*n^3 * p.c1) * sin (6*phi))
    have u2 := abs_add_le (-(p.c2 - (3/2*n - 9/16*n^3) * p.c1) * sin (2*phi)) ((p.c3 - 15/16*n^2 * p.c1) * sin (4*phi))
    nlinarith only [m1, m2, m3, u1, u2, hc1, p4]
  have a := composed_lipschitz h0 h1 phi d d0
  have b := composed_shift0 h0 h1 phi
  have e : composed n phi d = (composed n phi d - composed n phi d0) + composed n phi d0 := by ring
  rw [e]
  refine (abs_add_le _ _).trans ?_
  linarith

/-! ## the arc of the meridian -/

/-- the third order expansion of the radius of curvature, in the squared eccentricity `q` and `s` = sin² φ -/
noncomputable def expansion (q s : ℝ) : ℝ :=
  1 + q*(3/2*s - 1) + q^2*(15/8*s^2 - 3/2*s) + q^3*(35/16*s^3 - 15/8*s^2)

/-- the remainder of the square of the expansion -/
def squareRemainder : List (ℚ × ℕ × ℕ × ℕ) :=
  [(-35/8, 0, 3, 0), (315/64, 0, 4, 0), (35/8, 1, 3, 0), (-105/32, 1, 4, 0), (-63/32, 1, 5, 0), (-105/64, 2, 4, 0),
   (147/64, 2, 5, 0), (-105/256, 2, 6, 0), (-21/64, 3, 5, 0), (35/64, 3, 6, 0), (-45/256, 3, 7, 0), (-315/64, 4, 6, 0),
   (705/64, 4, 7, 0), (-1575/256, 4, 8, 0), (225/64, 5, 7, 0), (-525/64, 5, 8, 0), (1225/256, 5, 9, 0)]

theorem square_expansion (q s : ℝ) :
    (1-q)^2 - expansion q s^2 * (1-q*s)^3 = q^4 * polyVal squareRemainder q s 1 := by
  unfold polyVal squareRemainder expansion
  simp only [List.map_cons, List.map_nil, List.sum_cons, List.sum_nil]
  push_cast
  ring

theorem curvature_expansion {q s : ℝ} (h0 : 0 ≤ q) (h1 : q ≤ 1/140) (s0 : 0 ≤ s) (s1 : s ≤ 1) :
    |(1-q) / Real.sqrt (1-q*s)^3 - expansion q s| ≤ 5 * q^4 := by
  have hx0 : 0 ≤ q*s := mul_nonneg h0 s0
  have hx1 : q*s ≤ 1/140 := by nlinarith only [h0, h1, s0, s1]
  have p4 := pow_nonneg h0 4
  have w0 : 0 < Real.sqrt (1-q*s) := Real.sqrt_pos.2 (by linarith)
  have w2 : Real.sqrt (1-q*s)^2 = 1-q*s := Real.sq_sqrt (by linarith)
  have w1 : Real.sqrt (1-q*s) ≤ 1 := Real.sqrt_le_one.2 (by linarith)
  set w := Real.sqrt (1-q*s) with hw
  set g := (1-q) / w^3 with hg
  have w3 : w^3 ≤ 1 := pow_le_one₀ w0.le w1
  have g1 : 1 - q ≤ g := by
    rw [hg, le_div_iff₀ (by positivity)]
    nlinarith only [w3, h1]
  have s2 : s^2 ≤ 1 := pow_le_one₀ s0 s1
  have L1 : 98/100 ≤ expansion q s := by
    have p2 : q^2 ≤ 1/140 * q := by nlinarith only [h0, h1]
    have p2' := pow_nonneg h0 2
    have p3 : q^3 ≤ 1/140 * q := by nlinarith only [h0, h1, p2, p2']
    have p3' := pow_nonneg h0 3
    have s2' := pow_nonneg s0 2
    have s3' := pow_nonneg s0 3
    have e : expansion q s = 1 - q + 3/2*(q*s) + 15/8*(q^2*s^2) - 3/2*(q^2*s) + 35/16*(q^3*s^3) - 15/8*(q^3*s^2) := by
      unfold expansion; ring
    have m1 : q^2*s ≤ q^2 := mul_le_of_le_one_right p2' s1
    have m2 : q^3*s^2 ≤ q^3 := mul_le_of_le_one_right p3' s2
    have m3 := mul_nonneg p2' s2'
    have m4 := mul_nonneg p3' s3'
    rw [e]
    linarith
  have hD : |q^4 * polyVal squareRemainder q s 1| ≤ 48/5 * q^4 := by
    have hb := polyVal_le (l := squareRemainder) (N := 1/140) (n := q) (S := s) (C := 1)
      (by rw [abs_of_nonneg h0]; push_cast; exact h1) (by rw [abs_of_nonneg s0]; exact s1) (by simp)
    have hv : ((polyBound squareRemainder (1/140) : ℚ) : ℝ) ≤ ((48/5 : ℚ) : ℝ) := by
      have : polyBound squareRemainder (1/140) ≤ 48/5 := by
        unfold polyBound squareRemainder
        simp only [List.map_cons, List.map_nil, List.sum_cons, List.sum_nil]
        norm_num [abs_of_pos, abs_of_neg]
      exact_mod_cast this
    push_cast at hv
    rw [abs_mul, abs_of_nonneg p4, mul_comm]
    exact mul_le_mul_of_nonneg_right (hb.trans hv) p4
  have key : (g - expansion q s) * ((g + expansion q s) * (1-q*s)^3) = q^4 * polyVal squareRemainder q s 1 := by
    rw [← square_expansion]
    have hg2 : g^2 * (1-q*s)^3 = (1-q)^2 := by
      rw [hg, ← w2]
      field_simp
    linear_combination hg2
  have hfac : 192/100 ≤ (g + expansion q s) * (1-q*s)^3 := by
    have hc : 975/1000 ≤ (1-q*s)^3 := by
      have : (1 - 1/140 : ℝ)^3 ≤ (1-q*s)^3 := pow_le_pow_left₀ (by norm_num) (by linarith) 3
      norm_num at this ⊢
      linarith
    have hs : 197/100 ≤ g + expansion q s := by linarith
    calc (192/100 : ℝ) ≤ 197/100 * (975/1000) := by norm_num
      _ ≤ _ := mul_le_mul hs hc (by norm_num) (by linarith)
  rw [← key, abs_mul, abs_of_pos (by linarith : 0 < (g + expansion q s) * (1-q*s)^3)] at hD
  nlinarith only [hD, hfac, abs_nonneg (g - expansion q s), p4]

/-- the derivative of the arc -/
theorem arc_deriv {p : TransMerc} {n : ℝ} (h : Coefficients p n) (t : ℝ) :
    HasDerivAt p.arc (p.e.eqRad * expansion p.e.ecc2 (sin t^2)) t := by
  have d : ∀ k : ℝ, HasDerivAt (fun x => sin (k*x)) (cos (k*t) * k) t := fun k => by
    have := (hasDerivAt_id t).const_mul k
    rw [mul_one] at this
    exact this.sin
  have hd := ((((((hasDerivAt_id t).const_mul p.c1).sub ((d 2).const_mul p.c2)).add ((d 4).const_mul p.c3)).sub
    ((d 6).const_mul p.c4)).const_mul p.e.eqRad)
  have e : p.e.eqRad * (p.c1 * 1 - p.c2 * (cos (2*t) * 2) + p.c3 * (cos (4*t) * 4) - p.c4 * (cos (6*t) * 6)) =
      p.e.eqRad * expansion p.e.ecc2 (sin t^2) := by
    have c2 : cos (2*t) = 1 - 2*sin t^2 := by rw [cos_two_mul, cos_sq']; ring
    have c4 : cos (4*t) = 2*(1 - 2*sin t^2)^2 - 1 := by rw [show 4*t = 2*(2*t) by ring, cos_two_mul, c2]
    have c6 : cos (6*t) = 4*(1 - 2*sin t^2)^3 - 3*(1 - 2*sin t^2) := by rw [show 6*t = 3*(2*t) by ring, cos_three_mul, c2]
    rw [c2, c4, c6, h.c1, h.c2, h.c3, h.c4]
    unfold expansion
    ring
  rw [e] at hd
  exact hd

end Verif.Geo
