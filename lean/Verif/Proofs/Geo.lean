import Verif.Model.Geo
import Verif.Proofs.KdTree
import Mathlib.Analysis.SpecialFunctions.Trigonometric.Bounds

/-!
# Lemmas on the great-circle formulas
-/

set_option linter.unusedSectionVars false
set_option linter.unusedSimpArgs false

namespace Verif.Geo
open Real

theorem earthRadius_pos : 0 < earthRadius := by unfold earthRadius; norm_num

theorem atan2_sqrt {a : ℝ} (h0 : 0 ≤ a) (h1 : a ≤ 1) : atan2 (√a) (√(1 - a)) = arcsin (√a) := by
  unfold atan2
  have hn : ‖(⟨√(1 - a), √a⟩ : ℂ)‖ = 1 := by
    rw [Complex.norm_eq_sqrt_sq_add_sq]
    simp only
    rw [Real.sq_sqrt h0, Real.sq_sqrt (by linarith)]
    simp
  rw [Complex.arg_of_re_nonneg (Real.sqrt_nonneg _), hn]
  simp

/-- the cosine of the central angle -/
theorem one_sub_haversine (lat1 lon1 lat2 lon2 : ℝ) :
    1 - 2 * haversine lat1 lon1 lat2 lon2 =
      sin (degToRad lat1) * sin (degToRad lat2) +
        cos (degToRad lat1) * cos (degToRad lat2) * cos (degToRad (lon2 - lon1)) := by
  unfold haversine
  have e1 : cos (degToRad (lat2 - lat1)) = 1 - 2 * sin (degToRad (lat2 - lat1) / 2) ^ 2 := by
    have := cos_two_mul (degToRad (lat2 - lat1) / 2)
    rw [mul_div_cancel₀ _ (two_ne_zero)] at this
    rw [this]; have := sin_sq_add_cos_sq (degToRad (lat2 - lat1) / 2); linarith
  have e2 : cos (degToRad (lon2 - lon1)) = 1 - 2 * sin (degToRad (lon2 - lon1) / 2) ^ 2 := by
    have := cos_two_mul (degToRad (lon2 - lon1) / 2)
    rw [mul_div_cancel₀ _ (two_ne_zero)] at this
    rw [this]; have := sin_sq_add_cos_sq (degToRad (lon2 - lon1) / 2); linarith
  have e3 : degToRad (lat2 - lat1) = degToRad lat2 - degToRad lat1 := by unfold degToRad; ring
  have e4 := cos_sub (degToRad lat2) (degToRad lat1)
  rw [e3] at e1
  rw [e3, e2]
  linear_combination e4 - e1

theorem haversine_mem (lat1 lon1 lat2 lon2 : ℝ) :
    0 ≤ haversine lat1 lon1 lat2 lon2 ∧ haversine lat1 lon1 lat2 lon2 ≤ 1 := by
  have h := one_sub_haversine lat1 lon1 lat2 lon2
  generalize haversine lat1 lon1 lat2 lon2 = a at *
  generalize degToRad lat1 = x at *
  generalize degToRad lat2 = y at *
  generalize degToRad (lon2 - lon1) = z at *
  have hx := sin_sq_add_cos_sq x
  have hy := sin_sq_add_cos_sq y
  have hz := sin_sq_add_cos_sq z
  -- the dot product of two unit vectors
  have key : (sin x * sin y + cos x * cos y * cos z) ^ 2 ≤ 1 := by
    have h1 : (sin x * sin y + cos x * cos y * cos z) ^ 2 +
        (cos x * sin y - sin x * cos y * cos z) ^ 2 + (cos y * sin z) ^ 2 = 1 := by
      have : (sin x * sin y + cos x * cos y * cos z) ^ 2 + (cos x * sin y - sin x * cos y * cos z) ^ 2 =
        (sin x ^ 2 + cos x ^ 2) * (sin y ^ 2 + cos y ^ 2 * cos z ^ 2) := by ring
      rw [this, hx]
      linear_combination hy + cos y ^ 2 * hz
    nlinarith [sq_nonneg (cos x * sin y - sin x * cos y * cos z), sq_nonneg (cos y * sin z)]
  have hab := abs_le.1 ((sq_le_one_iff_abs_le_one _).1 key)
  constructor <;> linarith [hab.1, hab.2]

/-- the two points are not treated as identical -/
def Distinct (lat1 lon1 lat2 lon2 : ℝ) : Prop := ¬ (|lat1 - lat2| < 1e-9 ∧ |degToRad (lon2 - lon1)| < 1e-9)

/-- central angle -/
noncomputable def angle (lat1 lon1 lat2 lon2 : ℝ) : ℝ := 2 * arcsin (√(haversine lat1 lon1 lat2 lon2))

theorem computeDistance_km {lat1 lon1 lat2 lon2 : ℝ} (h : Distinct lat1 lon1 lat2 lon2) (d : ℝ) :
    computeDistance lat1 lon1 lat2 lon2 d false = angle lat1 lon1 lat2 lon2 * (earthRadius - d) := by
  unfold Distinct at h
  obtain ⟨h0, h1⟩ := haversine_mem lat1 lon1 lat2 lon2
  unfold computeDistance
  rw [if_neg h]
  simp only [min_eq_right h1, max_eq_right h0, atan2_sqrt h0 h1, rad2km, angle]
  simp

theorem computeDistance_rad {lat1 lon1 lat2 lon2 : ℝ} (h : Distinct lat1 lon1 lat2 lon2) (d : ℝ) :
    computeDistance lat1 lon1 lat2 lon2 d true = angle lat1 lon1 lat2 lon2 := by
  unfold Distinct at h
  obtain ⟨h0, h1⟩ := haversine_mem lat1 lon1 lat2 lon2
  unfold computeDistance
  rw [if_neg h]
  simp only [min_eq_right h1, max_eq_right h0, atan2_sqrt h0 h1, rad2km, angle]
  simp

theorem computeDistance_ident {lat1 lon1 lat2 lon2 : ℝ} (h : ¬ Distinct lat1 lon1 lat2 lon2) (d : ℝ) (b : Bool) :
    computeDistance lat1 lon1 lat2 lon2 d b = 0 := by
  unfold Distinct at h
  unfold computeDistance
  rw [if_pos (not_not.1 h)]

theorem angle_nonneg (lat1 lon1 lat2 lon2 : ℝ) : 0 ≤ angle lat1 lon1 lat2 lon2 := by
  unfold angle
  have := arcsin_nonneg.2 (Real.sqrt_nonneg (haversine lat1 lon1 lat2 lon2)); linarith

theorem angle_le_pi (lat1 lon1 lat2 lon2 : ℝ) : angle lat1 lon1 lat2 lon2 ≤ π := by
  unfold angle
  have := arcsin_le_pi_div_two (√(haversine lat1 lon1 lat2 lon2)); linarith

theorem sin_half_angle (lat1 lon1 lat2 lon2 : ℝ) :
    sin (angle lat1 lon1 lat2 lon2 / 2) = √(haversine lat1 lon1 lat2 lon2) := by
  obtain ⟨h0, h1⟩ := haversine_mem lat1 lon1 lat2 lon2
  unfold angle
  rw [mul_div_cancel_left₀ _ two_ne_zero, sin_arcsin]
  · linarith [Real.sqrt_nonneg (haversine lat1 lon1 lat2 lon2)]
  · exact Real.sqrt_le_one.2 h1

theorem angle_mono {a1 a2 a3 a4 b1 b2 b3 b4 : ℝ} (h : haversine a1 a2 a3 a4 ≤ haversine b1 b2 b3 b4) :
    angle a1 a2 a3 a4 ≤ angle b1 b2 b3 b4 := by
  unfold angle
  have := monotone_arcsin (Real.sqrt_le_sqrt h); linarith

theorem angle_strict {a1 a2 a3 a4 b1 b2 b3 b4 : ℝ} (h : haversine a1 a2 a3 a4 < haversine b1 b2 b3 b4) :
    angle a1 a2 a3 a4 < angle b1 b2 b3 b4 := by
  obtain ⟨h0, -⟩ := haversine_mem a1 a2 a3 a4
  obtain ⟨-, h1⟩ := haversine_mem b1 b2 b3 b4
  unfold angle
  have hs := Real.sqrt_lt_sqrt h0 h
  have hb : √(haversine b1 b2 b3 b4) ≤ 1 := Real.sqrt_le_one.2 h1
  have := strictMonoOn_arcsin (a := √(haversine a1 a2 a3 a4)) (b := √(haversine b1 b2 b3 b4))
    ⟨by linarith [Real.sqrt_nonneg (haversine a1 a2 a3 a4)], by linarith⟩
    ⟨by linarith [Real.sqrt_nonneg (haversine b1 b2 b3 b4)], hb⟩ hs
  linarith

theorem sin_sq_mono {x y : ℝ} (h : |x| ≤ |y|) (hy : |y| ≤ π / 2) : sin x ^ 2 ≤ sin y ^ 2 := by
  have e : ∀ z : ℝ, sin z ^ 2 = sin |z| ^ 2 := by
    intro z
    rcases abs_cases z with ⟨h, -⟩ | ⟨h, -⟩ <;> rw [h]
    rw [sin_neg]; ring
  rw [e x, e y]
  have h1 : 0 ≤ sin |x| := sin_nonneg_of_nonneg_of_le_pi (abs_nonneg _) (by linarith [pi_pos])
  have h2 : sin |x| ≤ sin |y| :=
    sin_le_sin_of_le_of_le_pi_div_two (by linarith [abs_nonneg x, pi_pos]) hy h
  exact pow_le_pow_left₀ h1 h2 2

theorem abs_degToRad (x : ℝ) : |degToRad x| = degToRad |x| := by
  unfold degToRad
  rw [abs_div, abs_mul, abs_of_pos pi_pos]; norm_num

theorem degToRad_mono {x y : ℝ} (h : x ≤ y) : degToRad x ≤ degToRad y := by
  unfold degToRad
  have := mul_le_mul_of_nonneg_left h pi_pos.le
  linarith

theorem cos_lat_nonneg {lat : ℝ} (h1 : -90 ≤ lat) (h2 : lat ≤ 90) : 0 ≤ cos (degToRad lat) := by
  apply cos_nonneg_of_neg_pi_div_two_le_of_le
  · have := degToRad_mono h1; unfold degToRad at this ⊢; linarith
  · have := degToRad_mono h2; unfold degToRad at this ⊢; linarith

theorem sin_half_mono {x y : ℝ} (h : |x| ≤ |y|) (hy : |y| ≤ 180) :
    sin (degToRad x / 2) ^ 2 ≤ sin (degToRad y / 2) ^ 2 := by
  apply sin_sq_mono
  · rw [abs_div, abs_div, abs_degToRad, abs_degToRad]
    have := degToRad_mono h
    norm_num; linarith
  · rw [abs_div, abs_degToRad]
    have := degToRad_mono hy
    have e : degToRad 180 = π := by unfold degToRad; ring
    rw [e] at this; norm_num; linarith

/-- the haversine of the latitude difference alone -/
theorem haversine_lat (a b : ℝ) : haversine a 0 b 0 = sin (degToRad (b - a) / 2) ^ 2 := by
  unfold haversine; simp [degToRad]

theorem haversine_lon (a b : ℝ) : haversine 0 a 0 b = sin (degToRad (b - a) / 2) ^ 2 := by
  unfold haversine; simp [degToRad]

theorem haversine_ge_lat {lat1 lon1 lat2 lon2 : ℝ} (h1 : -90 ≤ lat1) (h2 : lat1 ≤ 90) (h3 : -90 ≤ lat2) (h4 : lat2 ≤ 90) :
    sin (degToRad (lat2 - lat1) / 2) ^ 2 ≤ haversine lat1 lon1 lat2 lon2 := by
  unfold haversine
  have := mul_nonneg (mul_nonneg (cos_lat_nonneg h1 h2) (cos_lat_nonneg h3 h4)) (sq_nonneg (sin (degToRad (lon2 - lon1) / 2)))
  linarith

theorem dist3D_nonneg {p q : Pt ℝ} (h : (p.depth + q.depth) / 2 ≤ earthRadius) :
    0 ≤ computeDistance p.lat p.lon q.lat q.lon ((p.depth + q.depth) / 2) false := by
  by_cases hd : Distinct p.lat p.lon q.lat q.lon
  · rw [computeDistance_km hd]
    exact mul_nonneg (angle_nonneg _ _ _ _) (by linarith)
  · rw [computeDistance_ident hd]

theorem dist3D_ge_horizontal {p q : Pt ℝ} (h : (p.depth + q.depth) / 2 ≤ earthRadius) :
    computeDistance p.lat p.lon q.lat q.lon ((p.depth + q.depth) / 2) false ≤ computeDistance3D p q := by
  have h0 := dist3D_nonneg h
  unfold computeDistance3D
  simp only
  split
  · exact le_rfl
  · apply Real.le_sqrt_of_sq_le
    have := sq_nonneg |p.depth - q.depth|; linarith

theorem dist3D_ge_vertical {p q : Pt ℝ} (h : (p.depth + q.depth) / 2 ≤ earthRadius) :
    |p.depth - q.depth| ≤ computeDistance3D p q + 1e-7 := by
  unfold computeDistance3D
  simp only
  split
  · have h0 := dist3D_nonneg h; linarith
  · have : |p.depth - q.depth| ≤ √(computeDistance p.lat p.lon q.lat q.lon ((p.depth + q.depth) / 2) false ^ 2 + |p.depth - q.depth| ^ 2) := by
      apply Real.le_sqrt_of_sq_le
      have := sq_nonneg (computeDistance p.lat p.lon q.lat q.lon ((p.depth + q.depth) / 2) false); linarith
    have h2 : (0 : ℝ) ≤ 1e-7 := by norm_num
    linarith

end Verif.Geo
