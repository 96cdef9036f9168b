import Verif.Proofs.Transform

/-!
# C62, C63: great-circle distance, and the point at a given distance and azimuth
-/

set_option linter.unusedSectionVars false
set_option linter.unusedSimpArgs false

namespace Verif.Geo
open Real

/-! ## Specification: points on the unit sphere -/

/-- unit vector of a position in degrees -/
noncomputable def unitVector (lat lon : ℝ) : ℝ × ℝ × ℝ :=
  (cos (degToRad lat) * cos (degToRad lon), cos (degToRad lat) * sin (degToRad lon), sin (degToRad lat))

noncomputable def dot (u v : ℝ × ℝ × ℝ) : ℝ := u.1 * v.1 + u.2.1 * v.2.1 + u.2.2 * v.2.2

/-- angle between two positions seen from the centre of the Earth -/
noncomputable def centralAngle (lat1 lon1 lat2 lon2 : ℝ) : ℝ :=
  arccos (dot (unitVector lat1 lon1) (unitVector lat2 lon2))

/-! ## Lemmas -/

theorem dot_eq (lat1 lon1 lat2 lon2 : ℝ) :
    dot (unitVector lat1 lon1) (unitVector lat2 lon2) = 1 - 2 * haversine lat1 lon1 lat2 lon2 := by
  rw [one_sub_haversine]
  have e : degToRad (lon2 - lon1) = degToRad lon2 - degToRad lon1 := by unfold degToRad; ring
  rw [e, cos_sub]
  unfold dot unitVector
  ring

theorem cos_angle (lat1 lon1 lat2 lon2 : ℝ) :
    cos (angle lat1 lon1 lat2 lon2) = 1 - 2 * haversine lat1 lon1 lat2 lon2 := by
  have h := cos_two_mul (angle lat1 lon1 lat2 lon2 / 2)
  rw [mul_div_cancel₀ _ two_ne_zero] at h
  have h2 := sin_sq_add_cos_sq (angle lat1 lon1 lat2 lon2 / 2)
  rw [sin_half_angle, Real.sq_sqrt (haversine_mem _ _ _ _).1] at h2
  linarith

theorem angle_eq_central (lat1 lon1 lat2 lon2 : ℝ) :
    angle lat1 lon1 lat2 lon2 = centralAngle lat1 lon1 lat2 lon2 := by
  unfold centralAngle
  rw [dot_eq, ← cos_angle, arccos_cos (angle_nonneg _ _ _ _) (angle_le_pi _ _ _ _)]

/-! ## C62 -/

/-- **C62a.** For positions the code does not treat as identical, the angular distance is the central
angle, and the distance in km is that angle times the radius at the given depth. -/
theorem distance_is_great_circle {lat1 lon1 lat2 lon2 : ℝ}
    (h : ¬ (|lat1 - lat2| < 1e-9 ∧ |degToRad (lon2 - lon1)| < 1e-9)) (depth : ℝ) :
    computeDistance lat1 lon1 lat2 lon2 depth true = centralAngle lat1 lon1 lat2 lon2 ∧
    computeDistance lat1 lon1 lat2 lon2 depth false = centralAngle lat1 lon1 lat2 lon2 * (earthRadius - depth) := by
  rw [← angle_eq_central]
  exact ⟨computeDistance_rad h depth, computeDistance_km h depth⟩

theorem haversine_small {lat1 lon1 lat2 lon2 : ℝ} (h1 : |lat1 - lat2| < 1e-9) (h2 : |degToRad (lon2 - lon1)| < 1e-9) :
    haversine lat1 lon1 lat2 lon2 ≤ (1e-9) ^ 2 / 2 := by
  have hp : π ≤ 4 := pi_le_four
  have l1 : |degToRad (lat2 - lat1)| ≤ 1e-9 := by
    rw [abs_degToRad, abs_sub_comm]
    unfold degToRad
    have := mul_le_mul hp h1.le (abs_nonneg _) (by norm_num)
    linarith
  have s1 : sin (degToRad (lat2 - lat1) / 2) ^ 2 ≤ (1e-9 / 2) ^ 2 := by
    rw [← sq_abs]
    apply pow_le_pow_left₀ (abs_nonneg _)
    refine le_trans (abs_sin_le_abs (x := degToRad (lat2 - lat1) / 2)) ?_
    rw [abs_div]; norm_num; norm_num at l1; linarith
  have s2 : sin (degToRad (lon2 - lon1) / 2) ^ 2 ≤ (1e-9 / 2) ^ 2 := by
    rw [← sq_abs]
    apply pow_le_pow_left₀ (abs_nonneg _)
    refine le_trans (abs_sin_le_abs (x := degToRad (lon2 - lon1) / 2)) ?_
    rw [abs_div]; norm_num; norm_num at h2; linarith
  have c : cos (degToRad lat1) * cos (degToRad lat2) ≤ 1 := by
    have h1 := abs_cos_le_one (degToRad lat1)
    have h2 := abs_cos_le_one (degToRad lat2)
    calc cos (degToRad lat1) * cos (degToRad lat2) ≤ |cos (degToRad lat1) * cos (degToRad lat2)| := le_abs_self _
      _ = |cos (degToRad lat1)| * |cos (degToRad lat2)| := abs_mul _ _
      _ ≤ 1 * 1 := mul_le_mul h1 h2 (abs_nonneg _) zero_le_one
      _ = 1 := one_mul 1
  unfold haversine
  have := mul_le_mul_of_nonneg_right c (sq_nonneg (sin (degToRad (lon2 - lon1) / 2)))
  linarith

/-- an angle with a small haversine is small -/
theorem angle_small {lat1 lon1 lat2 lon2 : ℝ} (h : haversine lat1 lon1 lat2 lon2 ≤ (1e-9) ^ 2 / 2) :
    angle lat1 lon1 lat2 lon2 ≤ 4e-9 := by
  have h0 := angle_nonneg lat1 lon1 lat2 lon2
  have h1 := angle_le_pi lat1 lon1 lat2 lon2
  have hs := mul_le_sin (x := angle lat1 lon1 lat2 lon2 / 2) (by linarith) (by linarith)
  rw [sin_half_angle] at hs
  have hq : √(haversine lat1 lon1 lat2 lon2) ≤ 1e-9 := by
    rw [Real.sqrt_le_left (by norm_num)]
    refine le_trans h ?_; norm_num
  have h2 : 2 / π * (angle lat1 lon1 lat2 lon2 / 2) = angle lat1 lon1 lat2 lon2 / π := by field_simp
  rw [h2] at hs
  have h3 : angle lat1 lon1 lat2 lon2 ≤ 1e-9 * π := by
    rw [← div_le_iff₀ pi_pos]; linarith
  have hp : π ≤ 4 := pi_le_four
  linarith

/-- **C62b.** In every case the angular distance differs from the central angle by at most 4e-9 rad,
lies in [0, π] and is symmetric. -/
theorem distance_close_to_great_circle (lat1 lon1 lat2 lon2 depth : ℝ) :
    |computeDistance lat1 lon1 lat2 lon2 depth true - centralAngle lat1 lon1 lat2 lon2| ≤ 4e-9 ∧
    0 ≤ computeDistance lat1 lon1 lat2 lon2 depth true ∧ computeDistance lat1 lon1 lat2 lon2 depth true ≤ π ∧
    ∀ b, computeDistance lat1 lon1 lat2 lon2 depth b = computeDistance lat2 lon2 lat1 lon1 depth b := by
  refine ⟨?_, ?_, ?_, ?_⟩
  · by_cases h : Distinct lat1 lon1 lat2 lon2
    · rw [(distance_is_great_circle h depth).1, sub_self, abs_zero]; norm_num
    · rw [computeDistance_ident h]
      unfold Distinct at h
      obtain ⟨h1, h2⟩ := not_not.1 h
      rw [← angle_eq_central, zero_sub, abs_neg, abs_of_nonneg (angle_nonneg _ _ _ _)]
      exact angle_small (haversine_small h1 h2)
  · by_cases h : Distinct lat1 lon1 lat2 lon2
    · rw [computeDistance_rad h]; exact angle_nonneg _ _ _ _
    · rw [computeDistance_ident h]
  · by_cases h : Distinct lat1 lon1 lat2 lon2
    · rw [computeDistance_rad h]; exact angle_le_pi _ _ _ _
    · rw [computeDistance_ident h]; exact pi_pos.le
  · intro b
    have hs : Distinct lat1 lon1 lat2 lon2 ↔ Distinct lat2 lon2 lat1 lon1 := by
      unfold Distinct
      rw [abs_sub_comm lat1 lat2, abs_degToRad, abs_degToRad, abs_sub_comm lon2 lon1]
    have ha : angle lat1 lon1 lat2 lon2 = angle lat2 lon2 lat1 lon1 := by
      rw [angle_eq_central, angle_eq_central]
      unfold centralAngle dot
      congr 1; ring
    by_cases h : Distinct lat1 lon1 lat2 lon2
    · cases b
      · rw [computeDistance_km h, computeDistance_km (hs.1 h), ha]
      · rw [computeDistance_rad h, computeDistance_rad (hs.1 h), ha]
    · rw [computeDistance_ident h, computeDistance_ident (fun h' => h (hs.2 h'))]

/-! ## C63 -/

theorem degToRad_radToDeg (x : ℝ) : degToRad (radToDeg x) = x := by
  unfold degToRad radToDeg
  have := pi_pos.ne'
  field_simp

/-- the triangle with the pole: sine and cosine of the new latitude and of the longitude difference -/
theorem triangle {clat d az : ℝ} (hc : 0 < cos (degToRad clat)) :
    ∃ lat dl : ℝ, lat = arcsin (sin (degToRad clat) * cos d + cos (degToRad clat) * sin d * cos az) ∧
      dl = atan2 (sin az * sin d * cos (degToRad clat)) (cos d - sin (degToRad clat) * sin lat) ∧
      sin lat = sin (degToRad clat) * cos d + cos (degToRad clat) * sin d * cos az ∧
      cos (degToRad clat) * cos lat * cos dl = cos d - sin (degToRad clat) * sin lat ∧
      cos (degToRad clat) * cos lat * sin dl = sin az * sin d * cos (degToRad clat) := by
  generalize hφ : degToRad clat = φ at *
  generalize hs : sin φ * cos d + cos φ * sin d * cos az = s
  have i1 := sin_sq_add_cos_sq φ
  have i2 := sin_sq_add_cos_sq d
  have i3 := sin_sq_add_cos_sq az
  have hs2 : s ^ 2 + (cos φ * cos d - sin φ * sin d * cos az) ^ 2 + (sin d * sin az) ^ 2 = 1 := by
    rw [← hs]
    have : (sin φ * cos d + cos φ * sin d * cos az) ^ 2 + (cos φ * cos d - sin φ * sin d * cos az) ^ 2 =
      (sin φ ^ 2 + cos φ ^ 2) * (cos d ^ 2 + sin d ^ 2 * cos az ^ 2) := by ring
    rw [this, i1]
    linear_combination i2 + sin d ^ 2 * i3
  have hs1 : s ^ 2 ≤ 1 := by
    nlinarith [sq_nonneg (cos φ * cos d - sin φ * sin d * cos az), sq_nonneg (sin d * sin az)]
  have hab := abs_le.1 ((sq_le_one_iff_abs_le_one _).1 hs1)
  have hsin : sin (arcsin s) = s := sin_arcsin hab.1 hab.2
  have hcosl : cos (arcsin s) = √(1 - s ^ 2) := cos_arcsin s
  refine ⟨arcsin s, _, rfl, rfl, hsin, ?_⟩
  rw [hsin]
  -- the vector whose angle is the longitude difference
  have hnorm : ‖(⟨cos d - sin φ * s, sin az * sin d * cos φ⟩ : ℂ)‖ = cos φ * cos (arcsin s) := by
    rw [Complex.norm_eq_sqrt_sq_add_sq]
    simp only
    have e : (cos d - sin φ * s) ^ 2 + (sin az * sin d * cos φ) ^ 2 = cos φ ^ 2 * (1 - s ^ 2) := by
      have h1 : cos d - sin φ * s = cos φ * (cos φ * cos d - sin φ * sin d * cos az) := by
        rw [← hs]; linear_combination (-cos d) * i1
      rw [h1]
      linear_combination (cos φ ^ 2) * hs2
    rw [e, Real.sqrt_mul (sq_nonneg _), Real.sqrt_sq hc.le, hcosl]
  unfold atan2
  by_cases hw : (⟨cos d - sin φ * s, sin az * sin d * cos φ⟩ : ℂ) = 0
  · rw [hw, norm_zero] at hnorm
    have hre := congrArg Complex.re hw
    have him := congrArg Complex.im hw
    simp only [Complex.zero_re, Complex.zero_im] at hre him
    rw [← hnorm, hre, him]; simp
  · have hn0 : ‖(⟨cos d - sin φ * s, sin az * sin d * cos φ⟩ : ℂ)‖ ≠ 0 := norm_ne_zero_iff.2 hw
    rw [Complex.cos_arg hw, Complex.sin_arg]
    rw [← hnorm]
    constructor
    · rw [mul_div_cancel₀ _ hn0]
    · rw [mul_div_cancel₀ _ hn0]

/-- what `computeCoordinates` returns -/
theorem computeCoordinates_eq {clat clon dist az depth : ℝ} {ang : Bool} (h0 : dist ≠ 0) (h1 : -90 < clat) (h2 : clat < 90) :
    ∃ lat dl : ℝ, computeCoordinates dist az clat clon depth ang =
        (radToDeg lat, normalizeLon (radToDeg (degToRad clon + dl))) ∧
      (let d := if ang then dist else km2rad dist depth
       sin lat = sin (degToRad clat) * cos d + cos (degToRad clat) * sin d * cos az ∧
       cos (degToRad clat) * cos lat * cos dl = cos d - sin (degToRad clat) * sin lat ∧
       cos (degToRad clat) * cos lat * sin dl = sin az * sin d * cos (degToRad clat)) ∧
      -(π / 2) ≤ lat ∧ lat ≤ π / 2 := by
  obtain ⟨lat, dl, e1, e2, h3⟩ := triangle (clat := clat) (d := if ang then dist else km2rad dist depth) (az := az) (cos_lat_pos h1 h2)
  refine ⟨lat, dl, ?_, h3, ?_, ?_⟩
  · unfold computeCoordinates
    rw [if_neg h0]
    simp only
    rw [e2, ← e1]
  · rw [e1]; exact neg_pi_div_two_le_arcsin _
  · rw [e1]; exact arcsin_le_pi_div_two _

theorem cos_sin_lon_diff (clon dl : ℝ) :
    cos (degToRad (normalizeLon (radToDeg (degToRad clon + dl)) - clon)) = cos dl ∧
    sin (degToRad (normalizeLon (radToDeg (degToRad clon + dl)) - clon)) = sin dl := by
  obtain ⟨-, -, k, hk⟩ := normalizeLon_spec (radToDeg (degToRad clon + dl))
  have e : degToRad (normalizeLon (radToDeg (degToRad clon + dl)) - clon) = dl + k * (2 * π) := by
    rw [hk]
    have : degToRad (radToDeg (degToRad clon + dl) + 360 * k - clon) =
        degToRad (radToDeg (degToRad clon + dl)) + 2 * π * k - degToRad clon := by unfold degToRad; ring
    rw [this, degToRad_radToDeg]; ring
  rw [e]
  exact ⟨cos_add_int_mul_two_pi dl k, sin_add_int_mul_two_pi dl k⟩

/-- **C63a.** The point at a given angular distance in [0, π], from any centre other than a pole, is at
that distance on the sphere; its coordinates are within the valid range. -/
theorem destination_at_distance {clat clon dist az : ℝ} (depth : ℝ) (h1 : -90 < clat) (h2 : clat < 90) (hd0 : 0 < dist) (hd : dist ≤ π) :
    let p := computeCoordinates dist az clat clon depth true
    centralAngle clat clon p.1 p.2 = dist ∧ -90 ≤ p.1 ∧ p.1 ≤ 90 ∧ -180 ≤ p.2 ∧ p.2 < 180 := by
  obtain ⟨lat, dl, e, ⟨t1, t2, t3⟩, l1, l2⟩ := computeCoordinates_eq (dist := dist) (az := az) (clon := clon)
    (depth := depth) (ang := true) hd0.ne' h1 h2
  simp only at t1 t2 t3 ⊢
  rw [e]
  simp only
  obtain ⟨c1, c2⟩ := cos_sin_lon_diff clon dl
  refine ⟨?_, ?_, ?_, (normalizeLon_spec _).1, (normalizeLon_spec _).2.1⟩
  · rw [← angle_eq_central]
    have hcos : cos (angle clat clon (radToDeg lat) (normalizeLon (radToDeg (degToRad clon + dl)))) = cos dist := by
      rw [cos_angle, one_sub_haversine, degToRad_radToDeg, c1]
      simp only [if_true] at t2
      linarith
    exact injOn_cos ⟨angle_nonneg _ _ _ _, angle_le_pi _ _ _ _⟩ ⟨hd0.le, hd⟩ hcos
  · unfold radToDeg; rw [le_div_iff₀ pi_pos]; linarith
  · unfold radToDeg; rw [div_le_iff₀ pi_pos]; linarith

/-- **C63b.** Computing the distance and azimuth back returns the ones given, for distances in km from
4e-9 rad to (but excluding) half the circumference at the given depth, and azimuths in (-π, π]. -/
theorem destination_round_trip {clat clon dist az depth : ℝ} (h1 : -90 < clat) (h2 : clat < 90)
    (hdep : depth < earthRadius) (hd0 : 4e-9 * (earthRadius - depth) < dist) (hd : dist < π * (earthRadius - depth))
    (ha0 : -π < az) (ha : az ≤ π) :
    let p := computeCoordinates dist az clat clon depth false
    computeDistance clat clon p.1 p.2 depth false = dist ∧ computeAzimuth clat clon p.1 p.2 = az := by
  have hR : 0 < earthRadius - depth := sub_pos.2 hdep
  have hpos : 0 < dist := lt_trans (mul_pos (by norm_num) hR) hd0
  obtain ⟨lat, dl, e, ⟨t1, t2, t3⟩, l1, l2⟩ := computeCoordinates_eq (dist := dist) (az := az) (clon := clon)
    (depth := depth) (ang := false) hpos.ne' h1 h2
  have hkm : km2rad dist depth = dist / (earthRadius - depth) := rfl
  have hr0 : 4e-9 < km2rad dist depth := by rw [hkm, lt_div_iff₀ hR]; exact hd0
  have hr : km2rad dist depth < π := by rw [hkm, div_lt_iff₀ hR]; exact hd
  simp only [Bool.false_eq_true, if_false] at t1 t2 t3
  simp only
  rw [e]
  simp only
  obtain ⟨c1, c2⟩ := cos_sin_lon_diff clon dl
  have hr0' : 0 < km2rad dist depth := lt_trans (by norm_num) hr0
  have hang : angle clat clon (radToDeg lat) (normalizeLon (radToDeg (degToRad clon + dl))) = km2rad dist depth := by
    have hcos : cos (angle clat clon (radToDeg lat) (normalizeLon (radToDeg (degToRad clon + dl)))) = cos (km2rad dist depth) := by
      rw [cos_angle, one_sub_haversine, degToRad_radToDeg, c1]
      linarith
    exact injOn_cos ⟨angle_nonneg _ _ _ _, angle_le_pi _ _ _ _⟩ ⟨hr0'.le, hr.le⟩ hcos
  have hdist : Distinct clat clon (radToDeg lat) (normalizeLon (radToDeg (degToRad clon + dl))) := by
    intro ⟨i1, i2⟩
    have := angle_small (haversine_small i1 i2)
    rw [hang] at this; linarith
  constructor
  · rw [computeDistance_km hdist, hang, hkm, div_mul_cancel₀ _ hR.ne']
  · unfold computeAzimuth
    simp only
    rw [if_neg hdist, c1, c2, degToRad_radToDeg]
    have hc := cos_lat_pos h1 h2
    have hy : sin dl * cos lat = sin (km2rad dist depth) * sin az := by
      have : cos (degToRad clat) * (sin dl * cos lat) = cos (degToRad clat) * (sin (km2rad dist depth) * sin az) := by
        linear_combination t3
      exact mul_left_cancel₀ hc.ne' this
    have hx : cos (degToRad clat) * sin lat - sin (degToRad clat) * cos lat * cos dl = sin (km2rad dist depth) * cos az := by
      have i1 := sin_sq_add_cos_sq (degToRad clat)
      have : cos (degToRad clat) * (cos (degToRad clat) * sin lat - sin (degToRad clat) * cos lat * cos dl) =
          cos (degToRad clat) * (sin (km2rad dist depth) * cos az) := by
        linear_combination (-sin (degToRad clat)) * t2 + sin lat * i1 + t1
      exact mul_left_cancel₀ hc.ne' this
    rw [hy, hx]
    have hsd : 0 < sin (km2rad dist depth) := sin_pos_of_pos_of_lt_pi hr0' hr
    unfold atan2
    have hz : (⟨sin (km2rad dist depth) * cos az, sin (km2rad dist depth) * sin az⟩ : ℂ) =
        (sin (km2rad dist depth) : ℂ) * (Complex.cos az + Complex.sin az * Complex.I) := by
      apply Complex.ext <;> simp [Complex.cos_ofReal_re, Complex.sin_ofReal_re]
    rw [hz]
    exact Complex.arg_mul_cos_add_sin_mul_I hsd ⟨ha0, ha⟩

/-- Non-vacuity: 10 km to the east of a point in Switzerland, at 5 km depth. -/
example : ∃ clat dist az depth : ℝ, -90 < clat ∧ clat < 90 ∧ depth < earthRadius ∧
    4e-9 * (earthRadius - depth) < dist ∧ dist < π * (earthRadius - depth) ∧ -π < az ∧ az ≤ π := by
  refine ⟨46.5, 10, π / 2, 5, by norm_num, by norm_num, ?_, ?_, ?_, ?_, ?_⟩
  · unfold earthRadius; norm_num
  · unfold earthRadius; norm_num
  · unfold earthRadius; nlinarith [two_le_pi]
  · linarith [pi_pos]
  · linarith [pi_pos]

end Verif.Geo
