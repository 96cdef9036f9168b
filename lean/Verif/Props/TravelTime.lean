import Verif.Model.TravelTime
import Verif.Proofs.Grid
import Mathlib.Analysis.SpecialFunctions.Trigonometric.Angle
import Mathlib.Analysis.SpecialFunctions.Trigonometric.Arctan
import Mathlib.Analysis.SpecialFunctions.Trigonometric.ArctanDeriv
import Mathlib.Analysis.SpecialFunctions.Sqrt
import Mathlib.Tactic.Linarith
import Mathlib.Tactic.Ring
import Mathlib.Tactic.FieldSimp
import Mathlib.Tactic.Positivity

set_option linter.unusedSectionVars false
set_option linter.unusedSimpArgs false

/-!
# C67, C68, C69: take-off angles, homogeneous travel times, velocity units
-/

namespace Verif.TravelTime
open Verif.Geo Verif.Grid

/-! ## C68: homogeneous medium -/

theorem cos_atan2 {x y : ℝ} (h : x ^ 2 + y ^ 2 ≠ 0) : Real.cos (atan2 y x) = x / Real.sqrt (x ^ 2 + y ^ 2) := by
  have hz : (⟨x, y⟩ : ℂ) ≠ 0 := by
    intro hc
    rw [Complex.ext_iff] at hc
    apply h; simp at hc; rw [hc.1, hc.2]; ring
  rw [atan2, Complex.cos_arg hz, Complex.norm_def, Complex.normSq_mk]; ring_nf

theorem sin_atan2 (x y : ℝ) : Real.sin (atan2 y x) = y / Real.sqrt (x ^ 2 + y ^ 2) := by
  rw [atan2, Complex.sin_arg, Complex.norm_def, Complex.normSq_mk]; ring_nf

theorem kmOfDegree_pos : 0 < kmOfDegree 0 := by
  unfold kmOfDegree earthRadius
  have := Real.pi_pos
  have h : (0 : ℝ) < 6371.00877141506 - 0 := by norm_num
  positivity

/-- **C68.** The two ways of asking for a travel time agree: they differ by less than the time needed
to travel 0.1 mm, for every event, station and phase type (and throw for the same phase types). -/
theorem homogeneous_times_agree (pVel sVel eLat eLon eDepth sLat sLon elev : ℝ) (ph : String)
    (hp : 0 < pVel) (hs : 0 < sVel) (hd : (eDepth - elev / 1000) / 2 ≤ earthRadius) :
    (homogeneousTime pVel sVel eLat eLon eDepth sLat sLon elev ph = .throws ∧
      homogeneousRay pVel sVel eLat eLon eDepth sLat sLon elev ph = .throws ∧ ph ≠ "P" ∧ ph ≠ "S") ∨
    ∃ v t r, (ph = "P" ∧ v = pVel ∨ ph = "S" ∧ v = sVel) ∧
      homogeneousTime pVel sVel eLat eLon eDepth sLat sLon elev ph = .ok t ∧
      homogeneousRay pVel sVel eLat eLon eDepth sLat sLon elev ph = .ok r ∧
      0 ≤ t ∧ |t - r.travelTime| ≤ 1e-7 / v := by
  have main : ∀ v, 0 < v → velocityOf pVel sVel ph = .ok v →
      ∃ t r, homogeneousTime pVel sVel eLat eLon eDepth sLat sLon elev ph = .ok t ∧
      homogeneousRay pVel sVel eLat eLon eDepth sLat sLon elev ph = .ok r ∧
      0 ≤ t ∧ |t - r.travelTime| ≤ 1e-7 / v := by
    intro v hv hvel
    unfold homogeneousTime homogeneousRay
    simp only [hvel, Outcome.bind_ok, Outcome.pure_eq, Outcome.ok.injEq, exists_eq_left', ]
    refine ⟨_, _, rfl, rfl, ?_⟩
    have e1 : (eDepth + -(elev / 1000)) / 2 = (eDepth - elev / 1000) / 2 := by ring
    have e2 : eDepth - -(elev / 1000) = eDepth + elev / 1000 := by ring
    unfold computeDistance3D
    simp only [e1, e2]
    set H := computeDistance eLat eLon sLat sLon ((eDepth - elev / 1000) / 2) false with hH
    set V := eDepth + elev / 1000 with hV
    have hH0 : 0 ≤ H := by
      rw [hH, computeDistance]
      split
      · exact le_refl _
      · simp only [Bool.false_eq_true, if_false, rad2km]
        refine mul_nonneg (mul_nonneg (by norm_num) ?_) (by linarith)
        rw [atan2]
        exact Complex.arg_nonneg_iff.2 (Real.sqrt_nonneg _)
    have hsq : H * H + V * V = H ^ 2 + |V| ^ 2 := by rw [sq_abs]; ring
    rw [hsq]
    split
    · rename_i hlt
      refine ⟨div_nonneg hH0 hv.le, ?_⟩
      have h1 : H ≤ Real.sqrt (H ^ 2 + |V| ^ 2) := by
        apply Real.le_sqrt_of_sq_le; nlinarith [sq_nonneg |V|]
      have h2 : Real.sqrt (H ^ 2 + |V| ^ 2) ≤ H + |V| := by
        apply Real.sqrt_le_iff.2
        exact ⟨by positivity, by nlinarith [abs_nonneg V]⟩
      rw [← sub_div, abs_div, abs_of_pos hv, abs_of_nonpos (by linarith)]
      exact div_le_div_of_nonneg_right (by linarith) hv.le
    · refine ⟨by positivity, ?_⟩
      rw [sub_self, abs_zero]; positivity
  by_cases h1 : ph = "P"
  · right
    obtain ⟨t, r, h⟩ := main pVel hp (by rw [velocityOf, if_pos h1])
    exact ⟨pVel, t, r, Or.inl ⟨h1, rfl⟩, h⟩
  · by_cases h2 : ph = "S"
    · right
      obtain ⟨t, r, h⟩ := main sVel hs (by rw [velocityOf, if_neg h1, if_pos h2])
      exact ⟨sVel, t, r, Or.inr ⟨h2, rfl⟩, h⟩
    · left
      have hv : velocityOf pVel sVel ph = .throws := by rw [velocityOf, if_neg h1, if_neg h2]
      refine ⟨?_, ?_, h1, h2⟩
      · unfold homogeneousTime; rw [hv]; rfl
      · unfold homogeneousRay; rw [hv]; rfl

example : (0 : ℝ) < 6 ∧ (0 : ℝ) < 3.5 ∧ ((10 : ℝ) - 500 / 1000) / 2 ≤ earthRadius ∧
    velocityOf 6 3.5 "P" = .ok 6 := by
  refine ⟨by norm_num, by norm_num, by unfold earthRadius; norm_num, rfl⟩

/-- **C68.** The derivatives returned are those of the straight-ray travel time `√(h² + z²)/v`: `dtdh` with
respect to the depth difference `z` and `dtdd`, converted from degrees to kilometers at the surface,
with respect to the horizontal distance `h`.  The slowness vector has length `1/v`, the dip lies in
[0,180] and grows with the depth of the event below the station. -/
theorem homogeneous_derivatives {pVel sVel eLat eLon eDepth sLat sLon elev : ℝ} {ph : String} {v : ℝ}
    {r : Ray} (hv : 0 < v) (hvel : velocityOf pVel sVel ph = .ok v)
    (hr : homogeneousRay pVel sVel eLat eLon eDepth sLat sLon elev ph = .ok r)
    (hne : 0 < r.travelTime) :
    ∃ h z : ℝ, h = computeDistance eLat eLon sLat sLon ((eDepth - elev / 1000) / 2) false ∧
      z = eDepth - (-(elev / 1000)) ∧
      r.travelTime = Real.sqrt (h ^ 2 + z ^ 2) / v ∧
      HasDerivAt (fun z' => Real.sqrt (h ^ 2 + z' ^ 2) / v) r.dtdh z ∧
      HasDerivAt (fun h' => Real.sqrt (h' ^ 2 + z ^ 2) / v) (r.dtdd / kmOfDegree 0) h ∧
      (r.dtdd / kmOfDegree 0) ^ 2 + r.dtdh ^ 2 = (1 / v) ^ 2 ∧
      (0 ≤ h → 0 ≤ r.takeOffDip ∧ r.takeOffDip ≤ 180) := by
  unfold homogeneousRay at hr
  simp only [hvel, Outcome.bind_ok, Outcome.pure_eq, Outcome.ok.injEq] at hr
  set h := computeDistance eLat eLon sLat sLon ((eDepth - elev / 1000) / 2) false with hh
  set z := eDepth + elev / 1000 with hz
  subst hr
  simp only at hne ⊢
  have e0 : h * h + z * z = h ^ 2 + z ^ 2 := by ring
  rw [e0] at hne ⊢
  have hs : 0 < Real.sqrt (h ^ 2 + z ^ 2) := by
    by_contra hc
    have : Real.sqrt (h ^ 2 + z ^ 2) = 0 := le_antisymm (not_lt.1 hc) (Real.sqrt_nonneg _)
    rw [this, zero_div] at hne; exact lt_irrefl _ hne
  have hsum : h ^ 2 + z ^ 2 ≠ 0 := (Real.sqrt_pos.1 hs).ne'
  have hk := kmOfDegree_pos
  have hcos := cos_atan2 hsum
  have hsin := sin_atan2 h z
  have hdd : Real.cos (atan2 z h) / km2deg v 0 / kmOfDegree 0 = Real.cos (atan2 z h) / v := by
    unfold km2deg; field_simp
  have hpi := Real.pi_pos
  have harg1 : -Real.pi < atan2 z h := Complex.neg_pi_lt_arg _
  have harg2 : atan2 z h ≤ Real.pi := Complex.arg_le_pi _
  have hdeg : ∀ a b : ℝ, a ≤ b → radToDeg a ≤ radToDeg b := by
    intro a b hab; unfold radToDeg
    exact div_le_div_of_nonneg_right (by linarith) hpi.le
  have r1 : radToDeg Real.pi = 180 := by unfold radToDeg; field_simp
  have r2 : radToDeg (-Real.pi) = -180 := by unfold radToDeg; field_simp
  have r3 : radToDeg (Real.pi / 2) = 90 := by unfold radToDeg; field_simp; norm_num
  have r4 : radToDeg (-(Real.pi / 2)) = -90 := by unfold radToDeg; field_simp; norm_num
  refine ⟨h, z, rfl, by rw [hz]; ring, rfl, ?_, ?_, ?_, ?_⟩
  · rw [hsin]
    have h1 : HasDerivAt (fun z' : ℝ => h ^ 2 + z' ^ 2) (2 * z) z := by
      simpa using (hasDerivAt_pow 2 z).const_add (h ^ 2)
    have h2 := (h1.sqrt hsum).div_const v
    rwa [mul_div_mul_left _ _ (two_ne_zero)] at h2
  · rw [hdd, hcos]
    have h1 : HasDerivAt (fun h' : ℝ => h' ^ 2 + z ^ 2) (2 * h) h := by
      simpa using (hasDerivAt_pow 2 h).add_const (z ^ 2)
    have h2 := (h1.sqrt hsum).div_const v
    rwa [mul_div_mul_left _ _ (two_ne_zero)] at h2
  · rw [hdd, div_pow, div_pow, ← add_div, Real.cos_sq_add_sin_sq, one_div, one_div, inv_pow]
  · intro h0
    have habs : |atan2 z h| ≤ Real.pi / 2 := Complex.abs_arg_le_pi_div_two_iff.2 h0
    rw [abs_le] at habs
    have a1 := hdeg _ _ habs.1
    have a2 := hdeg _ _ habs.2
    rw [r4] at a1; rw [r3] at a2
    exact ⟨by linarith, by linarith⟩

/-- non-vacuity: an event 10 km below a station, at 5 km/s -/
example : ∃ r, homogeneousRay 5 3 0 0 10 0 0 0 "P" = .ok r ∧ 0 < r.travelTime := by
  refine ⟨_, rfl, ?_⟩
  have : computeDistance 0 0 0 0 ((10 - 0 / 1000) / 2) false = 0 := by
    rw [computeDistance, if_pos]; simp [degToRad]; norm_num
  simp only [this]
  apply div_pos _ (by norm_num)
  apply Real.sqrt_pos.2; norm_num

/-! ## C69: velocity units and derivatives from grids -/

/-- what a grid of the given type stores for a medium of velocity `v` km/s with cells of `d` km -/
noncomputable def stored (d : ℝ) : VelType → ℝ → ℝ
  | .velocity, v => v
  | .velocityMeters, v => 1000 * v
  | .slowness, v => v⁻¹
  | .slowLen, v => d / v
  | .vel2, v => v * v
  | .slow2, v => (v * v)⁻¹
  | .slow2Meters, v => ((1000 * v) * (1000 * v))⁻¹

/-- **C69.** Whatever unit the velocity grid is stored in, the velocity delivered is in km/s. -/
theorem velocity_units (d v : ℝ) (hd : 0 < d) (hv : 0 < v) (t : VelType) :
    convertUnits d t (stored d t v) = v := by
  cases t <;> simp only [convertUnits, stored]
  · field_simp
  · simp
  · field_simp
  · exact Real.sqrt_mul_self hv.le
  · rw [one_div, inv_inv]; exact Real.sqrt_mul_self hv.le
  · rw [one_div, inv_inv, Real.sqrt_mul_self (by positivity)]; field_simp

/-- **C69.** The derivatives computed from a grid form a slowness vector of length `1/v`, the vertical
one is positive exactly for rays leaving upwards (dip above 90°), and they agree with the homogeneous
table when given its dip. -/
theorem grid_derivatives {v dip : ℝ} (hv : 0 < v) (h0 : 0 ≤ dip) (h1 : dip ≤ 180) :
    ((gridDerivatives v dip).1 / kmOfDegree 0) ^ 2 + (gridDerivatives v dip).2 ^ 2 = (1 / v) ^ 2 ∧
    0 ≤ (gridDerivatives v dip).1 ∧
    (0 < (gridDerivatives v dip).2 ↔ 90 < dip) := by
  have hk := kmOfDegree_pos
  have hpi := Real.pi_pos
  unfold gridDerivatives
  simp only
  set a := degToRad (dip - 90) with ha
  have ha1 : -(Real.pi / 2) ≤ a := by rw [ha, degToRad]; nlinarith
  have ha2 : a ≤ Real.pi / 2 := by rw [ha, degToRad]; nlinarith
  refine ⟨?_, ?_, ?_⟩
  · have : Real.cos a / km2deg v 0 / kmOfDegree 0 = Real.cos a / v := by unfold km2deg; field_simp
    rw [this, div_pow, div_pow, ← add_div, Real.cos_sq_add_sin_sq, one_div, one_div, inv_pow]
  · exact div_nonneg (Real.cos_nonneg_of_mem_Icc ⟨ha1, ha2⟩) (by unfold km2deg; positivity)
  · rw [div_pos_iff_of_pos_right hv]
    constructor
    · intro hs
      by_contra hc
      have : a ≤ 0 := by rw [ha, degToRad]; nlinarith
      exact absurd (Real.sin_nonpos_of_nonpos_of_neg_pi_le this (by linarith)) (not_le.2 hs)
    · intro hd
      apply Real.sin_pos_of_pos_of_lt_pi
      · rw [ha, degToRad]; apply div_pos (mul_pos hpi (by linarith)); norm_num
      · linarith

theorem grid_derivatives_agree {pVel sVel eLat eLon eDepth sLat sLon elev : ℝ} {ph : String} {v : ℝ}
    {r : Ray} (hvel : velocityOf pVel sVel ph = .ok v)
    (hr : homogeneousRay pVel sVel eLat eLon eDepth sLat sLon elev ph = .ok r) :
    gridDerivatives v r.takeOffDip = (r.dtdd, r.dtdh) := by
  unfold homogeneousRay at hr
  simp only [hvel, Outcome.bind_ok, Outcome.pure_eq, Outcome.ok.injEq] at hr
  subst hr
  have : ∀ x, degToRad (radToDeg x + 90 - 90) = x := by
    intro x; unfold degToRad radToDeg
    have := Real.pi_pos
    field_simp; ring
  simp only [gridDerivatives, this]

/-! ## C67: take-off angles -/

theorem trilinear_linear (x y z α β : ℝ) (f g : Bool → Bool → Bool → ℝ) :
    trilinear x y z (fun a b c => α * f a b c + β * g a b c) =
      α * trilinear x y z f + β * trilinear x y z g := by
  unfold trilinear lerp; ring

theorem trilinear_mono {x y z : ℝ} (hx : 0 ≤ x ∧ x ≤ 1) (hy : 0 ≤ y ∧ y ≤ 1) (hz : 0 ≤ z ∧ z ≤ 1)
    {f : Bool → Bool → Bool → ℝ} (hf : ∀ a b c, 0 ≤ f a b c) : 0 ≤ trilinear x y z f := by
  have nn : ∀ {p q t : ℝ}, 0 ≤ t → t ≤ 1 → 0 ≤ p → 0 ≤ q → 0 ≤ lerp p q t := by
    intro p q t h0 h1 hp hq
    have : lerp p q t = (1 - t) * p + t * q := by unfold lerp; ring
    rw [this]
    exact add_nonneg (mul_nonneg (by linarith) hp) (mul_nonneg h0 hq)
  unfold trilinear
  simp only
  refine nn hx.1 hx.2 (nn hy.1 hy.2 ?_ ?_) (nn hy.1 hy.2 ?_ ?_) <;>
    exact nn hz.1 hz.2 (hf _ _ _) (hf _ _ _)

/-- the interpolated angle is normalised -/
theorem cubeAngles_range (x y z : ℝ) (v : Bool → Bool → Bool → ℝ) :
    0 ≤ cubeAngles x y z v ∧ cubeAngles x y z v < 360 := by
  unfold cubeAngles
  simp only
  set θ := atan2 (trilinear x y z fun a b c => Real.sin (degToRad (v a b c)))
    (trilinear x y z fun a b c => Real.cos (degToRad (v a b c)))
  have h1 : -Real.pi < θ := Complex.neg_pi_lt_arg _
  have h2 : θ ≤ Real.pi := Complex.arg_le_pi _
  have hpi := Real.pi_pos
  have r1 : -180 < radToDeg θ := by
    unfold radToDeg; rw [lt_div_iff₀ hpi]; linarith
  have r2 : radToDeg θ ≤ 180 := by
    unfold radToDeg; rw [div_le_iff₀ hpi]; linarith
  split
  · exact ⟨by linarith, by linarith⟩
  · exact ⟨by linarith, by linarith⟩

/-- **C67 (azimuth).** If the eight corner azimuths lie within `w` < 90 degrees of a direction `m`, the
interpolated azimuth does too, up to full turns, also across north. -/
theorem azimuth_within_arc_partial {x y z : ℝ} (hx : 0 ≤ x ∧ x ≤ 1) (hy : 0 ≤ y ∧ y ≤ 1) (hz : 0 ≤ z ∧ z ≤ 1)
    (v : Bool → Bool → Bool → ℝ) (m w : ℝ) (hw : w < 90)
    (hv : ∀ a b c, ∃ n : ℤ, |v a b c + 360 * n - m| ≤ w) :
    ∃ n : ℤ, |cubeAngles x y z v + 360 * n - m| ≤ w := by
  have hpi := Real.pi_pos
  have hw0 : 0 ≤ w := by obtain ⟨n, hn⟩ := hv true true true; exact (abs_nonneg _).trans hn
  set W := degToRad w with hW
  set M := degToRad m with hM
  have hW0 : 0 ≤ W := by rw [hW, degToRad]; positivity
  have hW1 : W < Real.pi / 2 := by rw [hW, degToRad]; nlinarith
  have hcw : 0 < Real.cos W := Real.cos_pos_of_mem_Ioo ⟨by linarith, hW1⟩
  -- every corner, seen from `m`
  have hcorner : ∀ a b c, Real.cos W ≤ Real.cos (degToRad (v a b c) - M) ∧
      |Real.sin (degToRad (v a b c) - M)| * Real.cos W ≤ Real.sin W * Real.cos (degToRad (v a b c) - M) := by
    intro a b c
    obtain ⟨n, hn⟩ := hv a b c
    set t := degToRad (v a b c + 360 * n - m) with ht
    have e : degToRad (v a b c) - M = t - n * (2 * Real.pi) := by
      rw [ht, hM]; unfold degToRad; ring
    have htw : |t| ≤ W := by
      have : |t| = degToRad |v a b c + 360 * n - m| := by
        rw [ht]; unfold degToRad; rw [abs_div, abs_mul, abs_of_pos hpi]; norm_num
      rw [this, hW]; unfold degToRad
      have := mul_le_mul_of_nonneg_left hn hpi.le
      linarith
    rw [e, Real.cos_sub_int_mul_two_pi, Real.sin_sub_int_mul_two_pi]
    have hct : Real.cos W ≤ Real.cos t := by
      rw [← Real.cos_abs t]
      exact Real.cos_le_cos_of_nonneg_of_le_pi (abs_nonneg _) (by linarith) htw
    refine ⟨hct, ?_⟩
    have hs : |Real.sin t| = Real.sin |t| := by
      rcases le_total 0 t with h | h
      · rw [abs_of_nonneg h] at htw ⊢
        exact abs_of_nonneg (Real.sin_nonneg_of_nonneg_of_le_pi h (by linarith))
      · rw [abs_of_nonpos h] at htw ⊢
        rw [Real.sin_neg]
        exact abs_of_nonpos (Real.sin_nonpos_of_nonpos_of_neg_pi_le h (by linarith))
    rw [hs, ← Real.cos_abs t]
    have := Real.sin_nonneg_of_nonneg_of_le_pi (sub_nonneg.2 htw) (by linarith [abs_nonneg t])
    rw [Real.sin_sub] at this
    linarith
  set C := trilinear x y z (fun a b c => Real.cos (degToRad (v a b c))) with hC
  set S := trilinear x y z (fun a b c => Real.sin (degToRad (v a b c))) with hS
  -- rotated components
  have hc' : trilinear x y z (fun a b c => Real.cos (degToRad (v a b c) - M)) =
      Real.cos M * C + Real.sin M * S := by
    rw [hC, hS, ← trilinear_linear]
    congr 1; funext a b c; rw [Real.cos_sub]; ring
  have hs' : trilinear x y z (fun a b c => Real.sin (degToRad (v a b c) - M)) =
      Real.cos M * S + -Real.sin M * C := by
    rw [hC, hS, ← trilinear_linear]
    congr 1; funext a b c; rw [Real.sin_sub]; ring
  set c' := Real.cos M * C + Real.sin M * S with hc'd
  set s' := Real.cos M * S + -Real.sin M * C with hs'd
  have hcpos : Real.cos W ≤ c' := by
    rw [← hc']
    exact (trilinear_mem (lo := Real.cos W) (hi := 1) _ hx.1 hx.2 hy.1 hy.2 hz.1 hz.2
      (fun a b c => ⟨(hcorner a b c).1, Real.cos_le_one _⟩)).1
  have c0 : 0 < c' := lt_of_lt_of_le hcw hcpos
  have hup : s' * Real.cos W ≤ Real.sin W * c' := by
    have := trilinear_mono hx hy hz (f := fun a b c => Real.sin W * Real.cos (degToRad (v a b c) - M) +
      -Real.cos W * Real.sin (degToRad (v a b c) - M)) (fun a b c => by
        have h1 := (hcorner a b c).2
        have h2 := mul_le_mul_of_nonneg_right (le_abs_self (Real.sin (degToRad (v a b c) - M))) hcw.le
        linarith)
    rw [trilinear_linear, hc', hs'] at this
    linarith
  have hlow : -(Real.sin W * c') ≤ s' * Real.cos W := by
    have := trilinear_mono hx hy hz (f := fun a b c => Real.sin W * Real.cos (degToRad (v a b c) - M) +
      Real.cos W * Real.sin (degToRad (v a b c) - M)) (fun a b c => by
        have h1 := (hcorner a b c).2
        have h2 := mul_le_mul_of_nonneg_right (neg_abs_le (Real.sin (degToRad (v a b c) - M))) hcw.le
        linarith)
    rw [trilinear_linear, hc', hs'] at this
    linarith
  -- the angle of the rotated vector
  set φ := Real.arctan (s' / c') with hφ
  have htan : s' / c' ≤ Real.tan W ∧ -Real.tan W ≤ s' / c' := by
    rw [Real.tan_eq_sin_div_cos]
    constructor
    · rw [div_le_div_iff₀ c0 hcw]; exact hup
    · rw [← neg_div, div_le_div_iff₀ hcw c0]; linarith
  have hφ1 : φ ≤ W := by
    rw [hφ, ← Real.arctan_tan (by linarith : -(Real.pi / 2) < W) hW1]
    exact Real.arctan_mono htan.1
  have hφ2 : -W ≤ φ := by
    rw [hφ, ← Real.arctan_tan (by linarith : -(Real.pi / 2) < W) hW1, ← Real.arctan_neg]
    exact Real.arctan_mono htan.2
  -- radius
  have hnorm : c' ^ 2 + s' ^ 2 = C ^ 2 + S ^ 2 := by
    have := Real.sin_sq_add_cos_sq M
    rw [hc'd, hs'd]; linear_combination (C ^ 2 + S ^ 2) * this
  have hne : C ^ 2 + S ^ 2 ≠ 0 := by rw [← hnorm]; positivity
  set ρ := Real.sqrt (C ^ 2 + S ^ 2) with hρ
  have hρ0 : 0 < ρ := Real.sqrt_pos.2 (lt_of_le_of_ne (by positivity) hne.symm)
  have hφc : Real.cos φ = c' / ρ := by
    rw [hφ, Real.cos_arctan]
    have : Real.sqrt (1 + (s' / c') ^ 2) = ρ / c' := by
      rw [Real.sqrt_eq_iff_mul_self_eq_of_pos (div_pos hρ0 c0)]
      have hρs : ρ * ρ = C ^ 2 + S ^ 2 := Real.mul_self_sqrt (by positivity)
      field_simp
      rw [pow_two ρ, hρs, ← hnorm]
    rw [this, one_div, inv_div]
  have hφs : Real.sin φ = s' / ρ := by
    have h1 : Real.sin φ = Real.tan φ * Real.cos φ := by
      rw [Real.tan_mul_cos (Real.cos_arctan_pos _).ne']
    rw [h1, hφc, hφ, Real.tan_arctan]; field_simp
  set ψ := atan2 S C with hψ
  have hψc : Real.cos ψ = C / ρ := cos_atan2 hne
  have hψs : Real.sin ψ = S / ρ := sin_atan2 C S
  have hsc := Real.sin_sq_add_cos_sq M
  have hang : ((φ + M : ℝ) : Real.Angle) = (ψ : ℝ) := by
    apply Real.Angle.cos_sin_inj
    · rw [Real.cos_add, hφc, hφs, hψc, hc'd, hs'd]; field_simp
      linear_combination C * hsc
    · rw [Real.sin_add, hφc, hφs, hψs, hc'd, hs'd]; field_simp
      linear_combination S * hsc
  obtain ⟨k, hk⟩ := Real.Angle.angle_eq_iff_two_pi_dvd_sub.1 hang
  have hdeg : radToDeg ψ = radToDeg φ + m - 360 * k := by
    have e1 : ψ = φ + M - 2 * Real.pi * k := by linarith
    rw [e1, hM]; unfold radToDeg degToRad; field_simp; ring
  have hφw : |radToDeg φ| ≤ w := by
    have e1 : w = radToDeg W := by rw [hW]; unfold radToDeg degToRad; field_simp
    rw [e1, abs_le]
    unfold radToDeg
    refine ⟨?_, div_le_div_of_nonneg_right (by linarith) hpi.le⟩
    rw [← neg_div]
    exact div_le_div_of_nonneg_right (by linarith) hpi.le
  unfold cubeAngles
  simp only [← hC, ← hS, ← hψ]
  split
  · refine ⟨k - 1, ?_⟩
    have : radToDeg ψ + 360 + 360 * ((k - 1 : ℤ) : ℝ) - m = radToDeg φ := by rw [hdeg]; push_cast; ring
    rw [this]; exact hφw
  · refine ⟨k, ?_⟩
    have : radToDeg ψ + 360 * (k : ℝ) - m = radToDeg φ := by rw [hdeg]; ring
    rw [this]; exact hφw

/-- non-vacuity: azimuths 350 and 10 lie within 15 degrees of north -/
example : ∀ a b c : Bool, ∃ n : ℤ, |(if a then (350 : ℝ) else 10) + 360 * n - 0| ≤ 15 := by
  intro a b c
  cases a
  · exact ⟨0, by norm_num⟩
  · exact ⟨-1, by norm_num⟩

/-- **C67 (exact at nodes).** At a corner of the cell the interpolated azimuth is the azimuth of the
corner (for azimuths in [0,360)). -/
theorem azimuth_exact_at_nodes (v : Bool → Bool → Bool → ℝ) (a b c : Bool)
    (h0 : 0 ≤ v a b c) (h1 : v a b c < 360) :
    cubeAngles (if a then 1 else 0) (if b then 1 else 0) (if c then 1 else 0) v = v a b c := by
  have pick : ∀ f : Bool → Bool → Bool → ℝ,
      trilinear (if a then 1 else 0) (if b then 1 else 0) (if c then 1 else 0) f = f a b c := by
    intro f
    cases a <;> cases b <;> cases c <;> simp [trilinear, lerp]
  have same : cubeAngles (if a then 1 else 0) (if b then 1 else 0) (if c then 1 else 0) v =
      cubeAngles (if a then 1 else 0) (if b then 1 else 0) (if c then 1 else 0) (fun _ _ _ => v a b c) := by
    unfold cubeAngles; simp only [pick]
  obtain ⟨n, hn⟩ := azimuth_within_arc_partial (x := if a then 1 else 0) (y := if b then 1 else 0)
    (z := if c then 1 else 0) (by cases a <;> norm_num) (by cases b <;> norm_num)
    (by cases c <;> norm_num) (fun _ _ _ => v a b c) (v a b c) 0 (by norm_num)
    (fun _ _ _ => ⟨0, by simp⟩)
  rw [← same] at hn
  have hr := cubeAngles_range (if a then 1 else 0) (if b then 1 else 0) (if c then 1 else 0) v
  have hz := abs_eq_zero.1 (le_antisymm hn (abs_nonneg _))
  have hn0 : n = 0 := by
    have h2 : (n : ℝ) < 1 := by linarith
    have h3 : (-1 : ℝ) < n := by linarith
    have h4 : n < 1 := by exact_mod_cast h2
    have h5 : -1 < n := by exact_mod_cast h3
    omega
  rw [hn0] at hz
  simp at hz; linarith

/-- **C67 (constant field).** Equal corner azimuths give that azimuth everywhere in the cell. -/
theorem azimuth_constant {x y z : ℝ} (hx : 0 ≤ x ∧ x ≤ 1) (hy : 0 ≤ y ∧ y ≤ 1) (hz : 0 ≤ z ∧ z ≤ 1)
    {A : ℝ} (h0 : 0 ≤ A) (h1 : A < 360) : cubeAngles x y z (fun _ _ _ => A) = A := by
  have : cubeAngles x y z (fun _ _ _ => A) =
      cubeAngles (if true then 1 else 0) (if true then 1 else 0) (if true then 1 else 0) (fun _ _ _ => A) := by
    have : ∀ (x y z : ℝ) (r : ℝ), trilinear x y z (fun _ _ _ => r) = r := by
      intro x y z r; simp [trilinear, lerp]
    unfold cubeAngles; simp only [this]
  rw [this]
  exact azimuth_exact_at_nodes (fun _ _ _ => A) true true true h0 h1

/-- **C67 (negative).** Half way between opposite azimuths the components cancel and the result is 0
(north) whatever the two azimuths are: here east and west. -/
theorem azimuth_opposite_is_north :
    ∃ v : Bool → Bool → Bool → ℝ, (∀ a b c, v a b c = 90 ∨ v a b c = 270) ∧
      cubeAngles (1 / 2) 0 0 v = 0 := by
  refine ⟨fun a _ _ => if a then 90 else 270, fun a b c => by cases a <;> simp, ?_⟩
  have h90 : degToRad 90 = Real.pi / 2 := by unfold degToRad; ring
  have h270 : degToRad 270 = Real.pi + Real.pi / 2 := by unfold degToRad; ring
  unfold cubeAngles
  simp only [trilinear, lerp, if_true, Bool.false_eq_true, if_false, h90, h270]
  have c1 : Real.cos (Real.pi + Real.pi / 2) = 0 := by rw [Real.cos_add]; simp
  have s1 : Real.sin (Real.pi + Real.pi / 2) = -1 := by rw [Real.sin_add]; simp
  rw [c1, s1, Real.cos_pi_div_two, Real.sin_pi_div_two]
  have : atan2 (-1 + 0 * (-1 - -1) + 0 * (-1 + 0 * (-1 - -1) - (-1 + 0 * (-1 - -1))) +
      1 / 2 * (1 + 0 * (1 - 1) + 0 * (1 + 0 * (1 - 1) - (1 + 0 * (1 - 1))) -
        (-1 + 0 * (-1 - -1) + 0 * (-1 + 0 * (-1 - -1) - (-1 + 0 * (-1 - -1))))))
      (0 + 0 * (0 - 0) + 0 * (0 + 0 * (0 - 0) - (0 + 0 * (0 - 0))) +
      1 / 2 * (0 + 0 * (0 - 0) + 0 * (0 + 0 * (0 - 0) - (0 + 0 * (0 - 0))) -
        (0 + 0 * (0 - 0) + 0 * (0 + 0 * (0 - 0) - (0 + 0 * (0 - 0)))))) = 0 := by
    have e : ∀ p q : ℝ, p = 0 → q = 0 → atan2 p q = 0 := by
      intro p q hp hq; subst hp; subst hq
      rw [atan2]; exact Complex.arg_zero
    apply e <;> norm_num
  rw [this]; simp [radToDeg]

/-- **C67 (dip and quality).** The interpolated dip lies between the smallest and the largest corner dip,
and the angle is rejected exactly when one of the corners has a quality below the cut-off. -/
theorem dip_and_quality (c : Cell3 ℝ Angles) (hx : 0 ≤ c.xdiff ∧ c.xdiff ≤ 1)
    (hy : 0 ≤ c.ydiff ∧ c.ydiff ≤ 1) (hz : 0 ≤ c.zdiff ∧ c.zdiff ≤ 1) {lo hi : Nat} (hhi : hi < 2 ^ 12)
    (hd : ∀ a b d, lo ≤ (c.v a b d).dip ∧ (c.v a b d).dip ≤ hi)
    (hq : ∀ a b d, (c.v a b d).quality < 2 ^ 4) (f : Frame) (cutoff : Nat) :
    (lo ≤ (interpolateAngles c).dip ∧ (interpolateAngles c).dip ≤ hi) ∧
    (convertAngles f cutoff (interpolateAngles c) = .throws ↔ ∃ a b d, (c.v a b d).quality < cutoff) := by
  constructor
  · have hm := trilinear_mem (lo := (lo : ℝ)) (hi := (hi : ℝ)) (fun a b d => ((c.v a b d).dip : ℝ))
      hx.1 hx.2 hy.1 hy.2 hz.1 hz.2
      (fun a b d => ⟨Nat.cast_le.2 (hd a b d).1, Nat.cast_le.2 (hd a b d).2⟩)
    have h1 : lo ≤ ⌊trilinear c.xdiff c.ydiff c.zdiff (fun a b d => ((c.v a b d).dip : ℝ))⌋₊ :=
      Nat.le_floor hm.1
    have h2 : ⌊trilinear c.xdiff c.ydiff c.zdiff (fun a b d => ((c.v a b d).dip : ℝ))⌋₊ ≤ hi := by
      have := Nat.floor_le_floor hm.2
      rwa [Nat.floor_natCast] at this
    simp only [interpolateAngles]
    rw [Nat.mod_eq_of_lt (by omega)]
    exact ⟨h1, h2⟩
  · have hl : least (fun a b d => (c.v a b d).quality) < 2 ^ 4 := by
      refine lt_of_le_of_lt ?_ (hq false false false)
      unfold least; simp only; omega
    have hiff : least (fun a b d => (c.v a b d).quality) < cutoff ↔
        ∃ a b d, (c.v a b d).quality < cutoff := by
      unfold least
      simp only [min_lt_iff, Bool.exists_bool]
    unfold convertAngles interpolateAngles
    simp only
    rw [Nat.mod_eq_of_lt hl, ← hiff]
    by_cases hc : least (fun a b d => (c.v a b d).quality) < cutoff
    · simp only [hc, if_true]
    · simp only [hc, if_false, reduceCtorEq]

/-- non-vacuity -/
example : ∃ c : Cell3 ℝ Angles, (∀ a b d, 900 ≤ (c.v a b d).dip ∧ (c.v a b d).dip ≤ 1000) ∧
    (∀ a b d, (c.v a b d).quality < 2 ^ 4) ∧ ∃ a b d, (c.v a b d).quality < 5 :=
  ⟨⟨1/2, 1/3, 1/4, fun a _ _ => ⟨if a then 3 else 9, if a then 900 else 1000, 0⟩⟩,
    fun a b d => by cases a <;> simp, fun a b d => by cases a <;> simp,
    ⟨true, true, true, by simp⟩⟩

/-- **C67 (bit fields).** Every combination of quality, dip and azimuth survives storage in the four
bytes of a node. -/
theorem angles_roundtrip (a : Angles) (hq : a.quality < 2 ^ 4) (hd : a.dip < 2 ^ 12)
    (ha : a.azimuth < 2 ^ 16) :
    decodeAngles [(a.quality + 16 * (a.dip % 16)).toUInt8, (a.dip / 16).toUInt8,
      (a.azimuth % 256).toUInt8, (a.azimuth / 256).toUInt8] = a := by
  obtain ⟨q, d, z⟩ := a
  simp only at hq hd ha
  simp only [decodeAngles, UInt8.toNat_ofNat', Nat.toUInt8, UInt8.toNat_ofNat]
  congr 1 <;> omega

example : decodeAngles [0x96, 0x0F, 0x33, 0xCC] = ⟨6, 0xF9, 0xCC33⟩ := by decide

end Verif.TravelTime
