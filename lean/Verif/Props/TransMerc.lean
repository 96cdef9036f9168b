import Verif.Props.MapProject
import Verif.Proofs.TransMerc
import Verif.Spec.Meridian
import Mathlib.MeasureTheory.Integral.IntervalIntegral.FundThmCalculus
import Mathlib.Analysis.Real.Pi.Bounds

/-!
# C44, TRANS_MERC on the central meridian of every ellipsoid
-/

set_option linter.unusedSimpArgs false

namespace Verif.Geo
open Real Verif.MeridianSpec

/-- **C44, TRANS_MERC.** On the central meridian a position comes back within 10⁻⁷ degrees of latitude (about a
centimetre), for every latitude, ellipsoid, rotation, false easting and scale factor other than 0; its longitude comes
back exactly. -/
theorem transverse_mercator_meridian_round_trip {name : String} {orgLat orgLong rot : ℝ} {b : Bool} {fe : ℤ} {k : ℝ}
    {tr : Frame × TransMerc} (hm : transMercMake name orgLat orgLong rot b fe k = .ok tr) (hk : k ≠ 0) (lat : ℝ) :
    |(transMercTo tr (transMercFrom tr lat orgLong)).1 - lat| ≤ 1 / 10000000 ∧
    (transMercTo tr (transMercFrom tr lat orgLong)).2 = normalizeLon orgLong := by
  refine ⟨?_, (transverse_mercator_meridian_partial hm hk lat).1⟩
  obtain ⟨hf, hv⟩ := transMercMake_ok hm
  obtain ⟨he, hcm, hsf, -, -⟩ := vtm_ok hv
  obtain ⟨⟨n, hn⟩, hr, -⟩ := vtm_coefficients hv
  rw [transMerc_cancel hf, ← hcm, tm_meridian, itm_meridian]
  simp only
  rw [sub_add_cancel, hsf, mul_div_cancel_left₀ _ hk]
  have h := foot_arc hn (by linarith) (lat * d2r)
  have hd := d2r_r2d
  have e : tr.2.foot (tr.2.arc (lat * d2r) / (tr.2.e.eqRad * tr.2.c1)) * r2d - lat =
      (tr.2.foot (tr.2.arc (lat * d2r) / (tr.2.e.eqRad * tr.2.c1)) - lat * d2r) * r2d := by
    linear_combination lat * hd
  have hr0 := r2d_pos
  have hr60 : r2d < 60 := by
    unfold r2d; rw [div_lt_iff₀ pi_pos]; linarith [pi_gt_three]
  rw [e, abs_mul, abs_of_pos hr0]
  have h4 : n^4 ≤ (1/585)^4 := pow_le_pow_left₀ hn.low hn.high 4
  calc _ ≤ 115 * (1/585)^4 * 60 := mul_le_mul (h.trans (by linarith)) hr60.le hr0.le (by positivity)
    _ ≤ _ := by norm_num

theorem ellipsoid_find {name : String} {a f : ℝ} (h : (name, a, f) ∈ ellipsoids) :
    ellipsoids.find? (fun e => e.1 == name) = some (name, a, f) := by
  simp only [ellipsoids, List.mem_cons, List.not_mem_nil, or_false, Prod.mk.injEq] at h
  rcases h with h | h | h | h | h | h | h | h | h | h | h | h | h | h | h <;> obtain ⟨rfl, rfl, rfl⟩ := h <;>
    simp [ellipsoids, List.find?]

/-- **C44, TRANS_MERC.** The northing of a position on the central meridian is the length of the meridian between the
origin and the position, times the scale factor, in kilometres: true to two millimetres per degree of latitude.  `a` and
`f` are the equatorial radius and the flattening the table of ellipsoids gives for the name. -/
theorem transverse_mercator_northing {name : String} {a f orgLat orgLong : ℝ} {b : Bool} {fe : ℤ} {k : ℝ}
    {tr : Frame × TransMerc} (hell : (name, a, f) ∈ ellipsoids)
    (hm : transMercMake name orgLat orgLong 0 b fe k = .ok tr) (lat : ℝ) :
    (transMercFrom tr lat orgLong).1 = (if b then (fe : ℝ) / 1000 else 0) ∧
    |(transMercFrom tr lat orgLong).2 * 1000 - k * arcLength a f orgLat lat| ≤ |k| * (|lat - orgLat| * (2 / 1000)) := by
  obtain ⟨hf, hv⟩ := transMercMake_ok hm
  obtain ⟨he, hcm, hsf, hb, hfe⟩ := vtm_ok hv
  obtain ⟨⟨n, hn⟩, hr, hr'⟩ := vtm_coefficients hv
  have hfr : tr.1.cosang = 1 ∧ tr.1.sinang = 0 := by
    have u := Frame.unit hf
    have h : Frame.make orgLat orgLong 0 = .ok ⟨orgLat, orgLong, 0, cos (-degToRad 0), sin (-degToRad 0)⟩ := by
      unfold Frame.make
      rw [if_neg (by push Not; exact ⟨u.2.2.2.2.2.1, u.2.2.2.2.1⟩),
        if_neg (by push Not; exact ⟨u.2.2.2.2.2.2.2.1, u.2.2.2.2.2.2.1⟩), if_neg (by norm_num)]
    rw [h] at hf
    injection hf with hf
    rw [← hf]
    simp [degToRad]
  have hea : tr.2.e.eqRad = a ∧ tr.2.e.ecc2 = 1 - (1-f)^2 := by
    unfold mapSetup at he
    rw [ellipsoid_find hell] at he
    injection he with he
    rw [← he]
    exact ⟨rfl, by simp only; ring⟩
  have hfrom : transMercFrom tr lat orgLong = (if b then (fe : ℝ) / 1000 else 0,
      k * (tr.2.arc (lat * d2r) - tr.2.arc (orgLat * d2r)) / 1000) := by
    unfold transMercFrom
    rw [← hcm, tm_meridian, vtm_central hv, hsf, hb, hfe]
    simp only [Frame.rotate, hfr.1, hfr.2]
    cases b <;> simp <;> ring
  rw [hfrom]
  refine ⟨rfl, ?_⟩
  simp only
  rw [div_mul_cancel₀ _ (by norm_num : (1000 : ℝ) ≠ 0), ← mul_sub, abs_mul]
  refine mul_le_mul_of_nonneg_left ?_ (abs_nonneg _)
  -- the radius of curvature and its expansion
  have hq0 : 0 ≤ tr.2.e.ecc2 := by
    rw [hn.ecc2]; have := hn.low; positivity
  have hq1 : tr.2.e.ecc2 ≤ 4/585 := by
    rw [hn.ecc2, div_le_iff₀ (by have := hn.low; positivity)]
    nlinarith only [hn.low, hn.high]
  have hs : ∀ t : ℝ, 0 ≤ sin t^2 ∧ sin t^2 ≤ 1 := fun t => ⟨sq_nonneg _, sin_sq_le_one t⟩
  have hcr : ∀ t, curvatureRadius a f t = tr.2.e.eqRad * ((1 - tr.2.e.ecc2) / √(1 - tr.2.e.ecc2 * sin t^2)^3) := by
    intro t
    unfold curvatureRadius
    rw [hea.1, hea.2]
    ring
  have hpos : ∀ t : ℝ, 0 < 1 - tr.2.e.ecc2 * sin t^2 := fun t => by nlinarith [(hs t).1, (hs t).2]
  have hcont : Continuous fun t => curvatureRadius a f t := by
    have : (fun t => curvatureRadius a f t) =
        fun t => tr.2.e.eqRad * ((1 - tr.2.e.ecc2) / √(1 - tr.2.e.ecc2 * sin t^2)^3) := funext hcr
    rw [this]
    refine continuous_const.mul (continuous_const.div ?_ fun t => ?_)
    · exact (continuous_sqrt.comp (continuous_const.sub (continuous_const.mul (continuous_sin.pow 2)))).pow 3
    · exact pow_ne_zero _ (Real.sqrt_pos.2 (hpos t)).ne'
  have hcont' : Continuous fun t => tr.2.e.eqRad * expansion tr.2.e.ecc2 (sin t^2) := by
    unfold expansion
    fun_prop
  have hint : tr.2.arc (lat * d2r) - tr.2.arc (orgLat * d2r) =
      ∫ t in (orgLat * d2r)..(lat * d2r), tr.2.e.eqRad * expansion tr.2.e.ecc2 (sin t^2) :=
    (intervalIntegral.integral_eq_sub_of_hasDerivAt (fun t _ => arc_deriv hn t) (hcont'.intervalIntegrable _ _)).symm
  unfold arcLength
  rw [hint, show (π / 180 : ℝ) = d2r from rfl,
    ← intervalIntegral.integral_sub (hcont'.intervalIntegrable _ _) (hcont.intervalIntegrable _ _), ← Real.norm_eq_abs]
  refine (intervalIntegral.norm_integral_le_of_norm_le_const (C := 1/14) fun t _ => ?_).trans ?_
  · rw [hcr, ← mul_sub, Real.norm_eq_abs, abs_mul, abs_of_nonneg (by linarith), abs_sub_comm]
    have h := curvature_expansion hq0 (by linarith) (hs t).1 (hs t).2
    have h4 : tr.2.e.ecc2^4 ≤ (4/585)^4 := pow_le_pow_left₀ hq0 hq1 4
    calc _ ≤ 6400000 * (5 * (4/585)^4) := mul_le_mul hr' (h.trans (by linarith)) (abs_nonneg _) (by norm_num)
      _ ≤ _ := by norm_num
  · rw [← sub_mul, abs_mul, abs_of_pos (by unfold d2r; have := pi_pos; positivity : 0 < d2r)]
    have hd : d2r ≤ 0.0175 := by unfold d2r; linarith [pi_lt_d2]
    nlinarith only [hd, abs_nonneg (lat - orgLat)]

/-- a UTM-like grid -/
example : ∃ tr, transMercMake "International" 46.5 8 0 true 500000 0.9996 = .ok tr ∧
    |(transMercTo tr (transMercFrom tr 47.25 8)).1 - 47.25| ≤ 1 / 10000000 ∧
    |(transMercFrom tr 47.25 8).2 * 1000 - 0.9996 * arcLength 6378388 (1/297) 46.5 47.25| ≤ 0.002 := by
  obtain ⟨f, hf⟩ := frame_ok (orgLat := 46.5) (orgLong := 8) (rot := 0) (by norm_num)
  have : ∃ tr, transMercMake "International" 46.5 8 0 true 500000 0.9996 = .ok tr := by
    unfold transMercMake
    rw [hf]
    exact ⟨_, rfl⟩
  obtain ⟨tr, h⟩ := this
  refine ⟨tr, h, (transverse_mercator_meridian_round_trip h (by norm_num) _).1, ?_⟩
  refine (transverse_mercator_northing (a := 6378388) (f := 1/297) (by simp [ellipsoids]) h 47.25).2.trans ?_
  norm_num [abs_of_pos]

end Verif.Geo
