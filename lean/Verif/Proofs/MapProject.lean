import Verif.Model.MapProject
import Verif.Proofs.Transform
import Mathlib.Analysis.SpecialFunctions.Trigonometric.ArctanDeriv
import Mathlib.Analysis.SpecialFunctions.Trigonometric.Bounds
import Mathlib.Analysis.SpecialFunctions.Log.Deriv
import Mathlib.Analysis.Calculus.MeanValue
import Mathlib.Analysis.Real.Pi.Bounds

/-!
# Lemmas for the map projections (C44)
-/

set_option linter.unusedSectionVars false
set_option linter.unusedSimpArgs false

namespace Verif.Geo
open Real

theorem d2r_pos : 0 < d2r := by unfold d2r; have := pi_pos; positivity
theorem r2d_pos : 0 < r2d := by unfold r2d; have := pi_pos; positivity
theorem d2r_r2d : d2r * r2d = 1 := by unfold d2r r2d; have := pi_pos; field_simp
theorem mul_d2r (x : ℝ) : x * d2r = degToRad x := by unfold d2r degToRad; ring
theorem quarter_d2r : 45 * d2r = π / 4 := by unfold d2r; ring
theorem right_d2r : 90 * d2r = π / 2 := by unfold d2r; ring
theorem half_d2r : 180 * d2r = π := by unfold d2r; ring

theorem dSqrt_eq (x : ℝ) : dSqrt x = √x := by
  unfold dSqrt
  split
  · rw [sqrt_eq_zero_of_nonpos (by linarith)]
  · rfl

theorem mapSetup_ok {name : String} {e : Ellip} (h : mapSetup name = .ok e) :
    0 < e.eqRad ∧ 0 ≤ e.ecc2 ∧ e.ecc2 ≤ 0.007 ∧ 0 ≤ e.ecc ∧ e.ecc ^ 2 = e.ecc2 := by
  unfold mapSetup at h
  split at h
  · cases h
  · rename_i n r f hf
    have hm := List.mem_of_find?_eq_some hf
    have key : 0 < r ∧ 0 ≤ 2 * f - f * f ∧ 2 * f - f * f ≤ 0.007 := by
      simp only [ellipsoids, List.mem_cons, Prod.mk.injEq, List.not_mem_nil, or_false] at hm
      rcases hm with h | h | h | h | h | h | h | h | h | h | h | h | h | h | h <;>
        (obtain ⟨-, rfl, rfl⟩ := h; norm_num)
    cases h
    refine ⟨key.1, key.2.1, key.2.2, ?_, ?_⟩
    · rw [dSqrt_eq]; exact sqrt_nonneg _
    · simp only [dSqrt_eq]; exact sq_sqrt key.2.1

theorem mapSetup_lt_one {name : String} {e : Ellip} (h : mapSetup name = .ok e) : e.ecc < 1 := by
  obtain ⟨-, -, h2, h3, h4⟩ := mapSetup_ok h
  nlinarith

theorem turnUp_spec (cm lon : ℝ) :
    SameAngle (turnUp cm lon) lon ∧ -180 ≤ turnUp cm lon - cm ∧ (-180 ≤ lon - cm → turnUp cm lon = lon) ∧
    (lon - cm < -180 → turnUp cm lon - cm < 180) := by
  induction lon using turnUp.induct (cm := cm) with
  | case1 lon h ih =>
    rw [turnUp, if_pos h]
    obtain ⟨h1, h2, h3, h4⟩ := ih
    refine ⟨h1.trans ⟨1, by push_cast; ring⟩, h2, fun h' => absurd h' (by linarith), fun _ => ?_⟩
    by_cases hc : -180 ≤ lon + 360 - cm
    · rw [h3 hc]; linarith
    · exact h4 (by linarith)
  | case2 lon h =>
    rw [turnUp, if_neg h]
    exact ⟨.refl _, by linarith, fun _ => rfl, fun h' => absurd h' h⟩

theorem turnDown_spec (cm lon : ℝ) (h0 : -180 ≤ lon - cm) :
    SameAngle (turnDown cm lon) lon ∧ -180 ≤ turnDown cm lon - cm ∧ turnDown cm lon - cm ≤ 180 := by
  induction lon using turnDown.induct (cm := cm) with
  | case1 lon h ih =>
    rw [turnDown, if_pos h]
    obtain ⟨h1, h2, h3⟩ := ih (by linarith)
    exact ⟨h1.trans ⟨-1, by push_cast; ring⟩, h2, h3⟩
  | case2 lon h =>
    rw [turnDown, if_neg h]
    exact ⟨.refl _, h0, by linarith⟩

/-- the longitude used by the projections: the same meridian, within half a turn of the origin -/
theorem turn_spec (cm lon : ℝ) :
    SameAngle (turnDown cm (turnUp cm lon)) lon ∧ -180 ≤ turnDown cm (turnUp cm lon) - cm ∧
    turnDown cm (turnUp cm lon) - cm ≤ 180 := by
  obtain ⟨h1, h2, -, -⟩ := turnUp_spec cm lon
  obtain ⟨h3, h4, h5⟩ := turnDown_spec cm _ h2
  exact ⟨h3.trans h1, h4, h5⟩

/-! ## Azimuthal equidistant -/

theorem atan2_polar {r a : ℝ} (hr : 0 < r) (h1 : -π < a) (h2 : a ≤ π) : atan2 (r * sin a) (r * cos a) = a := by
  unfold atan2
  have e : (⟨r * cos a, r * sin a⟩ : ℂ) = r * (Complex.cos a + Complex.sin a * Complex.I) := by
    apply Complex.ext
    · simp [Complex.cos_ofReal_re, Complex.sin_ofReal_im]
    · simp [Complex.sin_ofReal_re, Complex.cos_ofReal_im]
  rw [e]
  exact Complex.arg_mul_cos_add_sin_mul_I hr ⟨h1, h2⟩

/-- at the edge -π the result is π, the same angle -/
theorem atan2_polar' {r a : ℝ} (hr : 0 < r) (h1 : -π ≤ a) (h2 : a ≤ π) :
    SameAngle (r2d * atan2 (r * sin a) (r * cos a)) (r2d * a) := by
  rcases eq_or_lt_of_le h1 with h | h
  · have e1 : sin a = sin π := by rw [← h, sin_neg, sin_pi]; simp
    have e2 : cos a = cos π := by rw [← h, cos_neg]
    rw [e1, e2, atan2_polar hr (by linarith [pi_pos]) le_rfl, ← h]
    refine ⟨1, ?_⟩
    unfold r2d
    have := pi_pos
    field_simp
    push_cast
    ring
  · rw [atan2_polar hr h h2]; exact .refl _

/-- the result of the forward projection in terms of the angle `c` from the origin -/
theorem azeqdist_spec {p : AziEqdist} (hR : 0 < p.e.eqRad) (hp : p.sinp ^ 2 + p.cosp ^ 2 = 1)
    {sl cl sd cd : ℝ} (hl : sl ^ 2 + cl ^ 2 = 1) (hd : sd ^ 2 + cd ^ 2 = 1)
    {c : ℝ} (hc0 : 0 < c) (hcp : c < π) (hc : cos c = p.sinp * sl + p.cosp * cl * cd)
    {x y : ℝ} (hx : x = p.e.eqRad * c / sin c * cl * sd)
    (hy : y = p.e.eqRad * c / sin c * (p.cosp * sl - p.sinp * cl * cd)) :
    √(x ^ 2 + y ^ 2) = p.e.eqRad * c ∧
    cos c * p.sinp + y * sin c * p.cosp / (p.e.eqRad * c) = sl ∧
    x * sin c = p.e.eqRad * c * cl * sd ∧
    p.e.eqRad * c * p.cosp * cos c - y * p.sinp * sin c = p.e.eqRad * c * cl * cd := by
  have hs : 0 < sin c := sin_pos_of_pos_of_lt_pi hc0 hcp
  have hs2 : sin c ^ 2 = 1 - cos c ^ 2 := by have := sin_sq_add_cos_sq c; linarith
  have hRc : 0 < p.e.eqRad * c := mul_pos hR hc0
  have hy' : y * sin c = p.e.eqRad * c * (p.cosp * sl - p.sinp * cl * cd) := by
    rw [hy]; field_simp
  have hx' : x * sin c = p.e.eqRad * c * cl * sd := by rw [hx]; field_simp
  have hsq : x ^ 2 + y ^ 2 = (p.e.eqRad * c) ^ 2 := by
    have h1 : (x ^ 2 + y ^ 2) * sin c ^ 2 = (p.e.eqRad * c) ^ 2 * sin c ^ 2 := by
      have : (x ^ 2 + y ^ 2) * sin c ^ 2 = (x * sin c) ^ 2 + (y * sin c) ^ 2 := by ring
      rw [this, hx', hy', hs2, hc]
      have : (cl * sd) ^ 2 + (p.cosp * sl - p.sinp * cl * cd) ^ 2 =
          1 - (p.sinp * sl + p.cosp * cl * cd) ^ 2 := by
        linear_combination cl ^ 2 * hd + hl + (sl ^ 2 + cl ^ 2 * cd ^ 2) * hp
      linear_combination (p.e.eqRad * c) ^ 2 * this
    exact mul_right_cancel₀ (pow_pos hs 2).ne' h1
  refine ⟨?_, ?_, hx', ?_⟩
  · rw [hsq, sqrt_sq hRc.le]
  · rw [hy', hc]
    have : p.e.eqRad * c * (p.cosp * sl - p.sinp * cl * cd) * p.cosp / (p.e.eqRad * c) =
      (p.cosp * sl - p.sinp * cl * cd) * p.cosp := by field_simp
    rw [this]
    linear_combination sl * hp
  · have : y * p.sinp * sin c = y * sin c * p.sinp := by ring
    rw [this, hy', hc]
    linear_combination (p.e.eqRad * c) * cl * cd * hp

/-- the cosine of the angle between two positions is 1 only if they are the same, -1 only if they are opposite -/
theorem cos_angle_one {a b d : ℝ} (ha1 : -(π / 2) ≤ a) (ha2 : a ≤ π / 2) (hb1 : -(π / 2) < b) (hb2 : b < π / 2)
    (h : sin a * sin b + cos a * cos b * cos d = 1) : b = a ∧ cos d = 1 := by
  have ca : 0 ≤ cos a := cos_nonneg_of_neg_pi_div_two_le_of_le ha1 ha2
  have cb : 0 < cos b := cos_pos_of_mem_Ioo ⟨hb1, hb2⟩
  have h1 : cos (b - a) ≤ 1 := cos_le_one _
  have e : cos (b - a) = cos b * cos a + sin b * sin a := cos_sub _ _
  have hd := cos_le_one d
  have hm : 0 ≤ cos a * cos b * (1 - cos d) := mul_nonneg (mul_nonneg ca cb.le) (by linarith)
  have h2 : cos (b - a) = 1 := by nlinarith
  have h3 : b - a = 0 := by
    have := (cos_eq_one_iff_of_lt_of_lt (x := b - a) (by linarith [pi_pos]) (by linarith [pi_pos])).1 h2
    exact this
  have h4 : b = a := by linarith
  refine ⟨h4, ?_⟩
  have h5 : cos a * cos b * (1 - cos d) = 0 := by nlinarith
  rw [h4] at cb h5
  have : 1 - cos d = 0 := by
    rcases mul_eq_zero.1 h5 with h | h
    · exact absurd h (mul_pos cb cb).ne'
    · exact h
  linarith

theorem cos_angle_neg_one {a b d : ℝ} (ha1 : -(π / 2) ≤ a) (ha2 : a ≤ π / 2) (hb1 : -(π / 2) < b) (hb2 : b < π / 2)
    (h : sin a * sin b + cos a * cos b * cos d = -1) : b = -a ∧ cos d = -1 := by
  have := cos_angle_one (a := -a) (b := b) (d := π - d) (by linarith) (by linarith) hb1 hb2
    (by rw [sin_neg, cos_neg, cos_pi_sub]; linarith)
  rw [cos_pi_sub] at this
  exact ⟨this.1, by linarith [this.2]⟩

theorem cos_angle_mem {a b d : ℝ} (ha1 : -(π / 2) ≤ a) (ha2 : a ≤ π / 2) (hb1 : -(π / 2) < b) (hb2 : b < π / 2) :
    -1 ≤ sin a * sin b + cos a * cos b * cos d ∧ sin a * sin b + cos a * cos b * cos d ≤ 1 := by
  have ca : 0 ≤ cos a := cos_nonneg_of_neg_pi_div_two_le_of_le ha1 ha2
  have cb : 0 < cos b := cos_pos_of_mem_Ioo ⟨hb1, hb2⟩
  have h1 : cos (b - a) ≤ 1 := cos_le_one _
  have e : cos (b - a) = cos b * cos a + sin b * sin a := cos_sub _ _
  have h1' : cos (b + a) ≤ 1 := cos_le_one _
  have e' : cos (b + a) = cos b * cos a - sin b * sin a := cos_add _ _
  have hd := cos_le_one d
  have hd' := neg_one_le_cos d
  have hm : 0 ≤ cos a * cos b * (1 - cos d) := mul_nonneg (mul_nonneg ca cb.le) (by linarith)
  have hm' : 0 ≤ cos a * cos b * (1 + cos d) := mul_nonneg (mul_nonneg ca cb.le) (by linarith)
  constructor <;> nlinarith

theorem degToRad_inj {x y : ℝ} (h : degToRad x = degToRad y) : x = y := by
  unfold degToRad at h
  have := pi_pos
  have h' : π * x = π * y := by linarith
  exact mul_left_cancel₀ this.ne' h'

theorem arcsin_r2d {lat : ℝ} (h1 : -90 ≤ lat) (h2 : lat ≤ 90) : arcsin (sin (lat * d2r)) * r2d = lat := by
  have hd := d2r_pos
  have e := right_d2r
  rw [arcsin_sin (by nlinarith) (by nlinarith), mul_assoc, d2r_r2d, mul_one]

theorem azeqdist_round_trip {p : AziEqdist} (hR : 0 < p.e.eqRad) (hs : p.sinp = sin (p.pole * d2r))
    (hc : p.cosp = cos (p.pole * d2r)) (hp1 : -90 ≤ p.pole) (hp2 : p.pole ≤ 90) {lat lon : ℝ}
    (h1 : -90 < lat) (h2 : lat < 90) (ha : ¬ (lat = -p.pole ∧ SameAngle lon (p.cm + 180))) :
    (iazeqdist p (azeqdist p lon lat).1 (azeqdist p lon lat).2).1 = lat ∧
    SameAngle (iazeqdist p (azeqdist p lon lat).1 (azeqdist p lon lat).2).2 lon := by
  obtain ⟨t1, t2, t3⟩ := turn_spec p.cm lon
  have hd := d2r_pos
  have e90 := right_d2r
  have e180 := half_d2r
  have ha1 : -(π / 2) ≤ p.pole * d2r := by nlinarith
  have ha2 : p.pole * d2r ≤ π / 2 := by nlinarith
  have hb1 : -(π / 2) < lat * d2r := by nlinarith
  have hb2 : lat * d2r < π / 2 := by nlinarith
  unfold azeqdist
  simp only
  generalize hlon' : turnDown p.cm (turnUp p.cm lon) = lon' at *
  have hdl1 : -π ≤ (lon' - p.cm) * d2r := by nlinarith
  have hdl2 : (lon' - p.cm) * d2r ≤ π := by nlinarith
  have hmem := cos_angle_mem (d := (lon' - p.cm) * d2r) ha1 ha2 hb1 hb2
  rw [← hs, ← hc] at hmem
  by_cases hcc : |p.sinp * sin (lat * d2r) + p.cosp * cos (lat * d2r) * cos ((lon' - p.cm) * d2r)| ≥ 1
  · rw [if_pos hcc]
    rcases le_abs.1 hcc with h | h
    · have hone : sin (p.pole * d2r) * sin (lat * d2r) + cos (p.pole * d2r) * cos (lat * d2r) *
          cos ((lon' - p.cm) * d2r) = 1 := by rw [← hs, ← hc]; linarith
      obtain ⟨q1, q2⟩ := cos_angle_one ha1 ha2 hb1 hb2 hone
      have e1 : lat = p.pole := mul_right_cancel₀ hd.ne' q1
      have e2 : (lon' - p.cm) * d2r = 0 :=
        (cos_eq_one_iff_of_lt_of_lt (by linarith [pi_pos]) (by linarith [pi_pos])).1 q2
      have e3 : lon' = p.cm := by
        rcases mul_eq_zero.1 e2 with h | h
        · linarith
        · exact absurd h hd.ne'
      unfold iazeqdist
      simp only [ne_eq, OfNat.ofNat_ne_zero, not_false_eq_true, zero_pow, add_zero, sqrt_zero, if_true]
      exact ⟨e1.symm, by rw [← e3]; exact t1⟩
    · have hone : sin (p.pole * d2r) * sin (lat * d2r) + cos (p.pole * d2r) * cos (lat * d2r) *
          cos ((lon' - p.cm) * d2r) = -1 := by rw [← hs, ← hc]; linarith
      obtain ⟨q1, q2⟩ := cos_angle_neg_one ha1 ha2 hb1 hb2 hone
      refine absurd ⟨?_, ?_⟩ ha
      · have : lat * d2r = -p.pole * d2r := by rw [q1]; ring
        exact mul_right_cancel₀ hd.ne' this
      · obtain ⟨k, hk⟩ := cos_eq_neg_one_iff.1 q2
        refine t1.symm.trans ⟨k, ?_⟩
        have : (lon' - p.cm) * d2r = (180 + 360 * k) * d2r := by rw [← hk, ← e180]; ring
        have := mul_right_cancel₀ hd.ne' this
        linarith
  · rw [if_neg hcc]
    have hcc' := abs_lt.1 (not_le.1 hcc)
    generalize hcdef : arccos (p.sinp * sin (lat * d2r) + p.cosp * cos (lat * d2r) * cos ((lon' - p.cm) * d2r)) = c
    have hcos : cos c = p.sinp * sin (lat * d2r) + p.cosp * cos (lat * d2r) * cos ((lon' - p.cm) * d2r) := by
      rw [← hcdef, cos_arccos hmem.1 hmem.2]
    have hc0 : 0 < c := by rw [← hcdef]; exact arccos_pos.2 hcc'.2
    have hcp : c < π := by
      rw [← hcdef]
      refine lt_of_le_of_ne (arccos_le_pi _) fun h => ?_
      have := arccos_eq_pi.1 h
      linarith [hcc'.1]
    obtain ⟨s1, s2, s3, s4⟩ := azeqdist_spec (p := p) hR (by rw [hs, hc]; exact sin_sq_add_cos_sq _)
      (sin_sq_add_cos_sq (lat * d2r)) (sin_sq_add_cos_sq ((lon' - p.cm) * d2r)) hc0 hcp hcos rfl rfl
    have hRc : 0 < p.e.eqRad * c := mul_pos hR hc0
    have hcl : 0 < cos (lat * d2r) := cos_pos_of_mem_Ioo ⟨hb1, hb2⟩
    have hsc : 0 < sin c := sin_pos_of_pos_of_lt_pi hc0 hcp
    unfold iazeqdist
    simp only
    rw [s1, if_neg hRc.ne', mul_div_cancel_left₀ _ hR.ne', s2]
    refine ⟨arcsin_r2d h1.le h2.le, ?_⟩
    have key : SameAngle (p.cm + r2d * ((lon' - p.cm) * d2r)) lon := by
      have : p.cm + r2d * ((lon' - p.cm) * d2r) = lon' := by
        have := d2r_r2d
        linear_combination (lon' - p.cm) * this
      rw [this]; exact t1
    have wrap : ∀ z, SameAngle z lon → SameAngle (if z ≤ -180 then z + 360 else z) lon := by
      intro z hz
      split
      · exact SameAngle.trans ⟨1, by push_cast; ring⟩ hz
      · exact hz
    apply wrap
    have hk : 0 < p.e.eqRad * c / sin c := div_pos hRc hsc
    split
    · rename_i h90
      have e1 : p.sinp = 1 := by rw [hs, h90, e90, sin_pi_div_two]
      have e2 : p.cosp = 0 := by rw [hc, h90, e90, cos_pi_div_two]
      have : -(p.e.eqRad * c / sin c * (p.cosp * sin (lat * d2r) - p.sinp * cos (lat * d2r) *
          cos ((lon' - p.cm) * d2r))) = p.e.eqRad * c / sin c * cos (lat * d2r) * cos ((lon' - p.cm) * d2r) := by
        rw [e1, e2]; ring
      rw [this]
      exact ((atan2_polar' (mul_pos hk hcl) hdl1 hdl2).add_left _).trans key
    · split
      · rename_i h90
        have e1 : p.sinp = -1 := by rw [hs, h90, neg_mul, e90, sin_neg, sin_pi_div_two]
        have e2 : p.cosp = 0 := by rw [hc, h90, neg_mul, e90, cos_neg, cos_pi_div_two]
        have : (p.e.eqRad * c / sin c * (p.cosp * sin (lat * d2r) - p.sinp * cos (lat * d2r) *
            cos ((lon' - p.cm) * d2r))) = p.e.eqRad * c / sin c * cos (lat * d2r) * cos ((lon' - p.cm) * d2r) := by
          rw [e1, e2]; ring
        rw [this]
        exact ((atan2_polar' (mul_pos hk hcl) hdl1 hdl2).add_left _).trans key
      · rw [s3, s4]
        exact ((atan2_polar' (mul_pos hRc hcl) hdl1 hdl2).add_left _).trans key

end Verif.Geo
