import Verif.Proofs.Transform

/-!
# C44, C45: coordinate transforms and angle normalisation

Quantified over every origin, rotation and position accepted by the code.
-/

set_option linter.unusedSectionVars false
set_option linter.unusedSimpArgs false

namespace Verif.Geo
open Real

/-! ## C45 -/

/-- **C45a.** Normalised longitudes lie in [-180, 180) and are the same angle. -/
theorem normalised_longitude (lon : ℝ) :
    -180 ≤ normalizeLon lon ∧ normalizeLon lon < 180 ∧ ∃ k : ℤ, normalizeLon lon = lon + 360 * k :=
  normalizeLon_spec lon

/-- **C45b.** Normalised azimuths lie in [0, 360) and are the same angle. -/
theorem normalised_azimuth (az : ℝ) :
    0 ≤ normalizeAzimuth az ∧ normalizeAzimuth az < 360 ∧ ∃ k : ℤ, normalizeAzimuth az = az + 360 * k :=
  fmod_twice az

/-- **C45c.** The azimuth written to an origin, for every azimuth within one turn of the range. -/
theorem origin_azimuth {az : ℝ} (h1 : -360 ≤ az) (h2 : az < 720) :
    0 ≤ normalizeAz az ∧ normalizeAz az < 360 ∧ ∃ k : ℤ, normalizeAz az = az + 360 * k := by
  unfold normalizeAz
  split
  · exact ⟨by linarith, by linarith, 1, by push_cast; ring⟩
  · split
    · exact ⟨by linarith, by linarith, -1, by push_cast; ring⟩
    · exact ⟨by linarith, by linarith, 0, by push_cast; ring⟩

/-- **C45d.** Converting an angle to the grid orientation and back gives the same angle, in [0, 360],
for every rotation the constructor accepts. -/
theorem grid_angle_round_trip_partial {orgLat orgLong rot : ℝ} {f : Frame} (hf : Frame.make orgLat orgLong rot = .ok f)
    {a : ℝ} (h0 : 0 ≤ a) (h1 : a ≤ 360) :
    (∃ k : ℤ, f.toLatLonAngle (f.fromLatLonAngle a) = a + 360 * k) ∧
    0 ≤ f.toLatLonAngle (f.fromLatLonAngle a) ∧ f.toLatLonAngle (f.fromLatLonAngle a) ≤ 360 ∧
    0 ≤ f.fromLatLonAngle a ∧ f.fromLatLonAngle a ≤ 360 ∧
    (∃ k : ℤ, f.fromLatLonAngle a = a + rot + 360 * k) := by
  obtain ⟨-, -, -, hr, -, -, -, -, r1, r2⟩ := Frame.unit hf
  have step : ∀ x : ℝ, -360 ≤ x → x ≤ 720 → ∃ y, (if x < 0 then x + 360 else if x > 360 then x - 360 else x) = y ∧
      0 ≤ y ∧ y ≤ 360 ∧ ∃ k : ℤ, y = x + 360 * k := by
    intro x hx hx'
    refine ⟨_, rfl, ?_⟩
    split
    · exact ⟨by linarith, by linarith, 1, by push_cast; ring⟩
    · split
      · exact ⟨by linarith, by linarith, -1, by push_cast; ring⟩
      · exact ⟨by linarith, by linarith, 0, by push_cast; ring⟩
  obtain ⟨y, e1, y0, y1, k, hk⟩ := step (a + f.rot) (by rw [hr]; linarith) (by rw [hr]; linarith)
  obtain ⟨z, e2, z0, z1, l, hl⟩ := step (y - f.rot) (by rw [hr]; linarith) (by rw [hr]; linarith)
  have e1' : f.fromLatLonAngle a = y := by rw [← e1]; rfl
  have e2' : f.toLatLonAngle y = z := by rw [← e2]; rfl
  rw [e1', e2']
  refine ⟨⟨k + l, by rw [hl, hk]; push_cast; ring⟩, z0, z1, y0, y1, ⟨k, by rw [hk, hr]⟩⟩

/-- **C45, negation.** The angle returned may be 360 rather than 0: the range is not half-open. -/
theorem grid_angle_full_turn : ∃ f : Frame, Frame.make 0 0 (-360) = .ok f ∧
    f.toLatLonAngle (f.fromLatLonAngle 0) = 360 := by
  refine ⟨⟨0, 0, -360, cos (-degToRad (-360)), sin (-degToRad (-360))⟩, ?_, ?_⟩
  · unfold Frame.make; norm_num
  · unfold Frame.toLatLonAngle Frame.fromLatLonAngle; norm_num

/-! ## C44 -/

/-- The rotation keeps distances and is undone by the inverse rotation. -/
theorem rotation_isometry {orgLat orgLong rot : ℝ} {f : Frame} (hf : Frame.make orgLat orgLong rot = .ok f) (v w : ℝ × ℝ) :
    planeDistance (f.rotate v) (f.rotate w) = planeDistance v w ∧ f.inverseRotate (f.rotate v) = v ∧
    f.rotate (f.inverseRotate v) = v := by
  have hu := (Frame.unit hf).1
  refine ⟨?_, rotate_inverse hu v, inverse_rotate hu v⟩
  unfold planeDistance Frame.rotate
  congr 1
  simp only
  linear_combination ((w.1 - v.1) ^ 2 + (w.2 - v.2) ^ 2) * hu

/-- **C44, GLOBAL.** -/
theorem global_round_trip_partial (lat lon : ℝ) (v : ℝ × ℝ) :
    globalTo (globalFrom lat lon) = (lat, lon) ∧ globalFrom (globalTo v).1 (globalTo v).2 = v := ⟨rfl, rfl⟩

/-- **C44, SIMPLE.** Latitude and longitude are recovered (the longitude normalised), except at the
poles where the longitude is not defined. -/
theorem simple_round_trip_partial {orgLat orgLong rot : ℝ} {f : Frame} (hf : Frame.make orgLat orgLong rot = .ok f)
    {lat lon : ℝ} (h1 : -90 < lat) (h2 : lat < 90) :
    simpleTo f (simpleFrom f lat lon) = (lat, normalizeLon lon) := by
  have hu := (Frame.unit hf).1
  unfold simpleTo simpleFrom
  rw [rotate_inverse hu]
  have hc := c111_pos
  have hcos := cos_lat_pos h1 h2
  have e1 : f.orgLat + (lat - f.orgLat) * c111 / c111 = lat := by
    rw [mul_div_cancel_right₀ _ hc.ne']; ring
  simp only [e1]
  rw [mul_div_cancel_right₀ _ (mul_pos hc hcos).ne']
  congr 1
  apply normalizeLon_congr
  have := (normalizeLon_spec (lon - f.orgLong)).2.2.add_left f.orgLong
  simpa using this

/-- **C44, SIMPLE, the other way.** A grid position is recovered if it corresponds to a position between
the poles, within half a turn of the origin. -/
theorem simple_round_trip_grid {orgLat orgLong rot : ℝ} {f : Frame} (hf : Frame.make orgLat orgLong rot = .ok f)
    (v : ℝ × ℝ) (h1 : -90 < (simpleTo f v).1) (h2 : (simpleTo f v).1 < 90)
    (h3 : |(f.inverseRotate v).1| < 180 * (c111 * cos (degToRad (simpleTo f v).1))) :
    simpleFrom f (simpleTo f v).1 (simpleTo f v).2 = v := by
  have hu := (Frame.unit hf).1
  have hc := c111_pos
  have hcos := cos_lat_pos h1 h2
  have hcc := mul_pos hc hcos
  have hlat : (simpleTo f v).1 = f.orgLat + (f.inverseRotate v).2 / c111 := rfl
  have hlon : (simpleTo f v).2 = normalizeLon (f.orgLong + (f.inverseRotate v).1 / (c111 * cos (degToRad (simpleTo f v).1))) := rfl
  generalize (simpleTo f v).1 = lat at *
  generalize (simpleTo f v).2 = lon at *
  have hx : normalizeLon (lon - f.orgLong) = (f.inverseRotate v).1 / (c111 * cos (degToRad lat)) := by
    obtain ⟨l1, l2⟩ := abs_lt.1 h3
    have hb : -180 ≤ (f.inverseRotate v).1 / (c111 * cos (degToRad lat)) := by
      rw [le_div_iff₀ hcc]; linarith
    have hb' : (f.inverseRotate v).1 / (c111 * cos (degToRad lat)) < 180 := by
      rw [div_lt_iff₀ hcc]; linarith
    rw [← normalizeLon_id hb hb']
    apply normalizeLon_congr
    have := (normalizeLon_spec (f.orgLong + (f.inverseRotate v).1 / (c111 * cos (degToRad lat)))).2.2.add_left (-f.orgLong)
    rw [← hlon] at this
    rw [sub_eq_neg_add]
    simpa using this
  unfold simpleFrom
  rw [hx, div_mul_cancel₀ _ hcc.ne']
  have hy : (lat - f.orgLat) * c111 = (f.inverseRotate v).2 := by
    rw [hlat]; field_simp; ring
  rw [hy]
  exact inverse_rotate hu v

/-- **C44, SDC.** Latitude and longitude are recovered (the longitude normalised), for every origin
from the south pole up to 89°N. -/
theorem sdc_round_trip_partial {orgLat orgLong rot : ℝ} {f : Frame} (hf : Frame.make orgLat orgLong rot = .ok f)
    (ho1 : -90 < orgLat) (ho2 : orgLat < 89) (lat lon : ℝ) :
    sdcTo f (sdcScale orgLat) (sdcFrom f (sdcScale orgLat) lat lon) = (lat, normalizeLon lon) := by
  have hu := (Frame.unit hf).1
  obtain ⟨s1, s2⟩ := sdcScale_pos ho1 ho2
  generalize sdcScale orgLat = s at *
  unfold sdcTo sdcFrom
  simp only
  rw [rotate_inverse hu]
  have e1 : f.orgLat + (lat - f.orgLat) * s.1 / s.1 = lat := by
    rw [mul_div_cancel_right₀ _ s1.ne']; ring
  simp only [e1]
  rw [mul_div_cancel_right₀ _ (mul_pos s2 (cos_arctan_pos _)).ne']
  congr 1
  apply normalizeLon_congr
  have := (normalizeLon_spec (lon - f.orgLong)).2.2.add_left f.orgLong
  simpa using this

/-! ## Non-vacuity -/

example : ∃ f : Frame, Frame.make 46.5 8 30 = .ok f := by
  refine ⟨⟨46.5, 8, 30, cos (-degToRad 30), sin (-degToRad 30)⟩, ?_⟩
  unfold Frame.make; norm_num

example : normalizeLon 190 = -170 := by
  have h : SameAngle 190 (-170) := ⟨1, by norm_num⟩
  rw [normalizeLon_congr h, normalizeLon_id] <;> norm_num

end Verif.Geo
