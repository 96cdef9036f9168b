import Verif.Props.Ellipsoid
import Verif.Props.GreatCircle

/-!
# C62: distances with depth, and distances from an event to a station
-/

set_option linter.unusedSimpArgs false

namespace Verif.Geo
open Real Verif.Catalog Verif.Selection

/-- **C62** The distance of two hypocentres is the hypotenuse of the great-circle distance at their mean depth and
their difference in depth (up to 0.1 mm, below which the difference in depth is ignored). -/
theorem distance_3d (p q : Pt ℝ) (h : p.depth + q.depth ≤ 2 * earthRadius) :
    |computeDistance3D p q - √((computeDistance p.lat p.lon q.lat q.lon ((p.depth + q.depth) / 2) false) ^ 2 +
      (p.depth - q.depth) ^ 2)| ≤ 1e-7 := by
  have h0 : 0 ≤ computeDistance p.lat p.lon q.lat q.lon ((p.depth + q.depth) / 2) false := by
    rw [computeDistance_hAngle]
    exact mul_nonneg (hAngle_nonneg _ _) (by linarith)
  unfold computeDistance3D
  simp only
  generalize computeDistance p.lat p.lon q.lat q.lon ((p.depth + q.depth) / 2) false = a at h0
  split
  · rename_i hv
    have h1 : a ≤ √(a ^ 2 + (p.depth - q.depth) ^ 2) := Real.le_sqrt_of_sq_le (by nlinarith [sq_nonneg (p.depth - q.depth)])
    have h2 : √(a ^ 2 + (p.depth - q.depth) ^ 2) ≤ a + |p.depth - q.depth| := by
      rw [Real.sqrt_le_left (by positivity), add_sq, sq_abs]
      nlinarith [mul_nonneg h0 (abs_nonneg (p.depth - q.depth))]
    rw [abs_le]
    constructor <;> linarith
  · rw [sq_abs, sub_self, abs_zero]; norm_num

/-- **C62** The distance from an event to a station counts the elevation of the station (in metres) upwards and the
depth of the event (in kilometres) downwards. -/
theorem event_station_distance (e : Event ℝ) (s : Station ℝ) (h : e.depth - s.elevation / 1000 ≤ 2 * earthRadius) :
    |geometry.staDist e s - √((computeDistance e.latitude e.longitude s.latitude s.longitude
      ((e.depth - s.elevation / 1000) / 2) false) ^ 2 + (e.depth + s.elevation / 1000) ^ 2)| ≤ 1e-7 := by
  have := distance_3d (eventPt e) (stationPt s) (by simp only [eventPt, stationPt]; linarith)
  simp only [eventPt, stationPt, ← sub_eq_add_neg, sub_neg_eq_add] at this
  exact this

/-- **C62** A station exactly above an event: the distance is the depth of the event plus the elevation. -/
theorem station_above_event (e : Event ℝ) (s : Station ℝ) (h1 : s.latitude = e.latitude) (h2 : s.longitude = e.longitude)
    (h : 1e-7 ≤ e.depth + s.elevation / 1000) : geometry.staDist e s = e.depth + s.elevation / 1000 := by
  show computeDistance3D (eventPt e) (stationPt s) = _
  unfold computeDistance3D eventPt stationPt
  have hd : computeDistance e.latitude e.longitude s.latitude s.longitude
      ((e.depth + -(s.elevation / 1000)) / 2) false = 0 := by
    unfold computeDistance
    rw [if_pos]
    rw [h1, h2]
    simp [degToRad]
    norm_num
  simp only [hd, sub_neg_eq_add]
  have hp : 0 < e.depth + s.elevation / 1000 := lt_of_lt_of_le (by norm_num) h
  rw [abs_of_pos hp, if_neg (not_lt.2 h)]
  rw [zero_pow two_ne_zero, zero_add, Real.sqrt_sq hp.le]

/-- Non-vacuity: an event at 8 km below a station at 1500 m. -/
example : geometry.staDist ⟨1, 0, 46, 8, 8, 2, false, 0, 0⟩ ⟨"N.A.", 46, 8, 1500, "N", "A", ""⟩ = 9.5 := by
  rw [station_above_event _ _ rfl rfl] <;> norm_num

example (e : Event ℝ) (s : Station ℝ) (h : e.depth = 10) (h' : s.elevation = 1000) :
    e.depth - s.elevation / 1000 ≤ 2 * earthRadius := by
  rw [h, h']; unfold earthRadius; norm_num

end Verif.Geo
