import Verif.Model.KdTree
import Mathlib.Analysis.SpecialFunctions.Complex.Arg
import Mathlib.Analysis.SpecialFunctions.Trigonometric.Inverse
import Mathlib.Analysis.SpecialFunctions.Sqrt

/-!
# Model of the geographic formulas (libs/hdd/utils.h:56-97, libs/hdd/utils.cpp:99-278) and of the
distances used by the spatial index (libs/hdd/kdtree.h)

Simplification: `double` is ℝ and `M_PI` is π, so there is no rounding.  The checks `isfinite` then
always succeed and are left out.
-/

namespace Verif.Geo
noncomputable section

/-- `std::atan2`; like `Complex.arg` it is the angle of (x, y) in (-π, π], 0 at the origin -/
def atan2 (y x : ℝ) : ℝ := Complex.arg ⟨x, y⟩

/-- utils.h:56 -/
def radToDeg (r : ℝ) : ℝ := 180 * r / Real.pi
/-- utils.h:58 -/
def degToRad (d : ℝ) : ℝ := Real.pi * d / 180

/-- EARTH_MEAN_RADIUS_METER / 1000, utils.h:62 -/
def earthRadius : ℝ := 6371.00877141506
/-- utils.h:64-67 -/
def kmOfDegree (kmDepth : ℝ) : ℝ := (earthRadius - kmDepth) * Real.pi / 180
/-- utils.h:69-72 -/
def deg2km (deg kmDepth : ℝ) : ℝ := deg * kmOfDegree kmDepth
/-- utils.h:74-77 -/
def km2deg (km kmDepth : ℝ) : ℝ := km / kmOfDegree kmDepth
/-- utils.h:79-82 -/
def rad2km (rad kmDepth : ℝ) : ℝ := rad * (earthRadius - kmDepth)
/-- utils.h:84-87 -/
def km2rad (km kmDepth : ℝ) : ℝ := km / (earthRadius - kmDepth)

/-- truncation towards zero -/
def trunc (x : ℝ) : ℤ := if 0 ≤ x then ⌊x⌋ else ⌈x⌉
/-- `std::fmod` for a non-zero divisor -/
def fmod (x y : ℝ) : ℝ := x - y * trunc (x / y)
/-- utils.h:89-92 -/
def normalizeLon (lon : ℝ) : ℝ := fmod (fmod (lon + 180) 360 + 360) 360 - 180
/-- utils.h:94-97 -/
def normalizeAzimuth (az : ℝ) : ℝ := fmod (fmod az 360 + 360) 360

/-- utils.cpp:107-130 -/
def computeAzimuth (lat1 lon1 lat2 lon2 : ℝ) : ℝ :=
  let deltaLon := degToRad (lon2 - lon1)
  let fi1 := degToRad lat1
  let fi2 := degToRad lat2
  if |lat1 - lat2| < 1e-9 ∧ |deltaLon| < 1e-9 then 0
  else
    atan2 (Real.sin deltaLon * Real.cos fi2)
      (Real.cos fi1 * Real.sin fi2 - Real.sin fi1 * Real.cos fi2 * Real.cos deltaLon)

/-- utils.cpp:143-182, result (lat, lon) -/
def computeCoordinates (distance azimuth clat clon atKmDepth : ℝ) (isAngularDist : Bool) : ℝ × ℝ :=
  if distance = 0 then (clat, clon)
  else
    let distance := if isAngularDist then distance else km2rad distance atKmDepth
    let clat := degToRad clat
    let clon := degToRad clon
    let lat := Real.arcsin (Real.sin clat * Real.cos distance + Real.cos clat * Real.sin distance * Real.cos azimuth)
    let lon := clon + atan2 (Real.sin azimuth * Real.sin distance * Real.cos clat)
      (Real.cos distance - Real.sin clat * Real.sin lat)
    (radToDeg lat, normalizeLon (radToDeg lon))

/-- the haversine of the central angle, utils.cpp:219-220 -/
def haversine (lat1 lon1 lat2 lon2 : ℝ) : ℝ :=
  Real.sin (degToRad (lat2 - lat1) / 2) ^ 2 +
    Real.cos (degToRad lat1) * Real.cos (degToRad lat2) * Real.sin (degToRad (lon2 - lon1) / 2) ^ 2

/-- utils.cpp:193-258: distance; the azimuths are those of `computeAzimuth` -/
def computeDistance (lat1 lon1 lat2 lon2 atKmDepth : ℝ) (isAngularDist : Bool) : ℝ :=
  if |lat1 - lat2| < 1e-9 ∧ |degToRad (lon2 - lon1)| < 1e-9 then 0
  else
    let a := haversine lat1 lon1 lat2 lon2
    let a := max 0 (min 1 a)
    let angularDist := 2 * atan2 (Real.sqrt a) (Real.sqrt (1 - a))
    if isAngularDist then angularDist else rad2km angularDist atKmDepth

/-- utils.cpp:263-278 -/
def computeDistance3D (p q : Pt ℝ) : ℝ :=
  let avgDepth := (p.depth + q.depth) / 2
  let hDist := computeDistance p.lat p.lon q.lat q.lon avgDepth false
  let vDist := |p.depth - q.depth|
  if vDist < 1e-7 then hDist else Real.sqrt (hDist ^ 2 + vDist ^ 2)

/-- distance along an axis used by all searches, kdtree.h:193-209, 336-352, 394-410, 446-462 -/
def axisDist (axis : Nat) (curr query : Pt ℝ) : ℝ :=
  match axis with
  | 0 => computeDistance curr.lat 0 query.lat 0 0 false
  | 1 => computeDistance 0 curr.lon 0 query.lon 0 false
  | _ => |curr.depth - query.depth|

end
end Verif.Geo
