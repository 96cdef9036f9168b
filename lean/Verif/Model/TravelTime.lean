import Verif.Model.Grid
import Verif.Model.Geo
import Verif.Model.Transform

/-!
# Model of the travel-time tables

* `Homogeneous` (libs/hdd/ttt/homogeneous.cpp)
* velocity units (libs/hdd/nll/grid.cpp:1309-1346)
* take-off angle grids (grid.cpp:1198-1307, libs/hdd/utils.cpp:446-503)
* the derivatives computed by `NLLGrid::compute` (libs/hdd/ttt/nllgrid.cpp:457-468)

`double` is ℝ; `atan2` of two zeros is 0, as in C; the conversion of an interpolated angle to
`unsigned short` truncates.
-/

namespace Verif.TravelTime
open Verif.Geo Verif.Grid
noncomputable section

/-! ## Homogeneous medium -/

/-- the velocity selected by the phase type, homogeneous.cpp:44-50 -/
def velocityOf (pVel sVel : ℝ) (phaseType : String) : Outcome ℝ :=
  if phaseType = "P" then .ok pVel else if phaseType = "S" then .ok sVel else .throws

/-- homogeneous.cpp:36-57 -/
def homogeneousTime (pVel sVel : ℝ) (eventLat eventLon eventDepth stationLat stationLon elevation : ℝ)
    (phaseType : String) : Outcome ℝ := do
  let velocity ← velocityOf pVel sVel phaseType
  let distance := computeDistance3D ⟨eventLat, eventLon, eventDepth⟩
    ⟨stationLat, stationLon, -(elevation / 1000)⟩
  pure (distance / velocity)

/-- results of the full computation -/
structure Ray where
  travelTime : ℝ
  takeOffAzi : ℝ
  takeOffDip : ℝ
  dtdd : ℝ
  dtdh : ℝ

/-- homogeneous.cpp:59-101 -/
def homogeneousRay (pVel sVel : ℝ) (eventLat eventLon eventDepth stationLat stationLon elevation : ℝ)
    (phaseType : String) : Outcome Ray := do
  let velocity ← velocityOf pVel sVel phaseType
  let atKmDepth := (eventDepth - elevation / 1000) / 2
  let hdist := computeDistance eventLat eventLon stationLat stationLon atKmDepth false
  let azi := radToDeg (computeAzimuth eventLat eventLon stationLat stationLon)
  let vdist := eventDepth + elevation / 1000
  let distance := Real.sqrt (hdist * hdist + vdist * vdist)
  let dip := atan2 vdist hdist
  pure ⟨distance / velocity, azi, radToDeg dip + 90,
    Real.cos dip / km2deg velocity 0, Real.sin dip / velocity⟩

/-! ## Velocity grids -/

/-- the grid types accepted by `VelGrid`, grid.cpp:1320-1345 -/
inductive VelType where
  | velocity | velocityMeters | slowness | slowLen | vel2 | slow2 | slow2Meters
deriving DecidableEq

/-- `convertUnits`, grid.cpp:1320-1339; `dy` is the cell size (a division by zero is not modelled) -/
def convertUnits (dy : ℝ) : VelType → ℝ → ℝ
  | .velocityMeters, vel => vel / 1000
  | .slowness, vel => 1 / vel
  | .slowLen, vel => 1 / (vel / dy)
  | .vel2, vel => Real.sqrt vel
  | .slow2, vel => Real.sqrt (1 / vel)
  | .slow2Meters, vel => Real.sqrt (1 / vel) / 1000
  | .velocity, vel => vel

/-! ## Angle grids -/

/-- grid.h:312-317, `TakeOffAngles` -/
structure Angles where
  quality : Nat
  dip : Nat
  azimuth : Nat
deriving DecidableEq

/-- the bit fields in the four bytes of a node as verified by the constructor, grid.cpp:1145-1174 -/
def decodeAngles : List UInt8 → Angles
  | [b0, b1, b2, b3] => ⟨b0.toNat % 16, b0.toNat / 16 + 16 * b1.toNat, b2.toNat + 256 * b3.toNat⟩
  | _ => ⟨0, 0, 0⟩

/-- utils.cpp:472-503 -/
def cubeAngles (xdiff ydiff zdiff : ℝ) (v : Bool → Bool → Bool → ℝ) : ℝ :=
  let cosComp := trilinear xdiff ydiff zdiff (fun a b c => Real.cos (degToRad (v a b c)))
  let sinComp := trilinear xdiff ydiff zdiff (fun a b c => Real.sin (degToRad (v a b c)))
  let result := radToDeg (atan2 sinComp cosComp)
  if result < 0 then result + 360 else result

/-- the least of eight numbers (`std::min` of an initializer list) -/
def least (v : Bool → Bool → Bool → Nat) : Nat :=
  min (min (min (v false false false) (v false false true)) (min (v false true false) (v false true true)))
    (min (min (v true false false) (v true false true)) (min (v true true false) (v true true true)))

/-- grid.cpp:1249-1282 `AngleGrid::interpolateValues3D`; the results are truncated to `unsigned short`
and stored in fields of 4, 12 and 16 bits -/
def interpolateAngles (c : Cell3 ℝ Angles) : Angles :=
  let azim := ⌊cubeAngles c.xdiff c.ydiff c.zdiff (fun a b d => (c.v a b d).azimuth / 10) * 10⌋₊
  let dip := ⌊trilinear c.xdiff c.ydiff c.zdiff (fun a b d => ((c.v a b d).dip : ℝ))⌋₊
  ⟨least (fun a b d => (c.v a b d).quality) % 2 ^ 4, dip % 2 ^ 12, azim % 2 ^ 16⟩

/-- grid.cpp:1226-1247 for a three-dimensional grid: azimuth (degrees, geographic) and dip (degrees) -/
def convertAngles (f : Frame) (cutoff : Nat) (a : Angles) : Outcome (ℝ × ℝ) :=
  if a.quality < cutoff then .throws
  else .ok (f.toLatLonAngle (a.azimuth / 10), a.dip / 10)

/-- grid.cpp:1198-1224 `AngleGrid::getAngles` for a three-dimensional grid, at plane coordinates -/
def getAngles3D (f : Frame) (cutoff : Nat) (g : Info ℝ) (read : Nat → Nat → Nat → Outcome Angles)
    (x y z : ℝ) : Outcome (ℝ × ℝ) := do
  let c ← getValuesAt3DLocation g read x y z
  convertAngles f cutoff (interpolateAngles c)

/-- nllgrid.cpp:465-468: the derivatives from velocity and dip -/
def gridDerivatives (velocity takeOffDip : ℝ) : ℝ × ℝ :=
  let dip := degToRad (takeOffDip - 90)
  (Real.cos dip / km2deg velocity 0, Real.sin dip / velocity)

end
end Verif.TravelTime
