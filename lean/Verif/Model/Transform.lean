import Verif.Model.Geo
import Verif.Base.Outcome
import Mathlib.Analysis.SpecialFunctions.Trigonometric.Arctan
import Mathlib.Analysis.SpecialFunctions.Trigonometric.Inverse

/-!
# Model of the coordinate transforms (libs/hdd/nll/grid.cpp:40-117, 178-284, 398-608)

Modelled: GLOBAL, SIMPLE and SDC, with the constructor checks, the rotation and the angle conversions;
LAMBERT, TRANS_MERC and AZIMUTHAL_EQUIDIST are in `Model/MapProject.lean`.
The text of the header line is parsed in `Model/GridHeader.lean`.  `double` is ℝ.
-/

namespace Verif.Geo
noncomputable section

/-- the fields of `Transform`, grid.h:82-87 -/
structure Frame where
  orgLat : ℝ
  orgLong : ℝ
  rot : ℝ
  cosang : ℝ
  sinang : ℝ

open Classical in
/-- grid.cpp:548-569 -/
def Frame.make (orgLat orgLong rot : ℝ) : Outcome Frame :=
  if orgLat > 90 ∨ orgLat < -90 then .throws
  else if orgLong > 180 ∨ orgLong < -180 then .throws
  else if rot > 360 ∨ rot < -360 then .throws
  else .ok ⟨orgLat, orgLong, rot, Real.cos (-degToRad rot), Real.sin (-degToRad rot)⟩

/-- grid.cpp:398-404 -/
def Frame.rotate (f : Frame) (v : ℝ × ℝ) : ℝ × ℝ :=
  (v.1 * f.cosang - v.2 * f.sinang, v.2 * f.cosang + v.1 * f.sinang)

/-- grid.cpp:406-412 -/
def Frame.inverseRotate (f : Frame) (v : ℝ × ℝ) : ℝ × ℝ :=
  (v.1 * f.cosang + v.2 * f.sinang, v.2 * f.cosang - v.1 * f.sinang)

open Classical in
/-- grid.cpp:571-579 -/
def Frame.fromLatLonAngle (f : Frame) (latlonAngle : ℝ) : ℝ :=
  let angle := latlonAngle + f.rot
  if angle < 0 then angle + 360 else if angle > 360 then angle - 360 else angle

open Classical in
/-- grid.cpp:581-589 -/
def Frame.toLatLonAngle (f : Frame) (rectAngle : ℝ) : ℝ :=
  let angle := rectAngle - f.rot
  if angle < 0 then angle + 360 else if angle > 360 then angle - 360 else angle

/-- grid.cpp:591-608 -/
def planeDistance (a b : ℝ × ℝ) : ℝ := Real.sqrt ((b.1 - a.1) ^ 2 + (b.2 - a.2) ^ 2)

open Classical in
/-- libs/hddsc/utils.cpp:47-54 -/
def normalizeAz (az : ℝ) : ℝ := if az < 0 then az + 360 else if az ≥ 360 then az - 360 else az

/-- kilometers per degree, grid.cpp:76-78 -/
def c111 : ℝ := Real.pi * 6371 / 180

/-- grid.cpp:182-189, result (x, y) -/
def globalFrom (lat lon : ℝ) : ℝ × ℝ := (lon, lat)
/-- grid.cpp:191-198, result (lat, lon) -/
def globalTo (v : ℝ × ℝ) : ℝ × ℝ := (v.2, v.1)

/-- grid.cpp:226-235 -/
def simpleFrom (f : Frame) (lat lon : ℝ) : ℝ × ℝ :=
  f.rotate (normalizeLon (lon - f.orgLong) * (c111 * Real.cos (degToRad lat)), (lat - f.orgLat) * c111)

/-- grid.cpp:237-246 -/
def simpleTo (f : Frame) (v : ℝ × ℝ) : ℝ × ℝ :=
  let v := f.inverseRotate v
  let lat := f.orgLat + v.2 / c111
  let lon := f.orgLong + v.1 / (c111 * Real.cos (degToRad lat))
  (lat, normalizeLon lon)

/-- MAP_TRANS_SDC_DRLT, grid.cpp:100 -/
def drlt : ℝ := 0.99330647

/-- FLATTENING and ERAD, grid.cpp:97-99 -/
def flattening : ℝ := 1 / 298.26
def erad : ℝ := 6378.135

/-- kilometres per degree of latitude and longitude, grid.cpp:446-459 -/
def sdcScale (orgLat : ℝ) : ℝ × ℝ :=
  let dlt1 := Real.arctan (drlt * Real.tan (degToRad orgLat))
  let dlt2 := Real.arctan (drlt * Real.tan (degToRad (orgLat + 1)))
  let r := erad * (1 - Real.sin dlt1 ^ 2 * flattening)
  let xltkm := r * (dlt2 - dlt1)
  let del := Real.arccos (1 - (1 - Real.cos (degToRad 1)) * Real.cos dlt1 ^ 2)
  let xlnkm := r * del / Real.cos dlt1
  (xltkm, xlnkm)

/-- grid.cpp:257-269; `s` holds `_xltkm` and `_xlnkm` -/
def sdcFrom (f : Frame) (s : ℝ × ℝ) (lat lon : ℝ) : ℝ × ℝ :=
  let xlt1 := Real.arctan (drlt * Real.tan (degToRad (lat + f.orgLat) / 2))
  f.rotate (normalizeLon (lon - f.orgLong) * (s.2 * Real.cos xlt1), (lat - f.orgLat) * s.1)

/-- grid.cpp:271-284 -/
def sdcTo (f : Frame) (s : ℝ × ℝ) (v : ℝ × ℝ) : ℝ × ℝ :=
  let v := f.inverseRotate v
  let y := v.2 / s.1
  let lat := f.orgLat + y
  let xlt1 := Real.arctan (drlt * Real.tan (degToRad (lat + f.orgLat) / 2))
  let x := v.1 / (s.2 * Real.cos xlt1)
  (lat, normalizeLon (f.orgLong + x))

end
end Verif.Geo
