import Verif.Model.Geo
import Verif.Model.Selection

/-!
# Model of `libs/hdd/ellipsoid.h` and the geometry of the selection of neighbours

Over ℝ as `Verif.Model.Geo`.
-/

namespace Verif.Geo
open Verif.Catalog
noncomputable section

open Classical in
/-- ellipsoid.h:46-59 for the semi-axes `v / 2`, `v / 2`, `v` (ellipsoid.h:110-116).  For `v = 0` the
quotients are ∞ or NaN and the comparison fails. -/
def isInside (v : ℝ) (center p : Pt ℝ) : Bool :=
  let az := computeAzimuth p.lat p.lon center.lat center.lon
  let distance := computeDistance p.lat p.lon center.lat center.lon center.depth false
  let distX := distance * Real.sin az
  let distY := distance * Real.cos az
  let distZ := p.depth - center.depth
  v ≠ 0 ∧ (distX / (v / 2)) ^ 2 + (distY / (v / 2)) ^ 2 + (distZ / v) ^ 2 ≤ 1

open Classical in
/-- ellipsoid.h:163-191, for a quadrant between 1 and 8 -/
def isInQuadrant (center p : Pt ℝ) (quadrant : Nat) : Bool :=
  let lonDelta := normalizeLon (p.lon - center.lon)
  if p.depth < center.depth ∧ quadrant ∈ [1, 2, 3, 4] then false
  else if center.depth < p.depth ∧ quadrant ∈ [5, 6, 7, 8] then false
  else if p.lat < center.lat ∧ quadrant ∈ [1, 2, 5, 6] then false
  else if center.lat < p.lat ∧ quadrant ∈ [3, 4, 7, 8] then false
  else if lonDelta < 0 ∧ quadrant ∈ [1, 4, 5, 8] then false
  else if 0 < lonDelta ∧ quadrant ∈ [2, 3, 6, 7] then false
  else true

/-- utils.cpp:289-297: the depth of a station is minus its elevation in km -/
def stationPt (s : Station ℝ) : Pt ℝ := ⟨s.latitude, s.longitude, -(s.elevation / 1000)⟩

/-- the functions called by clustering.cpp -/
def geometry : Selection.Geometry ℝ where
  dist p q := computeDistance3D p q
  axisDist := axisDist
  staDist e s := computeDistance3D (Selection.eventPt e) (stationPt s)
  inside := isInside
  inQuadrant := isInQuadrant

end
end Verif.Geo
