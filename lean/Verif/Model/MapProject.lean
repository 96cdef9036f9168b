import Verif.Model.Transform
import Mathlib.Analysis.SpecialFunctions.Pow.Real
import Mathlib.Algebra.Order.Floor.Ring

/-!
# Model of the bundled map projections (libs/hdd/3rd-party/gmt/map_project.cpp) and of the grid transforms
# that use them (libs/hdd/nll/grid.cpp:286-391)

Modelled: LAMBERT, TRANS_MERC and AZIMUTHAL_EQUIDIST.  `double` is ℝ; `pow` is the real power.  A division by
zero, which gives an infinite `double` in the code, has no meaning in the model: the theorems exclude it.
-/

namespace Verif.Geo
noncomputable section

/-- `D2R`, map_project.cpp:99 -/
def d2r : ℝ := Real.pi / 180
/-- `R2D`, map_project.cpp:100 -/
def r2d : ℝ := 180 / Real.pi

open Classical in
/-- `d_log`, map_project.cpp:105 -/
def dLog (x : ℝ) : ℝ := if x ≤ 0 then -10000000000 else Real.log x

open Classical in
/-- `d_sqrt`, map_project.cpp:106 -/
def dSqrt (x : ℝ) : ℝ := if x < 0 then 0 else Real.sqrt x

open Classical in
/-- `copysign` from <cmath> for numbers that are not a negative zero -/
def copysign (x s : ℝ) : ℝ := if 0 ≤ s then |x| else -|x|

/-- name, `eq_radius` and `flattening` of the table, map_project.cpp:125-153 (`date` and `pol_radius` are
not used) -/
def ellipsoids : List (String × ℝ × ℝ) :=
  [("WGS-84", 6378137, 1 / 298.254), ("GRS-80", 6378137, 1 / 298.257), ("WGS-72", 6378135, 1 / 298.26),
   ("Australian", 6378160, 1 / 298.25), ("Krasovsky", 6378245, 1 / 298.3), ("International", 6378388, 1 / 297),
   ("Hayford-1909", 6378388, 1 / 297), ("Clarke-1880", 6378249.1, 1 / 293.46), ("Clarke-1866", 6378206.4, 1 / 294.98),
   ("Airy", 6377563.4, 1 / 299.32), ("Bessel", 6377397.2, 1 / 299.15), ("Hayford-1830", 6377276.3, 1 / 300.80),
   ("Sphere", 6371008.7714, 0), ("NAD-27", 6378206.4, 1 / 294.98), ("NAD-83", 6378137.4, 1 / 294.26)]

/-- `Ellip`, map_project.h:7-14 -/
structure Ellip where
  eqRad : ℝ
  ecc : ℝ
  ecc2 : ℝ
  ecc4 : ℝ
  ecc6 : ℝ

/-- map_project.cpp:159-180 -/
def mapSetup (name : String) : Outcome Ellip :=
  match ellipsoids.find? (fun e => e.1 == name) with
  | none => .throws
  | some (_, r, f) =>
    let ecc2 := 2 * f - f * f
    let ecc4 := ecc2 * ecc2
    .ok ⟨r, dSqrt ecc2, ecc2, ecc4, ecc2 * ecc4⟩

/-- the ceiling drops by one per turn -/
theorem turn_decreases {d : ℝ} (h : d < -180) :
    ⌈(-180 - (d + 360)) / 360⌉.toNat < ⌈(-180 - d) / 360⌉.toNat := by
  have e : (-180 - (d + 360)) / 360 = (-180 - d) / 360 - 1 := by ring
  have h1 : 0 < ⌈(-180 - d) / 360⌉ := Int.ceil_pos.2 (div_pos (by linarith) (by norm_num))
  rw [e, Int.ceil_sub_one]
  omega

open Classical in
/-- `while ((lon - cm) < -180.0) lon += 360.0;`, map_project.cpp:244 and :467 -/
def turnUp (cm lon : ℝ) : ℝ :=
  if lon - cm < -180 then turnUp cm (lon + 360) else lon
termination_by ⌈(-180 - (lon - cm)) / 360⌉.toNat
decreasing_by
  rename_i h
  have := turn_decreases h
  rwa [show lon + 360 - cm = lon - cm + 360 by ring]

open Classical in
/-- `while ((lon - cm) > 180.0) lon -= 360.0;`, map_project.cpp:245 and :468 -/
def turnDown (cm lon : ℝ) : ℝ :=
  if lon - cm > 180 then turnDown cm (lon - 360) else lon
termination_by ⌈(-180 - -(lon - cm)) / 360⌉.toNat
decreasing_by
  rename_i h
  have := turn_decreases (d := -(lon - cm)) (by linarith)
  rwa [show -(lon - 360 - cm) = -(lon - cm) + 360 by ring]

/-! ## Lambert conformal conic -/

/-- the members of `LAMBERT` that are read, map_project.h:18-33 -/
structure Lambert where
  e : Ellip
  cm : ℝ
  n : ℝ
  f : ℝ
  rho0 : ℝ

/-- `pow((1 - ECC sin φ) / (1 + ECC sin φ), 0.5 ECC)`, map_project.cpp:211, :215, :219, :248 and :280 -/
def eccFactor (ecc phi : ℝ) : ℝ := ((1 - ecc * Real.sin phi) / (1 + ecc * Real.sin phi)) ^ (0.5 * ecc)

/-- `t_pha`, `t_phb` and `t_rlat0`, map_project.cpp:210-221 -/
def lambT (ecc phi : ℝ) : ℝ := Real.tan (45 * d2r - 0.5 * phi) / eccFactor ecc phi

/-- `m_pha` and `m_phb`, map_project.cpp:213 and :217 -/
def lambM (ecc2 phi : ℝ) : ℝ := Real.cos phi / dSqrt (1 - ecc2 * Real.sin phi ^ 2)

open Classical in
/-- map_project.cpp:190-236 -/
def vlamb (name : String) (rlong0 rlat0 pha phb : ℝ) : Outcome Lambert := do
  let e ← mapSetup name
  let pha := pha * d2r
  let phb := phb * d2r
  let tPha := lambT e.ecc pha
  let mPha := lambM e.ecc2 pha
  let tPhb := lambT e.ecc phb
  let mPhb := lambM e.ecc2 phb
  let tRlat0 := lambT e.ecc (rlat0 * d2r)
  let n := if pha ≠ phb then (dLog mPha - dLog mPhb) / (dLog tPha - dLog tPhb) else Real.sin pha
  let f := mPha / (n * tPha ^ n)
  .ok ⟨e, rlong0, n, f, e.eqRad * f * tRlat0 ^ n⟩

open Classical in
/-- map_project.cpp:240-258, result (x, y) in metres -/
def lamb (p : Lambert) (lon lat : ℝ) : ℝ × ℝ :=
  let lon := turnDown p.cm (turnUp p.cm lon)
  let lat := lat * d2r
  let hold2 := eccFactor p.e.ecc lat
  let hold3 := Real.tan (45 * d2r - 0.5 * lat)
  let hold3 := if |hold3| < 1 / 10000000000 then 0 else hold3
  let hold1 := if hold3 = 0 then 0 else (hold3 / hold2) ^ p.n
  let rho := p.e.eqRad * p.f * hold1
  let theta := p.n * (lon - p.cm) * d2r
  (rho * Real.sin theta, p.rho0 - rho * Real.cos theta)

/-- the body of the loop, map_project.cpp:280-281 -/
def ilambStep (ecc t tphi : ℝ) : ℝ := 90 * d2r - 2 * Real.arctan (t * eccFactor ecc tphi)

open Classical in
/-- map_project.cpp:277-284; the first argument counts the remaining iterations -/
def ilambLoop (ecc t : ℝ) : Nat → (tphi phi delta : ℝ) → ℝ
  | 0, _, phi, _ => phi
  | i + 1, tphi, phi, delta =>
    if delta > 1 / 100000000 then
      let phi := ilambStep ecc t tphi
      ilambLoop ecc t i phi phi |(|tphi| - |phi|)|
    else phi

/-- map_project.cpp:263-286, result (lat, lon).  `phi` has no initial value in the code, but the loop runs
at least once. -/
def ilamb (p : Lambert) (x y : ℝ) : ℝ × ℝ :=
  let theta := Real.arctan (x / (p.rho0 - y))
  let lon := theta / p.n * r2d + p.cm
  let temp := x * x + (p.rho0 - y) * (p.rho0 - y)
  let rho := copysign (dSqrt temp) p.n
  let t := (rho / (p.e.eqRad * p.f)) ^ (1 / p.n)
  let tphi := 90 * d2r - 2 * Real.arctan t
  (ilambLoop p.e.ecc t 100 tphi 0 1 * r2d, lon)

open Classical in
/-- `LambertTransform`, grid.cpp:286-304 -/
def lambertMake (name : String) (orgLat orgLong rot pha phb : ℝ) : Outcome (Frame × Lambert) := do
  let fr ← Frame.make orgLat orgLong rot
  if pha > 90 ∨ pha < -90 then .throws
  else if phb > 90 ∨ phb < -90 then .throws
  else do
    let p ← vlamb name fr.orgLong fr.orgLat pha phb
    .ok (fr, p)

/-- grid.cpp:306-315 -/
def lambertFrom (tr : Frame × Lambert) (lat lon : ℝ) : ℝ × ℝ :=
  let v := lamb tr.2 lon lat
  tr.1.rotate (v.1 / 1000, v.2 / 1000)

/-- grid.cpp:317-325 -/
def lambertTo (tr : Frame × Lambert) (v : ℝ × ℝ) : ℝ × ℝ :=
  let v := tr.1.inverseRotate v
  let r := ilamb tr.2 (v.1 * 1000) (v.2 * 1000)
  (r.1, normalizeLon r.2)

/-! ## Azimuthal equidistant -/

/-- the members of `AZIMUTHAL_EQUIDIST` that are read, map_project.h:72-82 -/
structure AziEqdist where
  e : Ellip
  cm : ℝ
  pole : ℝ
  sinp : ℝ
  cosp : ℝ

/-- map_project.cpp:443-456 -/
def vazeqdist (name : String) (lon0 lat0 : ℝ) : Outcome AziEqdist := do
  let e ← mapSetup name
  .ok ⟨e, lon0, lat0, Real.sin (lat0 * d2r), Real.cos (lat0 * d2r)⟩

open Classical in
/-- map_project.cpp:458-485, result (x, y) in metres -/
def azeqdist (p : AziEqdist) (lon lat : ℝ) : ℝ × ℝ :=
  let lon := turnDown p.cm (turnUp p.cm lon)
  let dlon := (lon - p.cm) * d2r
  let lat := lat * d2r
  let slat := Real.sin lat
  let clat := Real.cos lat
  let clon := Real.cos dlon
  let cc := p.sinp * slat + p.cosp * clat * clon
  if |cc| ≥ 1 then (0, 0)
  else
    let c := Real.arccos cc
    let k := p.e.eqRad * c / Real.sin c
    (k * clat * Real.sin dlon, k * (p.cosp * slat - p.sinp * clat * clon))

open Classical in
/-- map_project.cpp:487-518, result (lat, lon) -/
def iazeqdist (p : AziEqdist) (x y : ℝ) : ℝ × ℝ :=
  let rho := Real.sqrt (x ^ 2 + y ^ 2)
  if rho = 0 then (p.pole, p.cm)
  else
    let c := rho / p.e.eqRad
    let sinC := Real.sin c
    let cosC := Real.cos c
    let lat := Real.arcsin (cosC * p.sinp + y * sinC * p.cosp / rho) * r2d
    let lon :=
      if p.pole = 90 then p.cm + r2d * atan2 x (-y)
      else if p.pole = -90 then p.cm + r2d * atan2 x y
      else p.cm + r2d * atan2 (x * sinC) (rho * p.cosp * cosC - y * p.sinp * sinC)
    (lat, if lon ≤ -180 then lon + 360 else lon)

/-- `AziEqdistTransform`, grid.cpp:362-370 -/
def aziEqdistMake (name : String) (orgLat orgLong rot : ℝ) : Outcome (Frame × AziEqdist) := do
  let fr ← Frame.make orgLat orgLong rot
  let p ← vazeqdist name fr.orgLong fr.orgLat
  .ok (fr, p)

/-- grid.cpp:372-381 -/
def aziEqdistFrom (tr : Frame × AziEqdist) (lat lon : ℝ) : ℝ × ℝ :=
  let v := azeqdist tr.2 lon lat
  tr.1.rotate (v.1 / 1000, v.2 / 1000)

/-- grid.cpp:383-391 -/
def aziEqdistTo (tr : Frame × AziEqdist) (v : ℝ × ℝ) : ℝ × ℝ :=
  let v := tr.1.inverseRotate v
  let r := iazeqdist tr.2 (v.1 * 1000) (v.2 * 1000)
  (r.1, normalizeLon r.2)

/-! ## Transverse Mercator -/

/-- `TRANS_MERCATOR`, map_project.h:45-57 -/
structure TransMerc where
  e : Ellip
  useFalseEasting : Bool
  falseEasting : ℤ
  mapScaleFactor : ℝ
  cm : ℝ
  yCentral : ℝ
  e2 : ℝ
  c1 : ℝ
  c2 : ℝ
  c3 : ℝ
  c4 : ℝ
  ic1 : ℝ
  ic2 : ℝ
  ic3 : ℝ
  ic4 : ℝ

/-- `M`, the distance from the equator along the meridian, map_project.cpp:341-342 -/
def TransMerc.arc (p : TransMerc) (lat : ℝ) : ℝ :=
  p.e.eqRad * (p.c1 * lat - p.c2 * Real.sin (2 * lat) + p.c3 * Real.sin (4 * lat) - p.c4 * Real.sin (6 * lat))

open Classical in
/-- map_project.cpp:331-383, result (x, y) in metres.  `fabs(lat) == M_PI_2` is the equality of reals; the
decimal constants 0.1666…, 0.00833…, 0.0416… and 0.00138… are 1/6, 1/120, 1/24 and 1/720. -/
def tm (p : TransMerc) (lon lat : ℝ) : ℝ × ℝ :=
  let dlon := lon - p.cm
  let dlon := if |dlon| > 360 then dlon + copysign 360 (-dlon) else dlon
  let dlon := if |dlon| > 180 then copysign (360 - |dlon|) (-dlon) else dlon
  let lat := lat * d2r
  let m := p.arc lat
  let v : ℝ × ℝ :=
    if |lat| = Real.pi / 2 then (0, p.mapScaleFactor * m)
    else
      let n := p.e.eqRad / dSqrt (1 - p.e.ecc2 * Real.sin lat ^ 2)
      let t := Real.tan lat * Real.tan lat
      let t2 := t * t
      let c := p.e2 * Real.cos lat * Real.cos lat
      let a := dlon * d2r * Real.cos lat
      let a2 := a * a
      let a3 := a2 * a
      let a5 := a3 * a2
      let x := p.mapScaleFactor * n *
        (a + (1 - t + c) * (a3 * (1 / 6)) + (5 - 18 * t + t2 + 72 * c - 58 * p.e2) * (a5 * (1 / 120)))
      let a4 := a3 * a
      let a6 := a5 * a
      let y := p.mapScaleFactor *
        (m + n * Real.tan lat * (0.5 * a2 + (5 - t + 9 * c + 4 * c * c) * (a4 * (1 / 24)) +
          (61 - 58 * t + t2 + 600 * c - 330 * p.e2) * (a6 * (1 / 720))))
      (x, y)
  (if p.useFalseEasting then v.1 + p.falseEasting else v.1, v.2 - p.yCentral)

/-- map_project.cpp:290-329 -/
def vtm (name : String) (lon0 lat0 : ℝ) (useFalseEasting : Bool) (falseEasting : ℤ) (mapScaleFactor : ℝ) :
    Outcome TransMerc := do
  let e ← mapSetup name
  let e1 := (1 - dSqrt (1 - e.ecc2)) / (1 + dSqrt (1 - e.ecc2))
  let p : TransMerc :=
    { e := e
      useFalseEasting := useFalseEasting
      falseEasting := falseEasting
      mapScaleFactor := mapScaleFactor
      cm := lon0
      yCentral := 0
      e2 := e.ecc2 / (1 - e.ecc2)
      c1 := 1 - 0.25 * e.ecc2 - 3 * e.ecc4 / 64 - 5 * e.ecc6 / 256
      c2 := 3 * e.ecc2 / 8 + 3 * e.ecc4 / 32 + 45 * e.ecc6 / 1024
      c3 := 15 * e.ecc4 / 256 + 45 * e.ecc6 / 1024
      c4 := 35 * e.ecc6 / 3072
      ic1 := 1.5 * e1 - 27 * e1 ^ 3 / 32
      ic2 := 21 * e1 * e1 / 16 - 55 * e1 ^ 4 / 32
      ic3 := 151 * e1 ^ 3 / 96
      ic4 := 1097 * e1 ^ 4 / 512 }
  .ok { p with yCentral := (tm p lon0 lat0).2 }

/-- `phi1`, the foot-point latitude, map_project.cpp:404-405 -/
def TransMerc.foot (p : TransMerc) (mu : ℝ) : ℝ :=
  mu + p.ic1 * Real.sin (2 * mu) + p.ic2 * Real.sin (4 * mu) + p.ic3 * Real.sin (6 * mu) + p.ic4 * Real.sin (8 * mu)

/-- map_project.cpp:385-438, result (lat, lon) -/
def itm (p : TransMerc) (x y : ℝ) : ℝ × ℝ :=
  let y := y + p.yCentral
  let x := if p.useFalseEasting then x - p.falseEasting else x
  let m := y / p.mapScaleFactor
  let phi1 := p.foot (m / (p.e.eqRad * p.c1))
  let c1 := p.e2 * Real.cos phi1 * Real.cos phi1
  let c12 := c1 * c1
  let t1 := Real.tan phi1 * Real.tan phi1
  let t12 := t1 * t1
  let tmp := 1 - p.e.ecc2 * (1 - Real.cos phi1 * Real.cos phi1)
  let tmp2 := dSqrt tmp
  let n1 := p.e.eqRad / tmp2
  let r1 := p.e.eqRad * (1 - p.e.ecc2) / (tmp * tmp2)
  let d := x / (n1 * p.mapScaleFactor)
  let d2 := d * d
  let d3 := d2 * d
  let d5 := d3 * d2
  let lon := p.cm + r2d *
    (d - (1 + 2 * t1 + c1) * (d3 * (1 / 6)) +
      (5 - 2 * c1 + 28 * t1 - 3 * c12 + 8 * p.e2 + 24 * t12) * (d5 * (1 / 120))) / Real.cos phi1
  let d4 := d3 * d
  let d6 := d5 * d
  let lat := phi1 - n1 * Real.tan phi1 / r1 *
    (0.5 * d2 - (5 + 3 * t1 + 10 * c1 - 4 * c12 - 9 * p.e2) * (d4 * (1 / 24)) +
      (61 + 90 * t1 + 298 * c1 + 45 * t12 - 252 * p.e2 - 3 * c12) * (d6 * (1 / 720)))
  (lat * r2d, lon)

/-- `TransMercTransform`, grid.cpp:327-339 -/
def transMercMake (name : String) (orgLat orgLong rot : ℝ) (useFalseEasting : Bool) (falseEasting : ℤ)
    (mapScaleFactor : ℝ) : Outcome (Frame × TransMerc) := do
  let fr ← Frame.make orgLat orgLong rot
  let p ← vtm name fr.orgLong fr.orgLat useFalseEasting falseEasting mapScaleFactor
  .ok (fr, p)

/-- grid.cpp:341-350 -/
def transMercFrom (tr : Frame × TransMerc) (lat lon : ℝ) : ℝ × ℝ :=
  let v := tm tr.2 lon lat
  tr.1.rotate (v.1 / 1000, v.2 / 1000)

/-- grid.cpp:352-360 -/
def transMercTo (tr : Frame × TransMerc) (v : ℝ × ℝ) : ℝ × ℝ :=
  let v := tr.1.inverseRotate v
  let r := itm tr.2 (v.1 * 1000) (v.2 * 1000)
  (r.1, normalizeLon r.2)

end
end Verif.Geo
