import Verif.Model.NllGrid
import Verif.Model.TravelTime

/-!
# Model of the requests to a table of grids (libs/hdd/ttt/nllgrid.cpp:199-469, libs/hdd/nll/grid.cpp:981-1092, 1184-1247, 1284-1307, 1366-1402)

The two forms of `compute` with what they read: the time, the velocity at the event and the angles.  The cache of open grids and
the file handles are those of `Model/NllGrid.lean`, the reading and the interpolation those of `Model/Grid.lean` and
`Model/TravelTime.lean`.

Simplifications: `double` and `float` are ℝ and the conversion of the bytes of a node to a number is an arbitrary function; a
division by a zero velocity is not modelled; the conversion of the interpolated angles to `unsigned short` is that of
`Model/TravelTime.lean`.  The search of the nearest grid (nllgrid.cpp:230-247, 399-416; `Model/KdTree.lean`) is an arbitrary
function of the phase and the coordinates of the station, and the answers of the operating system are inputs of every request.
-/

namespace Verif.GridTable
open Verif.Grid Verif.NllGrid Verif.TravelTime

noncomputable section

variable {S G : Type} [DecidableEq S] [DecidableEq G]

/-- latitude, longitude and elevation (station) or depth (event) -/
abbrev Place := ℝ × ℝ × ℝ

/-- one grid: the header (grid.h:195-228) as far as it is used by reading, and the content of the data file -/
structure GridData where
  info : Info ℝ
  useDouble : Bool
  float : List UInt8 → ℝ
  double : List UInt8 → ℝ
  fromLatLon : ℝ → ℝ → ℝ × ℝ
  distance : ℝ × ℝ → ℝ × ℝ → ℝ
  frame : Geo.Frame
  srce : ℝ × ℝ
  velType : VelType
  file : List UInt8

/-- the settings and the grids of a table, nllgrid.h:60-110: how coordinates are printed in the keys (nllgrid.cpp:209-210),
the nearest grid of a station with whether it is too far, and the grid of the velocities -/
structure Tables (S G : Type) where
  print : Place → S
  time : String → Place → Option G × Bool
  velocity : String → Option G
  angle : String → Place → Option G × Bool
  data : G → GridData
  cutoff : Nat

/-- the value of a node, grid.cpp:1050-1062 (times), 1352-1367 (velocities, before the conversion) -/
def node (d : GridData) (h : Handle) (ix iy iz : Nat) : Outcome ℝ :=
  if d.useDouble then (getBytesAt d.info h 8 ix iy iz).map d.double
  else (getBytesAt d.info h 4 ix iy iz).map d.float

/-- grid.cpp:1064-1092 with 981-1033; `is3D` is grid.h:257 -/
def getTime (d : GridData) (h : Handle) (ev : Place) : Outcome ℝ :=
  let p := d.fromLatLon ev.1 ev.2.1
  if d.info.numx > 1 then getValue3D d.info (node d h) p.1 p.2 ev.2.2
  else getValue2D d.info (node d h) (d.distance p d.srce) ev.2.2

/-- grid.cpp:1369-1402 with 981-1033 (`dist` is `info.origy` for a velocity grid, :1018-1023); `is3D` is grid.h:361 -/
def getVel (d : GridData) (h : Handle) (ev : Place) : Outcome ℝ :=
  let p := d.fromLatLon ev.1 ev.2.1
  (if d.info.numx > 2 then getValue3D d.info (node d h) p.1 p.2 ev.2.2
    else getValue2D d.info (node d h) d.info.origy ev.2.2).map (convertUnits d.info.dy d.velType)

/-- grid.cpp:1284-1307 `AngleGrid::interpolateValues2D` -/
def interpolateAngles2 (c : Cell2 ℝ Angles) : Angles :=
  let v := fun a b => ((c.v a b).dip : ℝ)
  let dip := ⌊bilinear c.ydiff c.zdiff (v false false) (v false true) (v true false) (v true true)⌋₊
  ⟨min (min (c.v false false).quality (c.v false true).quality)
    (min (c.v true false).quality (c.v true true).quality) % 2 ^ 4, dip % 2 ^ 12, 0⟩

/-- grid.cpp:1198-1247 with 981-1033; `is3D` is grid.h:306; the azimuth is `none` (NaN) for a two-dimensional grid (:1242-1245) -/
def getAngles (cutoff : Nat) (d : GridData) (h : Handle) (ev : Place) : Outcome (Option ℝ × ℝ) :=
  let read := fun ix iy iz => (getBytesAt d.info h 4 ix iy iz).map decodeAngles
  let p := d.fromLatLon ev.1 ev.2.1
  if d.info.numx > 1 then
    (getAngles3D d.frame cutoff d.info read p.1 p.2 ev.2.2).map fun a => (some a.1, a.2)
  else do
    let c ← getValuesAt2DLocation d.info read (d.distance p d.srce) ev.2.2
    let a := interpolateAngles2 c
    if a.quality < cutoff then .throws else .ok (none, (a.dip : ℝ) / 10)

/-- a grid access followed by the reading of a value -/
def reading {A : Type} (r : State S G × Outcome (G × Handle)) (f : G → Handle → Outcome A) : State S G × Outcome A :=
  (r.1, r.2.bind fun p => f p.1 p.2)

/-- sequence of two steps that may throw -/
def andThen {A B : Type} (r : State S G × Outcome A) (f : State S G → A → State S G × Outcome B) : State S G × Outcome B :=
  match r with
  | (s, .ok a) => f s a
  | (s, .throws) => (s, .throws)
  | (s, .ub) => (s, .ub)

/-- nllgrid.cpp:201-290 -/
def travelTime (T : Tables S G) (os : Key S → Answers) (s : State S G) (phase : String) (ev sta : Place) : State S G × Outcome ℝ :=
  let key := Key.time phase (T.print sta)
  reading (access s key ⟨(T.time phase sta).1, (T.time phase sta).2, os key⟩) fun g h => getTime (T.data g) h ev

/-- nllgrid.cpp:313-374 -/
def velocityAt (T : Tables S G) (os : Key S → Answers) (s : State S G) (phase : String) (ev : Place) : State S G × Outcome ℝ :=
  let key := Key.velocity phase
  reading (access s key ⟨T.velocity phase, false, os key⟩) fun g h => getVel (T.data g) h ev

/-- nllgrid.cpp:376-459 -/
def anglesAt (T : Tables S G) (os : Key S → Answers) (s : State S G) (phase : String) (ev sta : Place) :
    State S G × Outcome (Option ℝ × ℝ) :=
  let key := Key.angle phase (T.print sta)
  reading (access s key ⟨(T.angle phase sta).1, (T.angle phase sta).2, os key⟩) fun g h => getAngles T.cutoff (T.data g) h ev

/-- nllgrid.cpp:292-469 -/
def ray (T : Tables S G) (os : Key S → Answers) (s : State S G) (phase : String) (ev sta : Place) : State S G × Outcome Ray :=
  andThen (travelTime T os s phase ev sta) fun s t =>
  andThen (velocityAt T os s phase ev) fun s v =>
  andThen (anglesAt T os s phase ev sta) fun s a =>
    let azi := a.1.getD (Geo.radToDeg (Geo.computeAzimuth ev.1 ev.2.1 sta.1 sta.2.1))
    let d := gridDerivatives v a.2
    (s, .ok ⟨t, azi, a.2, d.1, d.2⟩)

/-- what a caller asks of the table -/
inductive Request (S : Type) where
  | time (phase : String) (ev sta : Place) (os : Key S → Answers)
  | ray (phase : String) (ev sta : Place) (os : Key S → Answers)
  | closeOpenFiles

/-- what the caller gets -/
inductive Answer where
  | time (t : ℝ)
  | ray (r : Ray)
  | done

/-- one request -/
def serve (T : Tables S G) (s : State S G) : Request S → State S G × Outcome Answer
  | .time phase ev sta os => let r := travelTime T os s phase ev sta; (r.1, r.2.map .time)
  | .ray phase ev sta os => let r := ray T os s phase ev sta; (r.1, r.2.map .ray)
  | .closeOpenFiles => (closeOpenFiles s, .ok .done)

/-- the requests of the past, oldest first -/
def history (T : Tables S G) (s : State S G) : List (Request S) → State S G
  | [] => s
  | r :: rs => history T (serve T s r).1 rs

end
end Verif.GridTable
