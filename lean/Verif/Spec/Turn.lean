import Verif.Model.XCorrBuild
import Verif.Model.RealSolver
import Verif.Model.Geo

/-!
# What it means that a relocation takes place elsewhere (specification of C134)
-/

namespace Verif.Turn
open Verif.Catalog Verif.Relocate Verif.Geo

variable {K : Type}

/-- an event elsewhere: `φ` is the new place of a latitude and a longitude -/
def movedEvent (φ : K → K → K × K) (e : Event K) : Event K :=
  { e with latitude := (φ e.latitude e.longitude).1, longitude := (φ e.latitude e.longitude).2 }

/-- a station elsewhere -/
def movedStation (φ : K → K → K × K) (st : Station K) : Station K :=
  { st with latitude := (φ st.latitude st.longitude).1, longitude := (φ st.latitude st.longitude).2 }

/-- The same catalog elsewhere: all stations and events moved, nothing else changed. -/
def moved (φ : K → K → K × K) (c : Catalog K) : Catalog K :=
  { c with
    stations := c.stations.map (fun kv => (kv.1, movedStation φ kv.2))
    events := c.events.map (fun kv => (kv.1, movedEvent φ kv.2)) }

/-- What the solver is told, elsewhere. -/
def movedOp (φ : K → K → K × K) : SolverOp K → SolverOp K
  | .event id lat lon depth => .event id (φ lat lon).1 (φ lat lon).2 depth
  | .station sta lat lon elevation => .station sta (φ lat lon).1 (φ lat lon).2 elevation
  | .obs o => .obs o
  | .params p => .params p

/-- The earth looks the same from there: the travel times from a moved event to a moved station are those from the event to the
station, and going some kilometres east and north from a moved place leads to the moved destination. -/
structure SameEarth (φ : K → K → K × K) (env env' : Env K) : Prop where
  ttt : ∀ e st ph, env'.ttt (movedEvent φ e) (movedStation φ st) ph = env.ttt e st ph
  coords : ∀ x y lat lon depth, env'.coords x y (φ lat lon).1 (φ lat lon).2 depth =
    φ (env.coords x y lat lon depth).1 (env.coords x y lat lon depth).2
  rest : env' = { env with ttt := env'.ttt, coords := env'.coords }

/-- The solver does the same, wherever it is told the events and the stations are. -/
structure SameSolver (φ : K → K → K × K) (sol sol' : SolverAnswers K) : Prop where
  prepare : ∀ it ops absLoc down, sol'.prepare it (ops.map (movedOp φ)) absLoc down = sol.prepare it ops absLoc down
  solve : ∀ it ops damping, sol'.solve it (ops.map (movedOp φ)) damping = sol.solve it ops damping

/-- The distances between moved events and stations and the correlation of their waveforms are the same. -/
structure SameXcorr (φ : K → K → K × K) (x x' : XcorrArgs K) : Prop where
  evSta : ∀ e st, x'.evSta (movedEvent φ e) (movedStation φ st) = x.evSta e st
  evEv : ∀ e f, x'.evEv (movedEvent φ e) (movedEvent φ f) = x.evEv e f
  correlate : ∀ n e p f q, x'.correlate n (movedEvent φ e) p (movedEvent φ f) q = x.correlate n e p f q
  rest : x' = { x with evSta := x'.evSta, evEv := x'.evEv, correlate := x'.correlate }

/-- What an iteration did, elsewhere. -/
def movedLog (φ : K → K → K × K) (l : IterLog K) : IterLog K :=
  { l with before := moved φ l.before, after := moved φ l.after, ops := l.ops.map (movedOp φ) }

/-- The result of a relocation, elsewhere: parameters, answers of the solver, times, depths, residuals, weights are the same. -/
def movedResult (φ : K → K → K × K) (r : Catalog K × List (IterLog K)) : Catalog K × List (IterLog K) :=
  (moved φ r.1, r.2.map (movedLog φ))

/-- A correlation of two picks, elsewhere. -/
def movedCall (φ : K → K → K × K) (c : XcorrCall K) : XcorrCall K :=
  { c with refEv := movedEvent φ c.refEv, ev := movedEvent φ c.ev }

/-- The result of a multi-event relocation, elsewhere. -/
def movedMulti (φ : K → K → K × K) (s : MultiState K) : MultiState K :=
  { reloc := moved φ s.reloc
    xcorrData := s.xcorrData
    calls := s.calls.map (movedCall φ)
    done := s.done.map (fun d => (d.1, movedResult φ d.2)) }

/-! ## the globe -/

/-- `c` degrees to the east, the longitude written between -180 and 180 -/
noncomputable def east (c : ℝ) (lat lon : ℝ) : ℝ × ℝ := (lat, normalizeLon (lon + c))

/-- A round earth whose layers are the same everywhere: the travel times do not change when event and station are turned
together about the axis, however their longitudes are written. -/
def RoundEarth (ttt : Event ℝ → Station ℝ → String → Option (TravelTimeInfo ℝ)) : Prop :=
  ∀ (c : ℝ) (k l : ℤ) (e : Event ℝ) (st : Station ℝ) (ph : String),
    ttt { e with longitude := e.longitude + c + 360 * k } { st with longitude := st.longitude + c + 360 * l } ph = ttt e st ph

/-- the place some kilometres to the east and the north, dd.cpp:1141-1149 -/
noncomputable def newPlace (x y lat lon depth : ℝ) : ℝ × ℝ :=
  computeCoordinates (Real.sqrt (x ^ 2 + y ^ 2)) (atan2 x y) lat lon depth false

end Verif.Turn
