import Verif.Proofs.Turn
import Verif.Proofs.Transform
import Verif.Props.DateLine
import Verif.Props.XCorrBuild
import Verif.Props.RelocateTotal
import Verif.Props.SingleEvent
import Verif.Model.TravelTime

/-!
# C134: a relocation does not depend on where on the globe it takes place
-/

set_option linter.unusedSectionVars false
set_option linter.unusedSimpArgs false

namespace Verif.Turn
open Verif.Catalog Verif.Relocate Verif.Geo Verif.DateLine

section
variable {K : Type} [Field K] [LinearOrder K] {φ : K → K → K × K}

/-- **C134a** If all events and stations are elsewhere and the earth looks the same from there, the relocation does the same: the same
restored events, the same parameters and the same answers of the solver in every iteration, and the same events returned with the same
times, depths, residuals and weights, at the places that correspond to those of the original relocation. If it fails it fails there too. -/
theorem relocation_elsewhere {a : Args K} {env' : Env K} {sol' : SolverAnswers K} (hE : SameEarth φ a.env env')
    (hS : SameSolver φ a.sol sol') (cat : Catalog K) :
    relocate { a with env := env', sol := sol' } (moved φ cat) = (relocate a cat).map (movedResult φ) := relocate_moved hE hS cat

/-- **C134b** The same for the relocation of a catalog cluster by cluster, with the cross-correlation of the picks. -/
theorem multi_elsewhere {m : MultiArgs K} {env' : Env K} {x' : XcorrArgs K} {sol' : Nat → SolverAnswers K}
    (hE : SameEarth φ m.env env') (hx : SameXcorr φ m.x x') (hS : ∀ i, SameSolver φ (m.sol i) (sol' i))
    (bg : Catalog K) (clusters : List Cluster) (xc : XCorr.Cache) :
    relocateMultiEvents { m with env := env', x := x', sol := sol' } (moved φ bg) clusters xc =
      (relocateMultiEvents m bg clusters xc).map (movedMulti φ) := multi_moved hE hx hS bg clusters xc

/-- **C134c** The same for single-event relocation, with the same neighbours selected. -/
theorem single_event_elsewhere {s : SingleArgs K} {env' : Env K} {sol' : SolverAnswers K}
    {xcorr' : Catalog K → Cluster → Outcome XCorr.Cache} (hE : SameEarth φ s.env env') (hS : SameSolver φ s.sol sol')
    (hx : ∀ c cl, xcorr' (moved φ c) cl = s.xcorr c cl) (bg evCat : Catalog K) (evId : Nat) (nb : Neighbours) :
    relocateSingleEvent { s with env := env', sol := sol', xcorr := xcorr' } (moved φ bg) (moved φ evCat) evId nb =
      (relocateSingleEvent s bg evCat evId nb).map (movedResult φ) := single_moved hE hS hx bg evCat evId nb
end

/-! ## the solver of the code -/

theorem distances_moved (φ : ℝ → ℝ → ℝ × ℝ) (s : Solver ℝ) (io : List (Nat × Obs ℝ)) :
    (movedSolver φ s).interEventDistances io = s.interEventDistances io := by
  have hf : ∀ i, (movedSolver φ s).eventParams.find? i =
      (s.eventParams.find? i).map (fun v => ((φ v.1 v.2.1).1, (φ v.1 v.2.1).2, v.2.2)) :=
    fun i => TimeShift.find?_mapVal (fun v : ℝ × ℝ × ℝ => ((φ v.1 v.2.1).1, (φ v.1 v.2.1).2, v.2.2)) i s.eventParams
  unfold Solver.interEventDistances
  simp only [hf]
  congr 1
  funext _ x
  cases s.eventParams.find? x.2.ev1 with
  | none => rfl
  | some _ =>
    simp only [Option.map_some]
    cases s.eventParams.find? x.2.ev2 <;> rfl

theorem prepared_moved (su : SolverSetup) (φ : ℝ → ℝ → ℝ × ℝ) (ops : List (SolverOp ℝ)) (absLoc down : ℝ) :
    su.prepared (ops.map (movedOp φ)) absLoc down = su.prepared ops absLoc down := by
  unfold SolverSetup.prepared
  rw [run_moved]
  have h : ∀ io ip, (movedSolver φ (Solver.run ops)).prepare su.nth absLoc down io ip =
      (Solver.run ops).prepare su.nth absLoc down io ip := by
    intro io ip
    unfold Solver.prepare
    simp only [distances_moved]
    rfl
  exact h _ _

/-- **C134d** The solver of the code does not look at the places it is told: it is prepared and answers in the same way wherever the
events and stations are. -/
theorem solver_ignores_places (φ : ℝ → ℝ → ℝ × ℝ) (su : SolverSetup) (so : SolverOptions ℝ)
    (hodd : ∀ it ops, su.odd it (ops.map (movedOp φ)) = su.odd it ops) :
    SameSolver φ (realSolver su so) (realSolver su so) := by
  constructor
  · intro it ops absLoc down
    show (do let _ ← su.prepared (ops.map (movedOp φ)) absLoc down; _) = (do let _ ← su.prepared ops absLoc down; _)
    rw [prepared_moved, run_moved]
    rfl
  · intro it ops damping
    have h : ∀ p, su.solved it (ops.map (movedOp φ)) p damping = su.solved it ops p damping := by
      intro p
      unfold SolverSetup.solved
      rw [hodd, run_moved]
      rfl
    show (match su.prepared (ops.map (movedOp φ)) _ _ with | .ok (some p) => _ | .ok none => _ | _ => _) = _
    rw [prepared_moved, hodd]
    simp only [h]
    rfl

/-! ## the globe -/

theorem east_lon (c lon : ℝ) : ∃ k : ℤ, normalizeLon (lon + c) = lon + c + 360 * k := by
  obtain ⟨-, -, k, hk⟩ := normalizeLon_spec (lon + c)
  exact ⟨k, hk⟩

/-- **C134e** On a round earth, and with the moves of the events as the code computes them, everything looks the same from any number of
degrees further east, also beyond the date line. -/
theorem round_earth_looks_the_same {env : Env ℝ} (hr : RoundEarth env.ttt) (hc : env.coords = newPlace) (c : ℝ) :
    SameEarth (east c) env env := by
  refine ⟨?_, ?_, rfl⟩
  · intro e st ph
    obtain ⟨k, hk⟩ := east_lon c e.longitude
    obtain ⟨l, hl⟩ := east_lon c st.longitude
    have := hr c k l e st ph
    rw [← hk, ← hl] at this
    exact this
  · intro x y lat lon depth
    rw [hc]
    obtain ⟨k, hk⟩ := east_lon c lon
    unfold newPlace computeCoordinates east
    by_cases h0 : Real.sqrt (x ^ 2 + y ^ 2) = 0
    · simp only [h0, if_true]
    · simp only [h0, if_false]
      generalize atan2 (Real.sin (atan2 x y) * _ * _) _ = θ
      refine Prod.ext rfl ?_
      simp only
      obtain ⟨-, -, l, hl⟩ := normalizeLon_spec (radToDeg (degToRad lon + θ))
      apply normalizeLon_congr
      rw [hk, hl]
      have e : ∀ x, radToDeg (degToRad x + θ) = x + radToDeg θ := by
        intro x; unfold radToDeg degToRad; field_simp
      rw [e, e]
      refine ⟨k - l, ?_⟩
      push_cast
      ring

/-- **C134f** Together: the relocation of the code, with its own solver and its own moves, on a round earth. With all events and stations
`c` degrees further east, on the same or on the other side of the date line, the same is done, and the same events are returned `c` degrees
further east. -/
theorem relocation_round_the_globe {a : Args ℝ} {su : SolverSetup} (hr : RoundEarth a.env.ttt) (hc : a.env.coords = newPlace)
    (hs : a.sol = realSolver su a.so) (c : ℝ) (hodd : ∀ it ops, su.odd it (ops.map (movedOp (east c))) = su.odd it ops) (cat : Catalog ℝ) :
    relocate a (moved (east c) cat) = (relocate a cat).map (movedResult (east c)) :=
  relocation_elsewhere (sol' := a.sol) (round_earth_looks_the_same hr hc c)
    (by rw [hs]; exact solver_ignores_places _ su a.so hodd) cat

/-- **C134g** The travel times, take-off angles and derivatives of the table for a constant velocity are those of a round earth, for an event
that is not (up to 6 mm) right below the station. -/
theorem constant_velocity_is_round (pVel sVel c : ℝ) (e e' s s' : Pt ℝ) (elevation : ℝ) (ph : String)
    (he : Turned c e e') (hs : Turned c s s') (h : Apart e s) :
    TravelTime.homogeneousRay pVel sVel e'.lat e'.lon e'.depth s'.lat s'.lon elevation ph =
      TravelTime.homogeneousRay pVel sVel e.lat e.lon e.depth s.lat s.lon elevation ph := by
  have h1 : ∀ d, computeDistance e'.lat e'.lon s'.lat s'.lon d false = computeDistance e.lat e.lon s.lat s.lon d false := by
    intro d
    have d1 := h.distinct
    have d2 := (h.turned he hs).distinct
    unfold Distinct at d1 d2
    unfold computeDistance
    simp only [if_neg d1, if_neg d2]
    rw [haversine_turned he hs]
  have h2 := (turning_changes_nothing c e e' s s' he hs h).2.1
  unfold TravelTime.homogeneousRay
  rw [h2, he.2.1]
  simp only [h1]

/-! ## Concrete cases -/

namespace Example

/-- an earth on which the travel time depends on the great circle between event and station, and the take-off azimuth is its direction -/
noncomputable def table (e : Event ℝ) (st : Station ℝ) (_ : String) : Option (TravelTimeInfo ℝ) :=
  some ⟨Real.sqrt (haversine e.latitude e.longitude st.latitude st.longitude) * 1000 + e.depth / 5,
    radToDeg (atan2 (Real.sin (degToRad (st.longitude - e.longitude)) * Real.cos (degToRad st.latitude))
      (Real.cos (degToRad e.latitude) * Real.sin (degToRad st.latitude) -
        Real.sin (degToRad e.latitude) * Real.cos (degToRad st.latitude) * Real.cos (degToRad (st.longitude - e.longitude)))), 0, 6, 1⟩

theorem table_round : RoundEarth table := by
  intro c k l e st ph
  unfold table
  have h1 : st.longitude + c + 360 * (l : ℝ) - (e.longitude + c + 360 * (k : ℝ)) = st.longitude - e.longitude + 360 * ((l - k : ℤ) : ℝ) := by
    push_cast; ring
  have h2 : haversine e.latitude (e.longitude + c + 360 * k) st.latitude (st.longitude + c + 360 * l) =
      haversine e.latitude e.longitude st.latitude st.longitude := by
    unfold haversine
    rw [h1, sin_half_sq]
  simp only [h1, h2, degToRad_turn, Real.sin_add_int_mul_two_pi, Real.cos_add_int_mul_two_pi]

/-- the relocation of the real solver (`RealExample`) on that earth -/
noncomputable def args : Args ℝ :=
  { RealExample.args.toArgs 0 [(1, ⟨1, [(2, [("N.A.", "Pg")])]⟩), (2, ⟨2, [(1, [("N.A.", "Pg")])]⟩)] [] with
    env := { RealExample.env with ttt := table, coords := newPlace } }

/-- the hypotheses hold for it, 177 degrees further east, which is beyond the date line for the events (longitude 7) but not for the
station (longitude 2) -/
example : relocate args (moved (east 177) RealExample.bg) = (relocate args RealExample.bg).map (movedResult (east 177)) :=
  relocation_round_the_globe (su := RealExample.setup) table_round rfl rfl 177 (fun _ _ => rfl) _

example : east 177 46 7 = (46, -176) ∧ east 177 1 2 = (1, 179) := by
  constructor
  · refine Prod.ext rfl ?_
    show normalizeLon (7 + 177) = -176
    rw [normalizeLon_congr (b := -176) ⟨1, by norm_num⟩, normalizeLon_id (by norm_num) (by norm_num)]
  · refine Prod.ext rfl ?_
    show normalizeLon (2 + 177) = 179
    rw [normalizeLon_id (by norm_num) (by norm_num)]
    norm_num

open Relocate.Example

/-- ten degrees north and a hundred east on a flat earth -/
def shift (lat lon : ℚ) : ℚ × ℚ := (lat + 10, lon + 100)

/-- travel times 4 s to the south of the 1010th degree: what `Relocate.Example.env` is from there -/
def env' : Env ℚ := { env with ttt := fun e _ _ => if e.latitude < 1010 then some ⟨4, 90, 100, 2, 1⟩ else none }

theorem sameEarth : SameEarth shift env env' := by
  refine ⟨?_, ?_, rfl⟩
  · intro e st ph
    simp only [env', env, movedEvent, shift]
    by_cases h : e.latitude < 1000
    · rw [if_pos h, if_pos (by show e.latitude + 10 < 1010; linarith)]
    · rw [if_neg h, if_neg (by show ¬ e.latitude + 10 < 1010; linarith)]
  · intro x y lat lon depth
    simp only [env', env, shift]
    rw [add_right_comm, add_right_comm lon]

/-- the relocation of `Verif.Relocate.Example` from there: the same moves, the event returned ten degrees further north -/
example : ∃ r log, relocate { Relocate.Example.args with env := env' } (moved shift cat) = .ok (r, log) ∧
    seen r = [⟨1, 57, 11000000, true⟩] ∧
    doneIn log = [⟨[], 1, true⟩, ⟨[], 3, true⟩, ⟨[1], 5, false⟩] := check_true (by decide +kernel)

/-- two clusters relocated from there -/
example : multi (relocateMultiEvents { margs with env := env' } (moved shift cat4) clusters4 known) =
    some ⟨[⟨3, 51, 31000000, true⟩, ⟨1, 57, 11000000, true⟩], [(1, 2)], some ⟨true, 3/4, -1⟩, some ⟨true, 9/10, -1/5⟩⟩ := by
  decide +kernel

/-- a single event relocated from there, with its neighbours -/
example : ∃ r log, relocateSingleEvent { single with env := env' } (moved shift cat) (moved shift evCat) 2 neighbours = .ok (r, log) ∧
    seen r = [⟨3, 58, 32000000, true⟩] ∧
    doneIn log = [⟨[], 1, true⟩, ⟨[], 3, true⟩, ⟨[], 5, false⟩] := check_true (by decide +kernel)

theorem sameXcorr : SameXcorr shift xargs xargs := ⟨fun _ _ => rfl, fun _ _ => rfl, fun _ _ _ _ _ => rfl, rfl⟩

theorem sameSolver (k : Nat) (t : Nat → ℚ) : SameSolver shift (solver k t) (solver k t) := ⟨fun _ _ _ _ => rfl, fun _ _ _ => rfl⟩

end Example
end Verif.Turn
