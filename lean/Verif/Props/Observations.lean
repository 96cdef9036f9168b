import Verif.Proofs.Relocate
import Verif.Props.XCorrCache
import Mathlib.Tactic.Linarith
import Mathlib.Tactic.Positivity
import Mathlib.Analysis.SpecialFunctions.Trigonometric.Basic

/-!
# C61, C70: what the relocator tells the solver about a pair of events

`addObservations env o cat xc nb ops0 = .ok (ops, b)` is one call, for one reference event `nb.refId`
and its neighbours: `ops0` are the calls the solver had received before, `ops` those after.
Quantified over every catalog, travel-time model, cache content, options and neighbour lists.
-/

set_option linter.unusedSectionVars false
set_option linter.unusedSimpArgs false

namespace Verif.Relocate
open Verif.Catalog Verif.Solver

variable {K : Type} [Field K] [LinearOrder K]

theorem durToSec_sub [IsStrictOrderedRing K] (a b : Int) :
    (durToSec (a - b) : K) = (a : K) / 1000000 - (b : K) / 1000000 := by
  unfold durToSec
  push_cast
  ring

theorem xcorrEntry_some {xc : XCorr.Cache} {a b : Nat} {sp : StaPhase} {e : XCorr.Entry} :
    xcorrEntry xc a b sp = some e ↔ XCorr.get xc a b sp.1 sp.2 = some e ∧ e.valid = true := by
  unfold xcorrEntry
  cases hx : XCorr.empty xc with
  | true =>
    have : xc = [] := by
      cases xc with
      | nil => rfl
      | cons => simp [XCorr.empty] at hx
    subst this
    simp [XCorr.get, XCorr.at?]
  | false =>
    simp only [Bool.false_eq_true, if_false, Option.bind_eq_some_iff, Option.ite_none_right_eq_some,
      Option.some.injEq]
    constructor
    · rintro ⟨e', h1, h2, rfl⟩; exact ⟨h1, h2⟩
    · rintro ⟨h1, h2⟩; exact ⟨e, h1, h2, rfl⟩

theorem observation_spec [IsStrictOrderedRing K] (o : ObsOptions K) (xc : XCorr.Cache) (mc : K)
    (refEv ev : Event K) (sp : StaPhase) (rp p : Phase K) (h1 : 0 ≤ rp.time - refEv.time)
    (h2 : 0 ≤ p.time - ev.time) :
    ObservationOf o xc refEv ev sp rp p mc (observation o xc mc refEv ev sp rp p) := by
  refine ⟨observation_ids .., ⟨by omega, by omega⟩, ?_, ?_⟩
  · intro hno
    unfold observation
    simp only [durToSec_sub]
    cases hx : xcorrEntry xc refEv.id ev.id sp with
    | none => exact ⟨rfl, rfl, rfl⟩
    | some e =>
      have h := xcorrEntry_some.1 hx
      have hlt : ¬ mc ≤ |(e.coeff : K)| := fun hc => hno e ⟨h.1, h.2, hc⟩
      simp only [if_neg hlt]
      exact ⟨trivial, rfl, trivial⟩
  · intro e ⟨hg, hv, hc⟩
    unfold observation
    simp only [durToSec_sub, xcorrEntry_some.2 ⟨hg, hv⟩, if_pos hc]
    refine ⟨trivial, trivial, rfl, ?_⟩
    rintro w0 rfl
    ring

/-- **C61a.** Every observation given to the solver is the one of two picks of the pair, at the same
station and of the same phase type: none of them precedes its origin, the time is the difference of
the travel times, corrected by the lag only if the correlation is valid and at or above the threshold
of the phase type. -/
theorem observations_correct [IsStrictOrderedRing K] {env : Env K} {o : ObsOptions K} {cat : Catalog K}
    (hw : cat.WF) {xc : XCorr.Cache} {nb : Neighbours} {ops0 ops : List (SolverOp K)} {b : Bool}
    (h : addObservations env o cat xc nb ops0 = .ok (ops, b)) :
    ∃ new, ops = ops0 ++ new ∧ ∀ x ∈ obsOf new, ∃ refEv ev sp n rp p threshold,
      cat.events.find? nb.refId = some refEv ∧ (sp, n) ∈ nb.phases ∧ cat.events.find? n = some ev ∧
      IsPick cat nb.refId sp rp ∧ IsPick cat n sp p ∧ o.minCoef rp.procType = some threshold ∧
      ObservationOf o xc refEv ev sp rp p threshold x := by
  obtain ⟨refEv, s, h1, h2, h3, hi⟩ := addObservations_inv hw h
  obtain ⟨new, hnew, hgood⟩ := hi.new
  refine ⟨new, by rw [← h2, hnew], ?_⟩
  intro x hx
  unfold obsOf at hx
  rw [List.mem_filterMap] at hx
  obtain ⟨op, hop, hx⟩ := hx
  cases op with
  | obs x' =>
    simp only [Option.some.injEq] at hx
    subst hx
    obtain ⟨sp, n, ev, rp, p, mc, g1, g2, g3, g4, g5, g6, g7, rfl⟩ := hgood _ hop
    refine ⟨refEv, ev, sp, n, rp, p, mc, h1, g1, g2, ?_, ?_, g5, observation_spec _ _ _ _ _ _ _ _ g6 g7⟩
    · rw [← (hw.eventKey _ _ h1).1]; exact g3
    · rw [← (hw.eventKey _ _ g2).1]; exact g4
  | event => simp at hx
  | station => simp at hx
  | params => simp at hx

/-- **C61b.** The weight lies between the a-priori weight and the a-priori weight times the scaler,
for every correlation coefficient between -1 and 1. -/
theorem observation_weight [IsStrictOrderedRing K] {o : ObsOptions K} {xc : XCorr.Cache}
    {refEv ev : Event K} {sp : StaPhase} {rp p : Phase K} {threshold : K} {x : ObsArg K}
    (h : ObservationOf o xc refEv ev sp rp p threshold x)
    (hc : ∀ e, XCorr.get xc refEv.id ev.id sp.1 sp.2 = some e → |(e.coeff : K)| ≤ 1) (w0 : K)
    (hw0 : w0 = if o.usePickUncertainties then (rp.classWeight + p.classWeight) / 2 else 1) :
    min w0 (w0 * o.xcorrWeightScaler) ≤ x.weight ∧ x.weight ≤ max w0 (w0 * o.xcorrWeightScaler) := by
  by_cases hu : ∃ e, Usable xc refEv.id ev.id sp threshold e
  · obtain ⟨e, he⟩ := hu
    have hw := (h.corrected e he).2.2.2 w0 hw0
    have h1 := hc e he.1
    have h0 := abs_nonneg (e.coeff : K)
    rw [hw]
    generalize |(e.coeff : K)| = c at *
    generalize w0 * o.xcorrWeightScaler = v
    have a1 := min_le_left w0 v
    have a2 := min_le_right w0 v
    have b1 := le_max_left w0 v
    have b2 := le_max_right w0 v
    generalize min w0 v = lo at *
    generalize max w0 v = hi at *
    have h1' : 0 ≤ 1 - c := by linarith
    constructor
    · nlinarith [mul_nonneg h1' (sub_nonneg.2 a1), mul_nonneg h0 (sub_nonneg.2 a2)]
    · nlinarith [mul_nonneg h1' (sub_nonneg.2 b1), mul_nonneg h0 (sub_nonneg.2 b2)]
  · have hw := (h.picksOnly (fun e he => hu ⟨e, he⟩)).2.2
    rw [hw, ← hw0]
    exact ⟨min_le_left _ _, le_max_left _ _⟩

/-- **C61c.** No pair is forgotten: if travel times can be computed for the picks of both events and
no pick precedes its origin, the pair is observed. -/
theorem observations_complete {env : Env K} {o : ObsOptions K} {cat : Catalog K}
    (hw : cat.Reachable) {xc : XCorr.Cache} {nb : Neighbours} {ops0 ops : List (SolverOp K)} {b : Bool}
    (h : addObservations env o cat xc nb ops0 = .ok (ops, b))
    {sp : StaPhase} {n : Nat} (hn : (sp, n) ∈ nb.phases) {refEv ev : Event K}
    (hr : cat.events.find? nb.refId = some refEv) (he : cat.events.find? n = some ev)
    (h1 : ∀ p, IsPick cat nb.refId sp p → Computable env cat refEv p ∧ refEv.time ≤ p.time)
    (h2 : ∀ p, IsPick cat n sp p → Computable env cat ev p ∧ ev.time ≤ p.time) :
    ∃ x ∈ obsOf ops, x.e1 = nb.refId ∧ x.e2 = n ∧ x.sta = sp.1.toList ∧ x.phase = sp.2.toList := by
  obtain ⟨refEv', s, g1, g2, g3, hi⟩ := addObservations_inv hw.wf h
  rw [hr] at g1
  simp only [Option.some.injEq] at g1
  subst g1
  have k1 := (hw.wf.eventKey _ _ hr).1
  have k2 := (hw.wf.eventKey _ _ he).1
  have := hi.complete (sp, n) ((List.mem_insertionSort tupleLe).2 hn) ev he
    (by rw [k1]; exact h1) (by rw [k2]; exact h2)
  rw [g2, k1, k2] at this
  exact this

/-- **C70a.** The parameters given to the solver are those of the picks of the events concerned, at
their current position: the travel time of the model, the residual (observed minus computed travel
time), and the derivatives of the travel time by east, north and up (per km); they are free exactly
for the reference event, and for the neighbours unless these are kept fixed. -/
theorem parameters_correct {env : Env K} {o : ObsOptions K} {cat : Catalog K}
    (hw : cat.Reachable) {xc : XCorr.Cache} {nb : Neighbours} {ops0 ops : List (SolverOp K)} {b : Bool}
    (h : addObservations env o cat xc nb ops0 = .ok (ops, b)) :
    ∃ new, ops = ops0 ++ new ∧ ∀ q ∈ parOf new, ∃ ev p st name tt,
      (q.ev = nb.refId ∧ q.free = true ∨ q.ev ∈ nb.ids ∧ q.free = !o.keepNeighboursFixed) ∧
      cat.events.find? q.ev = some ev ∧ p ∈ cat.phasesOf q.ev ∧ cat.stations.find? p.stationId = some st ∧
      q.sta = p.stationId.toList ∧ q.phase = p.type.toList ∧
      (name = if env.psTableOnly ∧ p.procType = .P then "P"
              else if env.psTableOnly ∧ p.procType = .S then "S" else p.type) ∧
      env.ttt ev st name = some tt ∧
      q.tt = tt.tt ∧ q.ttRes = travelTime ev p - tt.tt ∧
      q.dx = -(tt.dtdd / env.kmOfDegree) * env.cosDeg (90 - tt.azim) ∧
      q.dy = -(tt.dtdd / env.kmOfDegree) * env.sinDeg (90 - tt.azim) ∧ q.dz = -tt.dtdh := by
  obtain ⟨refEv, s, h1, h2, h3, hi⟩ := addObservations_inv hw.wf h
  obtain ⟨new, hnew, hgood⟩ := hi.new
  refine ⟨new, by rw [← h2, hnew], ?_⟩
  intro q hq
  unfold parOf at hq
  rw [List.mem_filterMap] at hq
  obtain ⟨op, hop, hq⟩ := hq
  cases op with
  | params q' =>
    simp only [Option.some.injEq] at hq
    subst hq
    have key : ∀ k ev free, ParamsOf env cat k ev free q' → ∃ p st name tt, q'.ev = k ∧ q'.free = free ∧
        cat.events.find? q'.ev = some ev ∧ p ∈ cat.phasesOf q'.ev ∧ cat.stations.find? p.stationId = some st ∧
        q'.sta = p.stationId.toList ∧ q'.phase = p.type.toList ∧
        (name = if env.psTableOnly ∧ p.procType = .P then "P"
                else if env.psTableOnly ∧ p.procType = .S then "S" else p.type) ∧
        env.ttt ev st name = some tt ∧
        q'.tt = tt.tt ∧ q'.ttRes = travelTime ev p - tt.tt ∧
        q'.dx = -(tt.dtdd / env.kmOfDegree) * env.cosDeg (90 - tt.azim) ∧
        q'.dy = -(tt.dtdd / env.kmOfDegree) * env.sinDeg (90 - tt.azim) ∧ q'.dz = -tt.dtdh := by
      rintro k ev free ⟨he, sp, p, st, i, hp, hst, hi, hq⟩
      have hk := (hw.wf.eventKey _ _ he).1
      have hsid := (hw.wf.stationKey _ _ hst).1
      simp only [paramCalls, List.mem_cons, List.not_mem_nil, or_false, reduceCtorEq, false_or,
        SolverOp.params.injEq] at hq
      subst hq
      refine ⟨p, st, phaseName env p, i, hk, rfl, by rw [hk]; exact he, hp.1, hst,
        by rw [hsid], rfl, ?_, hi, rfl, rfl, by ring, by ring, rfl⟩
      unfold phaseName
      cases env.psTableOnly <;> cases p.procType <;> simp
    rcases hgood _ hop with hg | ⟨n, hn, ev, hg⟩
    · obtain ⟨p, st, name, tt, g1, g2, g3⟩ := key _ _ _ hg
      exact ⟨refEv, p, st, name, tt, Or.inl ⟨g1, g2⟩, g3⟩
    · obtain ⟨p, st, name, tt, g1, g2, g3⟩ := key _ _ _ hg
      exact ⟨ev, p, st, name, tt, Or.inr ⟨by rw [g1]; exact hn, g2⟩, g3⟩
  | event => simp at hq
  | station => simp at hq
  | obs => simp at hq

/-- **C70b.** With the real cosine and sine, the horizontal derivatives point away from the direction
of take-off: moving the event by one km towards azimuth `a` changes the travel time by
`-dtdd/km · cos (a - azimuth)`. -/
theorem horizontal_derivative (dtdd km azim a : ℝ) :
    let rad : ℝ → ℝ := fun d => d * Real.pi / 180
    let dx := -(dtdd / km) * Real.cos (rad (90 - azim))
    let dy := -(dtdd / km) * Real.sin (rad (90 - azim))
    dx * Real.sin (rad a) + dy * Real.cos (rad a) = -(dtdd / km) * Real.cos (rad (a - azim)) := by
  intro rad dx dy
  have h90 : rad (90 - azim) = Real.pi / 2 - rad azim := by simp only [rad]; ring
  have hs : rad (a - azim) = rad a - rad azim := by simp only [rad]; ring
  simp only [dx, dy, h90, hs]
  rw [Real.cos_pi_div_two_sub, Real.sin_pi_div_two_sub, Real.cos_sub]
  ring

/-! ## A concrete case -/

namespace Example

def st : Station ℚ := ⟨"N.A.", 1, 2, 0, "N", "A", ""⟩

def ev (id : Nat) (t : Int) (lat : ℚ) : Event ℚ := ⟨id, t, lat, 7, 5, 1, false, 0, 0⟩

def ph (id : Nat) (t : Int) : Phase ℚ :=
  ⟨id, "N.A.", t, 0, 0, "Pg", "N", "A", "", "HHZ", .P, 1/2, .catalog, false, 0, 0, 0⟩

/-- two events with a pick each, 5 and 3 seconds after the origin -/
def cat : Catalog ℚ :=
  ((((Catalog.init.addStation st).addEvent (ev 1 10000000 46) true).1.addEvent (ev 2 20000000 46) true).1.addPhase
    (ph 1 15000000)).addPhase (ph 2 23000000)

/-- travel times 4 s below 1000 degrees of latitude -/
def env : Env ℚ :=
  { ttt := fun e _ _ => if e.latitude < 1000 then some ⟨4, 90, 100, 2, 1⟩ else none
    psTableOnly := true, cosDeg := fun _ => 1, sinDeg := fun _ => 0, kmOfDegree := 100
    coords := fun x y lat lon _ => (lat + y, lon + x)
    secToDur := fun t => (t * 1000000).floor
    sqrt := id }

def opt : ObsOptions ℚ := ⟨false, true, 3, fun _ => some (1/2)⟩

/-- cross-correlation recorded in the opposite direction -/
def xc : XCorr.Cache := XCorr.add [] 2 1 "N.A." "Pg" ⟨true, 3/4, 1/10⟩

def nb : Neighbours := ⟨1, [(2, [("N.A.", "Pg")])]⟩

theorem cat_reachable : cat.Reachable := by
  refine .addPhase _ (.addPhase _ (.addEvent _ _ (by decide) (.addEvent _ _ (by decide) (.addStation _ .init))))

/-- the hypotheses of the theorems of this file hold for a pair whose correlation is used: 5 - 3 s
minus the lag of -0.1 s, weight between 0.5 and 1.5 -/
example : ∃ ops, addObservations env opt cat xc nb [] = .ok (ops, true) ∧
    obsOf ops = [⟨1, 2, "N.A.".toList, "Pg".toList, 21/10, 5/4, true, 3/4⟩] ∧
    (parOf ops).map (fun q => (q.ev, q.free, q.ttRes, q.dx)) = [(1, true, 1, -1/50), (2, true, -1, -1/50)] :=
  ⟨_, rfl, by decide +kernel, by decide +kernel⟩

/-- with a threshold above the coefficient only the picks count -/
example : ∃ ops, addObservations env { opt with minCoef := fun _ => some (4/5) } cat xc nb [] = .ok (ops, true) ∧
    obsOf ops = [⟨1, 2, "N.A.".toList, "Pg".toList, 2, 1/2, false, 3/4⟩] :=
  ⟨_, rfl, by decide +kernel⟩

end Example

end Verif.Relocate
