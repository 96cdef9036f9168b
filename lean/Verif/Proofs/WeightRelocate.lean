import Verif.Proofs.WeightPrepare
import Verif.Proofs.TimeShift
import Verif.Model.RelocateTop

/-! Helper lemmas for C136: the loop of a relocation when all weights are multiplied by a factor. -/

set_option linter.unusedSectionVars false
set_option linter.unusedSimpArgs false

namespace Verif.Weights
open Verif.Catalog Verif.Relocate
open Verif.TimeShift (foldlM_map_comm ofOption_some flagged updateFound)

variable {c : ℝ} {κ : ℝ → ℝ} {u u' : Bool}

@[simp] theorem w_stations (cat : Catalog ℝ) : (catalog c κ cat).stations = cat.stations := rfl
@[simp] theorem w_events (cat : Catalog ℝ) : (catalog c κ cat).events = cat.events := rfl
theorem w_phases (cat : Catalog ℝ) : (catalog c κ cat).phases = cat.phases.map (fun kp => (kp.1, phase c κ kp.2)) := rfl
@[simp] theorem w_init : catalog c κ (Catalog.init : Catalog ℝ) = Catalog.init := rfl

theorem w_phasesOf (cat : Catalog ℝ) (k : Nat) : (catalog c κ cat).phasesOf k = (cat.phasesOf k).map (phase c κ) := by
  unfold Catalog.phasesOf
  rw [w_phases, List.filter_map, List.map_map, List.map_map]
  rfl

theorem w_searchPhase (cat : Catalog ℝ) (k : Nat) (sp : StaPhase) :
    searchPhase (catalog c κ cat) k sp = (searchPhase cat k sp).map (phase c κ) := by
  unfold searchPhase
  rw [w_phasesOf, List.find?_map]
  rfl

theorem w_addStation (cat : Catalog ℝ) (s : Station ℝ) : (catalog c κ cat).addStation s = catalog c κ (cat.addStation s) := by
  unfold Catalog.addStation
  simp only [w_stations]
  cases cat.stations.find? (Catalog.stationIdOf s.networkCode s.stationCode s.locationCode) <;> rfl

theorem w_addPhase (cat : Catalog ℝ) (p : Phase ℝ) : (catalog c κ cat).addPhase (phase c κ p) = catalog c κ (cat.addPhase p) := by
  unfold Catalog.addPhase
  simp [catalog, phase]

theorem w_copyPhases (sts : AMap String (Station ℝ)) (newId : Nat) :
    ∀ (ps : List (Phase ℝ)) (cat : Catalog ℝ),
      Catalog.copyPhases sts newId (catalog c κ cat) (ps.map (phase c κ)) =
        ((catalog c κ (Catalog.copyPhases sts newId cat ps).1), (Catalog.copyPhases sts newId cat ps).2)
  | [], cat => rfl
  | p :: ps, cat => by
    rw [List.map_cons]
    simp only [Catalog.copyPhases]
    unfold Catalog.copyPhase
    rw [show (phase c κ p).stationId = p.stationId from rfl]
    cases sts.find? p.stationId with
    | none => rfl
    | some s =>
      have : ((catalog c κ cat).addStation s).addPhase { phase c κ p with eventId := newId } =
          catalog c κ ((cat.addStation s).addPhase { p with eventId := newId }) := by
        rw [w_addStation, ← w_addPhase]; rfl
      have ih := w_copyPhases sts newId ps ((cat.addStation s).addPhase { p with eventId := newId })
      rw [← this] at ih
      exact ih

theorem w_addEvent (cat : Catalog ℝ) (e : Event ℝ) (keep : Bool) :
    (catalog c κ cat).addEvent e keep = (catalog c κ (cat.addEvent e keep).1, (cat.addEvent e keep).2) := by
  unfold Catalog.addEvent
  cases keep with
  | false => rfl
  | true =>
    simp only [if_true, w_events]
    cases cat.events.find? e.id <;> rfl

theorem w_addFrom (cat o : Catalog ℝ) (k : Nat) (keep : Bool) :
    (catalog c κ cat).addFrom k (catalog c κ o) keep = (catalog c κ (cat.addFrom k o keep).1, (cat.addFrom k o keep).2) := by
  unfold Catalog.addFrom
  rw [w_events]
  cases o.events.find? k with
  | none => rfl
  | some e =>
    simp only [w_addEvent, w_stations, w_phasesOf]
    generalize cat.addEvent e keep = x
    obtain ⟨c', out⟩ := x
    cases out with
    | throws => rfl
    | ub => rfl
    | ok newId =>
      simp only [w_copyPhases]
      generalize Catalog.copyPhases o.stations newId c' (o.phasesOf e.id) = y
      obtain ⟨c'', out'⟩ := y
      cases out' <;> rfl

theorem w_removeEvent (cat : Catalog ℝ) (k : Nat) : (catalog c κ cat).removeEvent k = catalog c κ (cat.removeEvent k) := by
  unfold Catalog.removeEvent
  rw [w_phases, List.filter_map]
  rfl

@[simp] theorem w_isEmpty (cat : Catalog ℝ) : isEmpty (catalog c κ cat) = isEmpty cat := by
  unfold isEmpty
  rw [w_phases]
  simp

/-! ## the solver -/

theorem w_obsParams (ops : List (SolverOp ℝ)) (k : Nat) (sta ph : String) :
    getObservationParams (Solver.run (ops.map (call c))) k sta ph = getObservationParams (Solver.run ops) k sta ph := by
  rw [Solver.run_by]
  rfl

/-! ## the loop of a relocation -/

variable {env : Env ℝ}

theorem addParams_w (ops : List (SolverOp ℝ)) (e : Event ℝ) (st : Station ℝ) (p : Phase ℝ) (free : Bool) :
    addParams env (ops.map (call c)) e st (phase c κ p) free =
      ((addParams env ops e st p free).1.map (call c), (addParams env ops e st p free).2) := by
  unfold addParams
  rw [show (phase c κ p).type = p.type from rfl, w_obsParams, show phaseName env (phase c κ p) = phaseName env p from rfl]
  split
  · rfl
  · cases env.ttt e st (phaseName env p) with
    | none => rfl
    | some i => simp only [List.map_append]; rfl

theorem observation_w (h : Multiplied c κ u u') (o : ObsOptions ℝ) (xc : XCorr.Cache) (mc : ℝ) (e f : Event ℝ) (sp : StaPhase) (rp p : Phase ℝ) :
    call c (.obs (observation { o with usePickUncertainties := u } xc mc e f sp rp p)) =
      .obs (observation { o with usePickUncertainties := u' } xc mc e f sp (phase c κ rp) (phase c κ p)) := by
  have hw : (if u' = true then (κ rp.classWeight + κ p.classWeight) / 2 else 1) =
      c * (if u = true then (rp.classWeight + p.classWeight) / 2 else 1) := by
    have h1 := h rp.classWeight
    have h2 := h p.classWeight
    unfold pickWeight at h1 h2
    cases u' <;> cases u <;> simp only [if_true, Bool.false_eq_true, if_false] at h1 h2 ⊢ <;> linarith
  unfold observation
  simp only
  cases xcorrEntry xc e.id f.id sp with
  | none =>
    simp only [call]
    rw [← hw]
    rfl
  | some x =>
    simp only []
    split
    · simp only [call]
      have hw' : (if u' = true then ((phase c κ rp).classWeight + (phase c κ p).classWeight) / 2 else 1) =
          c * (if u = true then (rp.classWeight + p.classWeight) / 2 else 1) := hw
      rw [hw']
      simp only [SolverOp.obs.injEq, ObsArg.mk.injEq, true_and, and_true]
      refine ⟨rfl, ?_⟩
      ring
    · simp only [call]
      rw [← hw]
      rfl

/-- the variables of `addObservations`, with other weights -/
def obsState (c : ℝ) (κ : ℝ → ℝ) (s : ObsState ℝ) : ObsState ℝ :=
  { s with ops := s.ops.map (call c), refPhase := s.refPhase.map (phase c κ) }

theorem refStep_w (cat : Catalog ℝ) (e : Event ℝ) (st : Station ℝ) (s : ObsState ℝ) (sp : StaPhase) :
    refStep env (catalog c κ cat) e st (obsState c κ s) sp =
      (refStep env cat e st s sp).map (fun x => (obsState c κ x.1, phase c κ x.2)) := by
  unfold refStep
  have h1 : (obsState c κ s).refPhase = s.refPhase.map (phase c κ) := rfl
  have h2 : (obsState c κ s).ops = s.ops.map (call c) := rfl
  rw [h1, w_searchPhase]
  cases s.refPhase with
  | none =>
    cases searchPhase cat e.id sp with
    | none => rfl
    | some p => simp only [Option.map_none, Option.map_some, h2, addParams_w]; rfl
  | some q =>
    rw [Option.map_some, show sameRef (some (phase c κ q)) sp = sameRef (some q) sp from rfl]
    cases sameRef (some q) sp with
    | true => rfl
    | false =>
      cases searchPhase cat e.id sp with
      | none => rfl
      | some p => simp only [Option.map_some, h2, addParams_w]; rfl

theorem neighStep_w (h : Multiplied c κ u u') (o : ObsOptions ℝ) (cat : Catalog ℝ) (xc : XCorr.Cache) (e : Event ℝ)
    (st : Station ℝ) (rp : Phase ℝ) (s : ObsState ℝ) (sp : StaPhase) (n : Nat) :
    neighStep env { o with usePickUncertainties := u' } (catalog c κ cat) xc e st (phase c κ rp) (obsState c κ s) sp n =
      (neighStep env { o with usePickUncertainties := u } cat xc e st rp s sp n).map (obsState c κ) := by
  unfold neighStep
  have h0 : (obsState c κ s).tttError = s.tttError := rfl
  have h2 : (obsState c κ s).ops = s.ops.map (call c) := rfl
  rw [h0, w_events, h2, show (phase c κ rp).procType = rp.procType from rfl]
  by_cases ht : s.tttError = true
  · rw [if_pos ht, if_pos ht]; rfl
  rw [if_neg ht, if_neg ht]
  simp only []
  cases o.minCoef rp.procType with
  | none => rfl
  | some mc =>
    cases cat.events.find? n with
    | none => rfl
    | some ev =>
      simp only [w_searchPhase]
      cases searchPhase cat ev.id sp with
      | none => rfl
      | some p =>
        simp only [Option.map_some, addParams_w, ← observation_w h]
        rw [show (phase c κ rp).time = rp.time from rfl, show (phase c κ p).time = p.time from rfl]
        split
        · rfl
        split
        · rfl
        split
        · rfl
        · simp [obsState, Outcome.map]

theorem obsStep_w (h : Multiplied c κ u u') (o : ObsOptions ℝ) (cat : Catalog ℝ) (xc : XCorr.Cache) (e : Event ℝ)
    (s : ObsState ℝ) (t : StaPhase × Nat) :
    obsStep env { o with usePickUncertainties := u' } (catalog c κ cat) xc e (obsState c κ s) t =
      (obsStep env { o with usePickUncertainties := u } cat xc e s t).map (obsState c κ) := by
  unfold obsStep
  rw [show (obsState c κ s).station = s.station from rfl,
    show currentStation (catalog c κ cat) s.station t.1.1 = currentStation cat s.station t.1.1 from rfl]
  cases currentStation cat s.station t.1.1 with
  | throws => rfl
  | ub => rfl
  | ok st =>
    simp only [Outcome.bind_ok]
    have := refStep_w (c := c) (κ := κ) (env := env) cat e st { s with station := some st } t.1
    rw [show ({ obsState c κ s with station := some st } : ObsState ℝ) =
      obsState c κ { s with station := some st } from rfl, this]
    cases refStep env cat e st { s with station := some st } t.1 with
    | throws => rfl
    | ub => rfl
    | ok x => exact neighStep_w h o cat xc e st x.2 x.1 t.1 t.2

theorem addObservations_w (h : Multiplied c κ u u') (o : ObsOptions ℝ) (cat : Catalog ℝ) (xc : XCorr.Cache) (nb : Neighbours)
    (ops : List (SolverOp ℝ)) :
    addObservations env { o with usePickUncertainties := u' } (catalog c κ cat) xc nb (ops.map (call c)) =
      (addObservations env { o with usePickUncertainties := u } cat xc nb ops).map (fun x => (x.1.map (call c), x.2)) := by
  unfold addObservations
  rw [w_events]
  cases cat.events.find? nb.refId with
  | none => rfl
  | some e =>
    simp only [ofOption_some, Outcome.bind_ok]
    have := foldlM_map_comm (γ := Unit) (obsState c κ)
      (obsStep env { o with usePickUncertainties := u' } (catalog c κ cat) xc e) (obsStep env { o with usePickUncertainties := u } cat xc e)
      (fun b a => obsStep_w h o cat xc e b a) (nb.phases.insertionSort tupleLe) ⟨ops, none, none, false, 0, 0⟩
    rw [show obsState c κ (⟨ops, none, none, false, 0, 0⟩ : ObsState ℝ) = ⟨ops.map (call c), none, none, false, 0, 0⟩ from rfl] at this
    rw [this]
    cases List.foldlM (obsStep env { o with usePickUncertainties := u } cat xc e) ⟨ops, none, none, false, 0, 0⟩ (nb.phases.insertionSort tupleLe) <;> rfl

/-- the variables of the loop over the cluster, with other weights -/
def observeState (c : ℝ) (κ : ℝ → ℝ) (s : ObserveState ℝ) : ObserveState ℝ := ⟨catalog c κ s.cur, s.ops.map (call c), s.reverted⟩

theorem observeStep_w (h : Multiplied c κ u u') (o : ObsOptions ℝ) (xc : XCorr.Cache) (prev : Catalog ℝ) (s : ObserveState ℝ)
    (kv : Nat × Neighbours) :
    observeStep env { o with usePickUncertainties := u' } xc (catalog c κ prev) (observeState c κ s) kv =
      (observeStep env { o with usePickUncertainties := u } xc prev s kv).map (observeState c κ) := by
  unfold observeStep
  have h1 : (observeState c κ s).cur = catalog c κ s.cur := rfl
  have h2 : (observeState c κ s).ops = s.ops.map (call c) := rfl
  rw [h1, h2, addObservations_w h, w_isEmpty, w_events, w_removeEvent, w_addFrom]
  cases addObservations env { o with usePickUncertainties := u } s.cur xc kv.2 s.ops with
  | throws => rfl
  | ub => rfl
  | ok x =>
    obtain ⟨ops, ok⟩ := x
    simp only [Outcome.map, Outcome.bind_ok]
    split
    · rfl
    · cases s.cur.events.find? kv.1 with
      | none => rfl
      | some ev =>
        simp only [ofOption_some, Outcome.bind_ok]
        by_cases hrel : ev.isRelocated = true
        · rw [if_pos hrel, if_pos hrel]
          generalize (s.cur.removeEvent kv.1).addFrom kv.1 prev true = y
          obtain ⟨c', out⟩ := y
          cases out with
          | throws => rfl
          | ub => rfl
          | ok _ =>
            simp only [addObservations_w h]
            cases addObservations env { o with usePickUncertainties := u } c' xc kv.2 ops with
            | ok z => simp [observeState, Outcome.map]
            | throws => rfl
            | ub => rfl
        · rw [if_neg hrel, if_neg hrel]; rfl

theorem observe_w (h : Multiplied c κ u u') (o : ObsOptions ℝ) (xc : XCorr.Cache) (cl : Cluster) (prev cur : Catalog ℝ) :
    observe env { o with usePickUncertainties := u' } xc cl (catalog c κ prev) (catalog c κ cur) =
      (observe env { o with usePickUncertainties := u } xc cl prev cur).map (observeState c κ) := by
  unfold observe
  exact foldlM_map_comm (γ := Unit) (observeState c κ) _ _ (fun b a => observeStep_w h o xc prev b a) cl ⟨cur, [], []⟩

theorem mapM_w (cat : Catalog ℝ) (l : List (Phase ℝ)) :
    (l.map (phase c κ)).mapM (fun p => Outcome.ofOption (cat.stations.find? p.stationId)) =
      l.mapM (fun p => Outcome.ofOption (cat.stations.find? p.stationId)) := by
  induction l with
  | nil => rfl
  | cons p l ih =>
    rw [List.map_cons, List.mapM_cons, List.mapM_cons, ih]
    rfl

theorem residualOf_w (ops : List (SolverOp ℝ)) (cat : Catalog ℝ) (id : Nat) (p : Phase ℝ) :
    residualOf (ops.map (call c)) (catalog c κ cat) id (phase c κ p) = residualOf ops cat id p := by
  unfold residualOf
  rw [w_stations, show (phase c κ p).stationId = p.stationId from rfl, show (phase c κ p).type = p.type from rfl]
  cases cat.stations.find? p.stationId with
  | none => rfl
  | some st => simp only [w_obsParams]

theorem sum_factor {α : Type} (l : List α) (f g : α → ℝ) (k : ℝ) (h : ∀ x, f x = k * g x) : (l.map f).sum = k * (l.map g).sum := by
  induction l with
  | nil => simp
  | cons x l ih => rw [List.map_cons, List.map_cons, List.sum_cons, List.sum_cons, ih, h, mul_add]

theorem rmsOf_w (hc : 0 < c) (h : Multiplied c κ u u') (ops : List (SolverOp ℝ)) (cat : Catalog ℝ) (id : Nat) :
    rmsOf env u' (ops.map (call c)) (catalog c κ cat) id = rmsOf env u ops cat id := by
  have hf : ∀ l : List (Phase ℝ), (l.map (phase c κ)).filter (fun p => (residualOf (ops.map (call c)) (catalog c κ cat) id p).isSome) =
      (l.filter (fun p => (residualOf ops cat id p).isSome)).map (phase c κ) := by
    intro l
    rw [List.filter_map]
    congr 1
    refine List.filter_congr (fun p _ => ?_)
    show (residualOf _ _ _ (phase c κ p)).isSome = _
    rw [residualOf_w]
  have hw : ∀ p : Phase ℝ, (if u' = true then (phase c κ p).classWeight else 1) = c * (if u = true then p.classWeight else 1) :=
    fun p => h p.classWeight
  unfold rmsOf
  simp only [w_phasesOf, hf, List.map_map, Function.comp_def, residualOf_w, hw]
  generalize (cat.phasesOf id).filter (fun p => (residualOf ops cat id p).isSome) = l
  rw [sum_factor l (fun p => c * (if u = true then p.classWeight else 1) * (c * (if u = true then p.classWeight else 1)))
      (fun p => (if u = true then p.classWeight else 1) * (if u = true then p.classWeight else 1)) (c * c) (fun p => by ring),
    sum_factor l (fun p => (residualOf ops cat id p).getD 0 * (c * (if u = true then p.classWeight else 1)) *
        ((residualOf ops cat id p).getD 0 * (c * (if u = true then p.classWeight else 1))))
      (fun p => (residualOf ops cat id p).getD 0 * (if u = true then p.classWeight else 1) *
        ((residualOf ops cat id p).getD 0 * (if u = true then p.classWeight else 1))) (c * c) (fun p => by ring)]
  generalize (l.map fun p => (if u = true then p.classWeight else 1) * (if u = true then p.classWeight else 1)).sum = B
  have hcc : 0 < c * c := mul_pos hc hc
  rw [mul_div_mul_left _ _ hcc.ne']
  by_cases hB : 0 < B
  · rw [if_pos hB, if_pos (mul_pos hcc hB)]
  · rw [if_neg hB, if_neg (fun hh => hB (pos_of_mul_pos_right hh hcc.le))]

theorem residualPhase_w (h : Multiplied c κ u u') (first : Bool) (res : Option ℝ) (p : Phase ℝ) :
    residualPhase u' first res (phase c κ p) = phase c κ (residualPhase u first res p) := by
  have hw : (if u' = true then κ p.classWeight else 1) = c * (if u = true then p.classWeight else 1) := h p.classWeight
  unfold residualPhase phase
  simp only
  rw [hw]

theorem residualsStep_w (hc : 0 < c) (h : Multiplied c κ u u') (first : Bool) (ops : List (SolverOp ℝ)) (cat : Catalog ℝ) (kv : Nat × Neighbours) :
    residualsStep env u' first (ops.map (call c)) (catalog c κ cat) kv = (residualsStep env u first ops cat kv).map (catalog c κ) := by
  unfold residualsStep
  rw [w_events]
  cases cat.events.find? kv.2.refId with
  | none => rfl
  | some ev =>
    simp only [ofOption_some, Outcome.bind_ok, w_phasesOf, w_stations]
    rw [mapM_w, rmsOf_w hc h]
    cases (cat.phasesOf ev.id).mapM (fun p => Outcome.ofOption (cat.stations.find? p.stationId)) with
    | throws => rfl
    | ub => rfl
    | ok _ =>
      simp only [Outcome.bind_ok, Outcome.map, Outcome.ok.injEq]
      have hp : (catalog c κ cat).phases.map (fun kp =>
          if kp.1 = ev.id then
            (kp.1, residualPhase u' first (residualOf (ops.map (call c)) (catalog c κ cat) ev.id kp.2) kp.2)
          else kp) =
          (cat.phases.map (fun kp =>
            if kp.1 = ev.id then (kp.1, residualPhase u first (residualOf ops cat ev.id kp.2) kp.2) else kp)).map
              (fun kp => (kp.1, phase c κ kp.2)) := by
        rw [w_phases, List.map_map, List.map_map]
        refine List.map_congr_left (fun kp _ => ?_)
        simp only [Function.comp_apply, residualOf_w, residualPhase_w h]
        split <;> rfl
      rw [hp]
      rfl

theorem residuals_w (hc : 0 < c) (h : Multiplied c κ u u') (first : Bool) (ops : List (SolverOp ℝ)) (cl : Cluster) (cat : Catalog ℝ) :
    computeEventResiduals env u' first (ops.map (call c)) cl (catalog c κ cat) =
      (computeEventResiduals env u first ops cl cat).map (catalog c κ) := by
  unfold computeEventResiduals
  exact foldlM_map_comm (γ := Unit) (catalog c κ) _ _ (fun b a => residualsStep_w hc h first ops b a) cl cat

theorem updatePhase_w (first : Bool) (ans : Answer ℝ) (cat : Catalog ℝ) (id : Nat) (p : Phase ℝ) :
    updatePhase first ans (catalog c κ cat) id (phase c κ p) = phase c κ (updatePhase first ans cat id p) := rfl

theorem updateStep_w (first : Bool) (ans : Answer ℝ) (cat : Catalog ℝ) (kv : Nat × Neighbours) :
    updateStep env first ans (catalog c κ cat) kv = (updateStep env first ans cat kv).map (catalog c κ) := by
  unfold updateStep
  rw [w_events]
  cases cat.events.find? kv.2.refId with
  | none => rfl
  | some ev =>
    simp only [ofOption_some, Outcome.bind_ok]
    cases ans.changes ev.id with
    | none => rfl
    | some ch =>
      simp only [w_stations, w_phasesOf]
      rw [mapM_w]
      cases (cat.phasesOf ev.id).mapM (fun p => Outcome.ofOption (cat.stations.find? p.stationId)) with
      | throws => rfl
      | ub => rfl
      | ok _ =>
        simp only [Outcome.bind_ok, Outcome.map, Outcome.ok.injEq]
        have hp : (catalog c κ cat).phases.map (fun kp =>
            if kp.1 = ev.id then (kp.1, updatePhase first ans (catalog c κ cat) ev.id kp.2) else kp) =
            (cat.phases.map (fun kp =>
              if kp.1 = ev.id then (kp.1, updatePhase first ans cat ev.id kp.2) else kp)).map (fun kp => (kp.1, phase c κ kp.2)) := by
          rw [w_phases, List.map_map, List.map_map]
          refine List.map_congr_left (fun kp _ => ?_)
          simp only [Function.comp_apply, updatePhase_w]
          split <;> rfl
        rw [hp]
        rfl

theorem update_w (first : Bool) (ans : Answer ℝ) (cl : Cluster) (cat : Catalog ℝ) :
    updateRelocatedEvents env first ans cl (catalog c κ cat) = (updateRelocatedEvents env first ans cl cat).map (catalog c κ) := by
  unfold updateRelocatedEvents
  exact foldlM_map_comm (γ := Unit) (catalog c κ) _ _ (fun b a => updateStep_w first ans b a) cl cat

/-- the variables of the loop, with other weights -/
def loopState (c : ℝ) (κ : ℝ → ℝ) (s : LoopState ℝ) : LoopState ℝ := ⟨catalog c κ s.cur, catalog c κ s.prev, s.log.map (log c κ)⟩

/-- the same relocation with pick uncertainties used or not -/
def using' (u : Bool) (a : Args ℝ) : Args ℝ := { a with o := { a.o with usePickUncertainties := u } }

section
variable {a : Args ℝ} (hc : 0 < c) (h : Multiplied c κ u u') (hS : SolverIgnores c a.sol)
include hc h hS

theorem iteration_w (it : Nat) (s : LoopState ℝ) :
    iteration (using' u' a) it (loopState c κ s) = (iteration (using' u a) it s).map (fun x => (loopState c κ x.1, x.2)) := by
  unfold iteration
  have h1 : (loopState c κ s).cur = catalog c κ s.cur := rfl
  have h2 : (loopState c κ s).prev = catalog c κ s.prev := rfl
  have h3 : (loopState c κ s).log = s.log.map (log c κ) := rfl
  rw [h1, h2, h3]
  simp only [using']
  rw [observe_w h]
  cases observe a.env { a.o with usePickUncertainties := u } a.xc a.cluster s.prev s.cur with
  | throws => rfl
  | ub => rfl
  | ok ob =>
    have h4 : (observeState c κ ob).cur = catalog c κ ob.cur := rfl
    have h5 : (observeState c κ ob).ops = ob.ops.map (call c) := rfl
    have h6 : (observeState c κ ob).reverted = ob.reverted := rfl
    simp only [Outcome.map, Outcome.bind_ok]
    rw [h4, h5, h6, residuals_w hc h]
    cases computeEventResiduals a.env u (decide (it = 0)) ob.ops a.cluster ob.cur with
    | throws => rfl
    | ub => rfl
    | ok cur =>
      simp only [Outcome.map, Outcome.bind_ok]
      rw [hS.prepare]
      cases a.sol.prepare it ob.ops _ _ with
      | throws => rfl
      | ub => rfl
      | ok _ =>
        simp only [Outcome.bind_ok]
        by_cases hit : it = a.so.algoIterations
        · simp [hit, loopState, log]
        · simp only [hit, if_false]
          rw [hS.solve]
          cases a.sol.solve it ob.ops _ with
          | none => simp [loopState, log]
          | some ans =>
            simp only
            rw [update_w]
            cases updateRelocatedEvents a.env (decide (it = 0)) ans a.cluster cur with
            | throws => rfl
            | ub => rfl
            | ok new => simp [loopState, log, Outcome.map]

theorem loop_w : ∀ (n it : Nat) (s : LoopState ℝ),
    loop (using' u' a) n it (loopState c κ s) = (loop (using' u a) n it s).map (loopState c κ)
  | 0, _, _ => rfl
  | n + 1, it, s => by
    rw [loop, loop, iteration_w hc h hS]
    cases iteration (using' u a) it s with
    | throws => rfl
    | ub => rfl
    | ok x =>
      obtain ⟨s', g⟩ := x
      simp only [Outcome.map, Outcome.bind_ok]
      cases g with
      | true => exact loop_w n (it + 1) s'
      | false => rfl

omit hc h hS in
theorem returnedLoop_w (cur : Catalog ℝ) : ∀ (l : List (Nat × Event ℝ)) (cat : Catalog ℝ),
    returnedLoop (catalog c κ cur) (catalog c κ cat) l = (returnedLoop cur cat l).map (catalog c κ)
  | [], cat => rfl
  | kv :: l, cat => by
    rw [returnedLoop, returnedLoop]
    by_cases hrel : kv.2.isRelocated = true
    · rw [if_pos hrel, if_pos hrel, w_addFrom]
      generalize cat.addFrom kv.2.id cur true = x
      obtain ⟨c', out⟩ := x
      cases out with
      | ok _ => exact returnedLoop_w cur l c'
      | throws => rfl
      | ub => rfl
    · rw [if_neg hrel, if_neg hrel]
      exact returnedLoop_w cur l cat

theorem relocate_w (cat : Catalog ℝ) :
    relocate (using' u' a) (catalog c κ cat) = (relocate (using' u a) cat).map (result c κ) := by
  unfold relocate
  have := loop_w hc h hS ((using' u a).so.algoIterations + 1) 0 ⟨cat, Catalog.init, []⟩
  rw [show loopState c κ (⟨cat, Catalog.init, []⟩ : LoopState ℝ) = ⟨catalog c κ cat, Catalog.init, []⟩ from rfl] at this
  rw [show (using' u' a).so.algoIterations = (using' u a).so.algoIterations from rfl]
  rw [this]
  cases loop (using' u a) ((using' u a).so.algoIterations + 1) 0 ⟨cat, Catalog.init, []⟩ with
  | throws => rfl
  | ub => rfl
  | ok s =>
    simp only [Outcome.map, Outcome.bind_ok]
    rw [show (loopState c κ s).cur = catalog c κ s.cur from rfl,
      show (catalog c κ s.cur).eventsSorted = s.cur.eventsSorted from rfl]
    have h2 := returnedLoop_w (c := c) (κ := κ) s.cur s.cur.eventsSorted Catalog.init
    rw [w_init] at h2
    rw [h2]
    cases returnedLoop s.cur Catalog.init s.cur.eventsSorted <;> rfl
end

/-! ## multi-event relocation -/

/-- the variables of the construction of the cache, with other weights -/
def build (c : ℝ) (κ : ℝ → ℝ) (s : BuildState ℝ) : BuildState ℝ := ⟨s.cache, s.calls.map (asked c κ)⟩

section
variable {x : XcorrArgs ℝ} (hx : XcorrIgnores c κ x)
include hx

theorem request_w (pre : XCorr.Cache) (e : Event ℝ) (rp : Phase ℝ) (ev : Event ℝ) (p : Phase ℝ) (s : BuildState ℝ) :
    request x pre e (phase c κ rp) ev (phase c κ p) (build c κ s) = (request x pre e rp ev p s).map (build c κ) := by
  unfold request
  have h1 : (build c κ s).cache = s.cache := rfl
  have h4 : (build c κ s).calls.length = s.calls.length := by simp [build]
  have h5 : (build c κ s).calls = s.calls.map (asked c κ) := rfl
  rw [h1, h4, h5, hx, show (phase c κ rp).stationId = rp.stationId from rfl, show (phase c κ rp).type = rp.type from rfl]
  split
  · rfl
  · cases XCorr.get pre e.id ev.id rp.stationId rp.type with
    | some c => rfl
    | none =>
      cases x.correlate s.calls.length e rp ev p with
      | ok c =>
        simp only [Outcome.bind_ok, Outcome.map, build, List.map_append, List.map_cons, List.map_nil]
        rfl
      | throws => rfl
      | ub => rfl

theorem pairStep_w (cat : Catalog ℝ) (pre : XCorr.Cache) (nb : Neighbours) (e : Event ℝ) (rp : Phase ℝ) (s : BuildState ℝ) (n : Nat) :
    pairStep x (catalog c κ cat) pre nb e (phase c κ rp) (build c κ s) n = (pairStep x cat pre nb e rp s n).map (build c κ) := by
  unfold pairStep
  rw [w_events]
  cases cat.events.find? n with
  | none => rfl
  | some ev =>
    simp only []
    rw [w_searchPhase, show (phase c κ rp).stationId = rp.stationId from rfl, show (phase c κ rp).type = rp.type from rfl]
    split
    · rfl
    split
    · cases searchPhase cat ev.id (rp.stationId, rp.type) with
      | none => rfl
      | some p =>
        simp only [Option.map_some, show (phase c κ p).source = p.source from rfl]
        split
        · rfl
        · exact request_w hx pre e rp ev p s
    · rfl

theorem refPhaseStep_w (cat : Catalog ℝ) (pre : XCorr.Cache) (nb : Neighbours) (e : Event ℝ) (s : BuildState ℝ) (rp : Phase ℝ) :
    refPhaseStep x (catalog c κ cat) pre nb e (build c κ s) (phase c κ rp) = (refPhaseStep x cat pre nb e s rp).map (build c κ) := by
  unfold refPhaseStep
  rw [w_stations, show (phase c κ rp).stationId = rp.stationId from rfl]
  cases cat.stations.find? rp.stationId with
  | none => rfl
  | some st =>
    simp only []
    split
    · rfl
    split
    · rfl
    · exact foldlM_map_comm (γ := Unit) (build c κ) _ _ (fun b a => pairStep_w hx cat pre nb e rp b a) nb.ids s

theorem clusterStep_w (cat : Catalog ℝ) (pre : XCorr.Cache) (s : BuildState ℝ) (kv : Nat × Neighbours) :
    clusterStep x (catalog c κ cat) pre (build c κ s) kv = (clusterStep x cat pre s kv).map (build c κ) := by
  unfold clusterStep
  rw [w_events]
  cases cat.events.find? kv.2.refId with
  | none => rfl
  | some e =>
    simp only [w_phasesOf]
    exact TimeShift.foldlM_map_comm₂ (build c κ) (phase c κ) _ _ (fun b a => refPhaseStep_w hx cat pre kv.2 e b a) _ s

theorem build_w (cat : Catalog ℝ) (cl : Cluster) (pre : XCorr.Cache) (calls : List (XcorrCall ℝ)) :
    buildXCorrCache x (catalog c κ cat) cl pre (calls.map (asked c κ)) = (buildXCorrCache x cat cl pre calls).map (build c κ) := by
  unfold buildXCorrCache
  split
  · exact foldlM_map_comm (γ := Unit) (build c κ) _ _ (fun b a => clusterStep_w hx cat pre b a) cl ⟨[], calls⟩
  · rfl
end

theorem addAllLoop_w (o : Catalog ℝ) : ∀ (l : List (Nat × Event ℝ)) (cat : Catalog ℝ),
    Catalog.addAllLoop (catalog c κ o) true (catalog c κ cat) l =
      (catalog c κ (Catalog.addAllLoop o true cat l).1, (Catalog.addAllLoop o true cat l).2)
  | [], cat => rfl
  | kv :: l, cat => by
    rw [Catalog.addAllLoop, Catalog.addAllLoop, w_events]
    by_cases hk : (cat.events.find? kv.2.id).isSome = true
    · rw [if_pos ⟨rfl, hk⟩, if_pos ⟨rfl, hk⟩]
      exact addAllLoop_w o l cat
    · rw [if_neg (fun h => hk h.2), if_neg (fun h => hk h.2), w_addFrom]
      generalize cat.addFrom kv.2.id o true = x
      obtain ⟨c', out⟩ := x
      cases out with
      | ok _ => exact addAllLoop_w o l c'
      | throws => rfl
      | ub => rfl

theorem addAll_w (cat o : Catalog ℝ) :
    (catalog c κ cat).addAll (catalog c κ o) true = (catalog c κ (cat.addAll o true).1, (cat.addAll o true).2) := by
  unfold Catalog.addAll
  rw [show (catalog c κ o).eventsSorted = o.eventsSorted from rfl]
  exact addAllLoop_w o _ cat

section
variable {m : MultiArgs ℝ} (hc : 0 < c) (h : Multiplied c κ m.usePickUncertainties u') (hx : XcorrIgnores c κ m.x)
  (hS : ∀ i, SolverIgnores c (m.sol i))
include hc h hx hS

theorem multiStep_w (bg : Catalog ℝ) (s : MultiState ℝ) (cl : Cluster) :
    multiStep { m with usePickUncertainties := u' } (catalog c κ bg) (multi c κ s) cl = (multiStep m bg s cl).map (multi c κ) := by
  unfold multiStep
  have h1 : (multi c κ s).xcorrData = s.xcorrData := rfl
  have h2 : (multi c κ s).calls = s.calls.map (asked c κ) := rfl
  have h3 : (multi c κ s).done.length = s.done.length := by simp [multi]
  have h4 : (multi c κ s).reloc = catalog c κ s.reloc := rfl
  rw [h1, h2, h3, h4]
  simp only []
  rw [build_w hx]
  cases buildXCorrCache m.x bg cl s.xcorrData s.calls with
  | throws => rfl
  | ub => rfl
  | ok b =>
    simp only [Outcome.map, Outcome.bind_ok]
    have hrel := relocate_w (a := m.toArgs s.done.length cl b.cache) hc h (hS s.done.length) bg
    rw [show (build c κ b).cache = b.cache from rfl,
      show ({ m with usePickUncertainties := u' } : MultiArgs ℝ).toArgs s.done.length cl b.cache =
        using' u' (m.toArgs s.done.length cl b.cache) from rfl, hrel,
      show using' m.usePickUncertainties (m.toArgs s.done.length cl b.cache) = m.toArgs s.done.length cl b.cache from rfl]
    cases relocate (m.toArgs s.done.length cl b.cache) bg with
    | throws => rfl
    | ub => rfl
    | ok y =>
      obtain ⟨y, lg⟩ := y
      simp only [Outcome.map, Outcome.bind_ok, result]
      rw [addAll_w]
      generalize s.reloc.addAll y true = z
      obtain ⟨c', out⟩ := z
      cases out with
      | ok _ => simp [multi, result, build]
      | throws => rfl
      | ub => rfl

theorem multi_w (bg : Catalog ℝ) (clusters : List Cluster) (xc : XCorr.Cache) :
    relocateMultiEvents { m with usePickUncertainties := u' } (catalog c κ bg) clusters xc =
      (relocateMultiEvents m bg clusters xc).map (multi c κ) := by
  unfold relocateMultiEvents
  exact foldlM_map_comm (γ := Unit) (multi c κ) _ _ (fun b a => multiStep_w hc h hx hS bg b a) clusters ⟨Catalog.init, xc, [], []⟩
end

/-! ## single-event relocation -/

theorem toCatalog_w (nb : Neighbours) (cat : Catalog ℝ) : toCatalog nb (catalog c κ cat) = (toCatalog nb cat).map (catalog c κ) := by
  unfold toCatalog
  refine foldlM_map_comm (γ := Unit) (catalog c κ) _ _ (fun b k => ?_) nb.ids Catalog.init
  unfold copyStep
  rw [w_addFrom]
  generalize b.addFrom k cat true = x
  obtain ⟨c', out⟩ := x
  cases out <;> rfl

theorem singleEventCatalog_w (bg evCat : Catalog ℝ) (evId : Nat) (nb : Neighbours) :
    singleEventCatalog (catalog c κ bg) (catalog c κ evCat) evId nb =
      (singleEventCatalog bg evCat evId nb).map (fun x => (catalog c κ x.1, x.2)) := by
  unfold singleEventCatalog
  rw [toCatalog_w]
  cases toCatalog nb bg with
  | throws => rfl
  | ub => rfl
  | ok b =>
    simp only [Outcome.map, Outcome.bind_ok]
    rw [w_addFrom]
    generalize b.addFrom evId evCat false = x
    obtain ⟨c', out⟩ := x
    cases out <;> rfl

end Verif.Weights
