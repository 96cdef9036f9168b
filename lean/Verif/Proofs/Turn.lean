import Verif.Spec.Turn
import Verif.Proofs.TimeShift

/-! Lemmas about catalogs all of whose places are elsewhere. -/

set_option linter.unusedSectionVars false
set_option linter.unusedSimpArgs false

namespace Verif.Turn
open Verif.Catalog Verif.Relocate
open Verif.TimeShift (find?_mapVal erase_mapVal set_mapVal foldlM_map_comm ofOption_some foldlM_map_comm₂ flagged updateFound)

variable {K : Type} [Field K] [LinearOrder K] (φ : K → K → K × K)

theorem moved_events (c : Catalog K) : (moved φ c).events = c.events.map (fun kv => (kv.1, movedEvent φ kv.2)) := rfl
theorem moved_stations (c : Catalog K) : (moved φ c).stations = c.stations.map (fun kv => (kv.1, movedStation φ kv.2)) := rfl
@[simp] theorem moved_phases (c : Catalog K) : (moved φ c).phases = c.phases := rfl
@[simp] theorem moved_init : moved φ (Catalog.init : Catalog K) = Catalog.init := rfl
@[simp] theorem me_id (e : Event K) : (movedEvent φ e).id = e.id := rfl
@[simp] theorem me_rel (e : Event K) : (movedEvent φ e).isRelocated = e.isRelocated := rfl
@[simp] theorem ms_id (s : Station K) : (movedStation φ s).id = s.id := rfl

@[simp] theorem moved_find (c : Catalog K) (k : Nat) :
    (moved φ c).events.find? k = (c.events.find? k).map (movedEvent φ) := by
  rw [moved_events]; exact find?_mapVal _ _ _

@[simp] theorem moved_findSta (c : Catalog K) (k : String) :
    (moved φ c).stations.find? k = (c.stations.find? k).map (movedStation φ) := by
  rw [moved_stations]; exact find?_mapVal _ _ _

@[simp] theorem moved_phasesOf (c : Catalog K) (k : Nat) : (moved φ c).phasesOf k = c.phasesOf k := rfl
@[simp] theorem moved_searchPhase (c : Catalog K) (k : Nat) (sp : StaPhase) :
    searchPhase (moved φ c) k sp = searchPhase c k sp := rfl

theorem moved_sorted (c : Catalog K) :
    (moved φ c).eventsSorted = c.eventsSorted.map (fun kv => (kv.1, movedEvent φ kv.2)) := by
  unfold Catalog.eventsSorted
  rw [moved_events]
  exact (List.map_insertionSort (r := fun a b : Nat × Event K => a.1 ≤ b.1) (s := fun a b : Nat × Event K => a.1 ≤ b.1)
    (fun kv => (kv.1, movedEvent φ kv.2)) _ (fun _ _ _ _ => Iff.rfl)).symm

theorem moved_addStation (c : Catalog K) (s : Station K) :
    (moved φ c).addStation (movedStation φ s) = moved φ (c.addStation s) := by
  have h0 : Catalog.stationIdOf (movedStation φ s).networkCode (movedStation φ s).stationCode (movedStation φ s).locationCode =
    Catalog.stationIdOf s.networkCode s.stationCode s.locationCode := rfl
  unfold Catalog.addStation
  simp only [h0, moved_findSta]
  cases c.stations.find? (Catalog.stationIdOf s.networkCode s.stationCode s.locationCode) with
  | some _ => rfl
  | none => simp only [Option.map_none]; unfold moved; simp only []; rw [← set_mapVal]; rfl

theorem moved_copyPhases (sts : AMap String (Station K)) (newId : Nat) :
    ∀ (ps : List (Phase K)) (c : Catalog K),
      Catalog.copyPhases (sts.map (fun kv => (kv.1, movedStation φ kv.2))) newId (moved φ c) ps =
        ((moved φ (Catalog.copyPhases sts newId c ps).1), (Catalog.copyPhases sts newId c ps).2)
  | [], c => rfl
  | p :: ps, c => by
    simp only [Catalog.copyPhases]
    unfold Catalog.copyPhase
    rw [find?_mapVal]
    cases sts.find? p.stationId with
    | none => rfl
    | some s =>
      have : ((moved φ c).addStation (movedStation φ s)).addPhase { p with eventId := newId } =
          moved φ ((c.addStation s).addPhase { p with eventId := newId }) := by
        rw [moved_addStation]; rfl
      have ih := moved_copyPhases sts newId ps ((c.addStation s).addPhase { p with eventId := newId })
      rw [← this] at ih
      exact ih

theorem moved_addFrom_keep (c o : Catalog K) (k : Nat) :
    (moved φ c).addFrom k (moved φ o) true = (moved φ (c.addFrom k o true).1, (c.addFrom k o true).2) := by
  unfold Catalog.addFrom
  rw [moved_find]
  cases ho : o.events.find? k with
  | none => rfl
  | some e =>
    simp only [Option.map_some, Catalog.addEvent, if_true, moved_find, me_id]
    cases hc : c.events.find? e.id with
    | some _ => simp
    | none =>
      have h2 : (⟨(moved φ c).stations, (moved φ c).events.set e.id (movedEvent φ e), (moved φ c).phases⟩ : Catalog K) =
          moved φ { c with events := c.events.set e.id e } := by
        rw [moved_events, set_mapVal]; rfl
      simp only [Option.map_none, moved_phasesOf]
      have h3 := moved_copyPhases φ o.stations e.id (o.phasesOf e.id) { c with events := c.events.set e.id e }
      rw [← h2, ← moved_stations] at h3
      rw [h3]
      generalize Catalog.copyPhases o.stations e.id { c with events := c.events.set e.id e } (o.phasesOf e.id) = r
      obtain ⟨c', x⟩ := r
      cases x <;> rfl

theorem moved_removeEvent (c : Catalog K) (k : Nat) : (moved φ c).removeEvent k = moved φ (c.removeEvent k) := by
  unfold Catalog.removeEvent
  rw [moved_events, erase_mapVal]
  rfl

@[simp] theorem moved_isEmpty (c : Catalog K) : isEmpty (moved φ c) = isEmpty c := by
  unfold isEmpty
  rw [moved_events, moved_stations]
  simp

/-! ## the solver -/

/-- a solver with other places of events and stations -/
def movedSolver (s : Solver K) : Solver K :=
  { s with
    eventParams := s.eventParams.map (fun kv => (kv.1, ((φ kv.2.1 kv.2.2.1).1, (φ kv.2.1 kv.2.2.1).2, kv.2.2.2)))
    stationParams := s.stationParams.map (fun kv => (kv.1, ((φ kv.2.1 kv.2.2.1).1, (φ kv.2.1 kv.2.2.1).2, kv.2.2.2))) }

theorem insertNew_mapVal {A V W : Type} [DecidableEq A] (f : V → W) (k : A) (v : V) (m : AMap A V) :
    AMap.insertNew (m.map (fun kv => (kv.1, f kv.2))) k (f v) = (AMap.insertNew m k v).map (fun kv => (kv.1, f kv.2)) := by
  unfold AMap.insertNew
  rw [find?_mapVal]
  cases AMap.find? m k with
  | some _ => rfl
  | none => simp

theorem step_moved (s : Solver K) (op : SolverOp K) : (movedSolver φ s).step (movedOp φ op) = movedSolver φ (s.step op) := by
  cases op with
  | event id lat lon depth =>
    simp only [movedOp, Solver.step, Solver.addEvent, movedSolver]
    rw [← insertNew_mapVal (fun v : K × K × K => ((φ v.1 v.2.1).1, (φ v.1 v.2.1).2, v.2.2))]
  | station sta lat lon e =>
    simp only [movedOp, Solver.step, Solver.addStation, movedSolver]
    rw [← insertNew_mapVal (fun v : K × K × K => ((φ v.1 v.2.1).1, (φ v.1 v.2.1).2, v.2.2))]
  | obs o => rfl
  | params p => rfl

theorem run_moved (ops : List (SolverOp K)) : Solver.run (ops.map (movedOp φ)) = movedSolver φ (Solver.run ops) := by
  have h : ∀ s : Solver K, (ops.map (movedOp φ)).foldl Solver.step (movedSolver φ s) = movedSolver φ (ops.foldl Solver.step s) := by
    induction ops with
    | nil => exact fun _ => rfl
    | cons op ops ih =>
      intro s
      rw [List.map_cons, List.foldl_cons, List.foldl_cons, step_moved, ih]
  exact h Solver.init

theorem obsParams_moved (ops : List (SolverOp K)) (id : Nat) (sta ph : String) :
    getObservationParams (Solver.run (ops.map (movedOp φ))) id sta ph = getObservationParams (Solver.run ops) id sta ph := by
  rw [run_moved]; rfl

/-! ## the loop of a relocation -/

section
variable {φ} {env env' : Env K}

theorem phaseName_moved (hE : SameEarth φ env env') (p : Phase K) : phaseName env' p = phaseName env p := by
  rw [hE.rest]; rfl

theorem paramCalls_moved (hE : SameEarth φ env env') (e : Event K) (st : Station K) (p : Phase K) (free : Bool) (i : TravelTimeInfo K) :
    paramCalls env' (movedEvent φ e) (movedStation φ st) p free i = (paramCalls env e st p free i).map (movedOp φ) := by
  rw [hE.rest]; rfl

theorem addParams_moved (hE : SameEarth φ env env') (ops : List (SolverOp K)) (e : Event K) (st : Station K) (p : Phase K)
    (free : Bool) : addParams env' (ops.map (movedOp φ)) (movedEvent φ e) (movedStation φ st) p free =
      ((addParams env ops e st p free).1.map (movedOp φ), (addParams env ops e st p free).2) := by
  unfold addParams
  rw [obsParams_moved, phaseName_moved hE, hE.ttt, me_id, ms_id]
  split
  · rfl
  · cases env.ttt e st (phaseName env p) with
    | none => rfl
    | some i => simp only [paramCalls_moved hE, List.map_append]

theorem observation_moved (o : ObsOptions K) (xc : XCorr.Cache) (mc : K) (r e : Event K) (sp : StaPhase) (rp p : Phase K) :
    observation o xc mc (movedEvent φ r) (movedEvent φ e) sp rp p = observation o xc mc r e sp rp p := rfl

variable (φ) in
/-- the variables of `addObservations`, elsewhere -/
def movedObs (s : ObsState K) : ObsState K :=
  { s with ops := s.ops.map (movedOp φ), station := s.station.map (movedStation φ) }

theorem refStep_moved (hE : SameEarth φ env env') (cat : Catalog K) (r : Event K) (st : Station K) (s : ObsState K) (sp : StaPhase) :
    refStep env' (moved φ cat) (movedEvent φ r) (movedStation φ st) (movedObs φ s) sp =
      (refStep env cat r st s sp).map (fun x => (movedObs φ x.1, x.2)) := by
  unfold refStep
  have h1 : (movedObs φ s).refPhase = s.refPhase := rfl
  have h2 : (movedObs φ s).ops = s.ops.map (movedOp φ) := rfl
  rw [h1, me_id, moved_searchPhase]
  cases s.refPhase with
  | none =>
    cases searchPhase cat r.id sp with
    | none => rfl
    | some p => simp only [h2, addParams_moved hE]; rfl
  | some q =>
    cases sameRef (some q) sp with
    | true => rfl
    | false =>
      cases searchPhase cat r.id sp with
      | none => rfl
      | some p => simp only [h2, addParams_moved hE]; rfl

theorem neighStep_moved (hE : SameEarth φ env env') (o : ObsOptions K) (cat : Catalog K) (xc : XCorr.Cache) (r : Event K)
    (st : Station K) (rp : Phase K) (s : ObsState K) (sp : StaPhase) (n : Nat) :
    neighStep env' o (moved φ cat) xc (movedEvent φ r) (movedStation φ st) rp (movedObs φ s) sp n =
      (neighStep env o cat xc r st rp s sp n).map (movedObs φ) := by
  unfold neighStep
  have h0 : (movedObs φ s).tttError = s.tttError := rfl
  have h2 : (movedObs φ s).ops = s.ops.map (movedOp φ) := rfl
  rw [h0, moved_find, h2]
  by_cases ht : s.tttError = true
  · rw [if_pos ht, if_pos ht]; rfl
  rw [if_neg ht, if_neg ht]
  cases o.minCoef rp.procType with
  | none => rfl
  | some mc =>
    cases cat.events.find? n with
    | none => rfl
    | some ev =>
      simp only [Option.map_some, me_id, moved_searchPhase]
      cases searchPhase cat ev.id sp with
      | none => rfl
      | some p =>
        simp only [addParams_moved hE, observation_moved]
        rw [show (movedEvent φ r).time = r.time from rfl, show (movedEvent φ ev).time = ev.time from rfl]
        split
        · rfl
        split
        · rfl
        split
        · rfl
        · simp [movedObs, Outcome.map, movedOp]

theorem currentStation_moved (cat : Catalog K) (s : Option (Station K)) (id : String) :
    currentStation (moved φ cat) (s.map (movedStation φ)) id = (currentStation cat s id).map (movedStation φ) := by
  unfold currentStation
  cases s with
  | none =>
    simp only [Option.map_none, moved_findSta]
    cases cat.stations.find? id <;> rfl
  | some st =>
    simp only [Option.map_some, moved_findSta, ms_id]
    split
    · rfl
    · cases cat.stations.find? id <;> rfl

theorem obsStep_moved (hE : SameEarth φ env env') (o : ObsOptions K) (cat : Catalog K) (xc : XCorr.Cache) (r : Event K)
    (s : ObsState K) (t : StaPhase × Nat) :
    obsStep env' o (moved φ cat) xc (movedEvent φ r) (movedObs φ s) t = (obsStep env o cat xc r s t).map (movedObs φ) := by
  unfold obsStep
  rw [show (movedObs φ s).station = s.station.map (movedStation φ) from rfl, currentStation_moved]
  cases currentStation cat s.station t.1.1 with
  | throws => rfl
  | ub => rfl
  | ok st =>
    simp only [Outcome.map, Outcome.bind_ok]
    have := refStep_moved hE cat r st { s with station := some st } t.1
    rw [show ({ movedObs φ s with station := some (movedStation φ st) } : ObsState K) =
      movedObs φ { s with station := some st } from rfl, this]
    cases refStep env cat r st { s with station := some st } t.1 with
    | throws => rfl
    | ub => rfl
    | ok x => exact neighStep_moved hE o cat xc r st x.2 x.1 t.1 t.2

theorem addObservations_moved (hE : SameEarth φ env env') (o : ObsOptions K) (cat : Catalog K) (xc : XCorr.Cache) (nb : Neighbours)
    (ops : List (SolverOp K)) :
    addObservations env' o (moved φ cat) xc nb (ops.map (movedOp φ)) =
      (addObservations env o cat xc nb ops).map (fun x => (x.1.map (movedOp φ), x.2)) := by
  unfold addObservations
  rw [moved_find]
  cases cat.events.find? nb.refId with
  | none => rfl
  | some r =>
    simp only [Option.map_some, ofOption_some, Outcome.bind_ok]
    have := foldlM_map_comm (γ := Unit) (movedObs φ) (obsStep env' o (moved φ cat) xc (movedEvent φ r)) (obsStep env o cat xc r)
      (fun b a => obsStep_moved hE o cat xc r b a) (nb.phases.insertionSort tupleLe) ⟨ops, none, none, false, 0, 0⟩
    rw [show movedObs φ (⟨ops, none, none, false, 0, 0⟩ : ObsState K) = ⟨ops.map (movedOp φ), none, none, false, 0, 0⟩ from rfl] at this
    rw [this]
    cases List.foldlM (obsStep env o cat xc r) ⟨ops, none, none, false, 0, 0⟩ (nb.phases.insertionSort tupleLe) <;> rfl

variable (φ) in
/-- the variables of the loop over the cluster, elsewhere -/
def movedObserve (s : ObserveState K) : ObserveState K := { s with cur := moved φ s.cur, ops := s.ops.map (movedOp φ) }

theorem observeStep_moved (hE : SameEarth φ env env') (o : ObsOptions K) (xc : XCorr.Cache) (prev : Catalog K) (s : ObserveState K)
    (kv : Nat × Neighbours) :
    observeStep env' o xc (moved φ prev) (movedObserve φ s) kv = (observeStep env o xc prev s kv).map (movedObserve φ) := by
  unfold observeStep
  have h1 : (movedObserve φ s).cur = moved φ s.cur := rfl
  have h2 : (movedObserve φ s).ops = s.ops.map (movedOp φ) := rfl
  rw [h1, h2, addObservations_moved hE, moved_isEmpty, moved_find, moved_removeEvent, moved_addFrom_keep]
  cases addObservations env o s.cur xc kv.2 s.ops with
  | throws => rfl
  | ub => rfl
  | ok x =>
    obtain ⟨ops, ok⟩ := x
    simp only [Outcome.map, Outcome.bind_ok]
    split
    · rfl
    · cases s.cur.events.find? kv.1 with
      | none => rfl
      | some ev =>
        simp only [Option.map_some, ofOption_some, Outcome.bind_ok]
        by_cases hr : ev.isRelocated = true
        · rw [if_pos hr, if_pos (show (movedEvent φ ev).isRelocated = true from hr)]
          generalize (s.cur.removeEvent kv.1).addFrom kv.1 prev true = r
          obtain ⟨c', out⟩ := r
          cases out with
          | throws => rfl
          | ub => rfl
          | ok _ =>
            simp only [addObservations_moved hE]
            cases addObservations env o c' xc kv.2 ops <;> rfl
        · rw [if_neg hr, if_neg (show ¬ (movedEvent φ ev).isRelocated = true from hr)]; rfl

theorem observe_moved (hE : SameEarth φ env env') (o : ObsOptions K) (xc : XCorr.Cache) (cluster : Cluster) (prev cur : Catalog K) :
    observe env' o xc cluster (moved φ prev) (moved φ cur) = (observe env o xc cluster prev cur).map (movedObserve φ) := by
  unfold observe
  exact foldlM_map_comm (γ := Unit) (movedObserve φ) _ _ (fun b a => observeStep_moved hE o xc prev b a) cluster ⟨cur, [], []⟩

theorem mapM_stations (cat : Catalog K) (l : List (Phase K)) :
    l.mapM (fun p => Outcome.ofOption ((moved φ cat).stations.find? p.stationId)) =
      (l.mapM (fun p => Outcome.ofOption (cat.stations.find? p.stationId))).map (List.map (movedStation φ)) := by
  induction l with
  | nil => rfl
  | cons p l ih =>
    simp only [List.mapM_cons, moved_findSta] at ih ⊢
    rw [ih]
    cases cat.stations.find? p.stationId with
    | none => rfl
    | some st =>
      simp only [Option.map_some, ofOption_some, Outcome.bind_ok]
      cases l.mapM (fun p => Outcome.ofOption (cat.stations.find? p.stationId)) <;> rfl

theorem residualOf_moved (ops : List (SolverOp K)) (cat : Catalog K) (id : Nat) (p : Phase K) :
    residualOf (ops.map (movedOp φ)) (moved φ cat) id p = residualOf ops cat id p := by
  unfold residualOf
  rw [moved_findSta]
  cases cat.stations.find? p.stationId with
  | none => rfl
  | some st => simp only [Option.map_some, ms_id, obsParams_moved]

theorem rmsOf_moved (hE : SameEarth φ env env') (u : Bool) (ops : List (SolverOp K)) (cat : Catalog K) (id : Nat) :
    rmsOf env' u (ops.map (movedOp φ)) (moved φ cat) id = rmsOf env u ops cat id := by
  rw [hE.rest]
  unfold rmsOf
  simp only [residualOf_moved, moved_phasesOf]

theorem residualsStep_moved (hE : SameEarth φ env env') (u first : Bool) (ops : List (SolverOp K)) (cat : Catalog K) (kv : Nat × Neighbours) :
    residualsStep env' u first (ops.map (movedOp φ)) (moved φ cat) kv = (residualsStep env u first ops cat kv).map (moved φ) := by
  unfold residualsStep
  rw [moved_find]
  cases cat.events.find? kv.2.refId with
  | none => rfl
  | some ev =>
    simp only [Option.map_some, ofOption_some, Outcome.bind_ok, me_id, moved_phasesOf]
    rw [mapM_stations, rmsOf_moved hE]
    cases (cat.phasesOf ev.id).mapM (fun p => Outcome.ofOption (cat.stations.find? p.stationId)) with
    | throws => rfl
    | ub => rfl
    | ok _ =>
      simp only [Outcome.bind_ok, Outcome.map, Outcome.ok.injEq, residualOf_moved, moved_phases]
      have he := set_mapVal (movedEvent φ) kv.2.refId
        { ev with
          startRms := if first = true then rmsOf env u ops cat ev.id else ev.startRms
          finalRms := if first = true then 0 else rmsOf env u ops cat ev.id } cat.events
      rw [moved_events]
      exact congrArg (fun x => Catalog.mk (moved φ cat).stations x _) he

theorem residuals_moved (hE : SameEarth φ env env') (u first : Bool) (ops : List (SolverOp K)) (cluster : Cluster) (cat : Catalog K) :
    computeEventResiduals env' u first (ops.map (movedOp φ)) cluster (moved φ cat) =
      (computeEventResiduals env u first ops cluster cat).map (moved φ) := by
  unfold computeEventResiduals
  exact foldlM_map_comm (γ := Unit) (moved φ) _ _ (fun b a => residualsStep_moved hE u first ops b a) cluster cat

theorem moveEvent_moved (hE : SameEarth φ env env') (e : Event K) (ch : Change K) :
    moveEvent env' (movedEvent φ e) ch = movedEvent φ (moveEvent env e ch) := by
  have h := hE.coords ch.x ch.y e.latitude e.longitude e.depth
  have hs : env'.secToDur = env.secToDur := by rw [hE.rest]
  simp only [moveEvent, movedEvent, h, hs]

theorem updatePhase_moved (first : Bool) (ans : Answer K) (cat : Catalog K) (id : Nat) (p : Phase K) :
    updatePhase first ans (moved φ cat) id p = updatePhase first ans cat id p := by
  unfold updatePhase
  rw [moved_findSta]
  cases cat.stations.find? p.stationId <;> rfl

theorem updateFound_moved (hE : SameEarth φ env env') (first : Bool) (ans : Answer K) (cat : Catalog K) (k : Nat) (ev : Event K) :
    updateFound env' first ans (moved φ cat) k (movedEvent φ ev) = (updateFound env first ans cat k ev).map (moved φ) := by
  unfold updateFound
  rw [me_id, moved_phasesOf]
  cases ans.changes ev.id with
  | none =>
    simp only [Outcome.map, Outcome.ok.injEq]
    rw [moved_events, set_mapVal]
    rfl
  | some ch =>
    simp only []
    rw [mapM_stations]
    cases (cat.phasesOf ev.id).mapM (fun p => Outcome.ofOption (cat.stations.find? p.stationId)) with
    | throws => rfl
    | ub => rfl
    | ok _ =>
      simp only [Outcome.bind_ok, Outcome.map, Outcome.ok.injEq, updatePhase_moved, moved_phases]
      rw [moved_events, moveEvent_moved hE, set_mapVal]
      rfl

theorem updateStep_moved (hE : SameEarth φ env env') (first : Bool) (ans : Answer K) (cat : Catalog K) (kv : Nat × Neighbours) :
    updateStep env' first ans (moved φ cat) kv = (updateStep env first ans cat kv).map (moved φ) := by
  have hu : ∀ (v : Env K) (c : Catalog K), updateStep v first ans c kv =
      Outcome.ofOption (c.events.find? kv.2.refId) >>= fun e => updateFound v first ans c kv.2.refId (flagged first e) :=
    fun _ _ => rfl
  rw [hu, hu, moved_find]
  cases cat.events.find? kv.2.refId with
  | none => rfl
  | some ev =>
    simp only [Option.map_some, ofOption_some, Outcome.bind_ok]
    exact updateFound_moved hE first ans cat kv.2.refId (flagged first ev)

theorem update_moved (hE : SameEarth φ env env') (first : Bool) (ans : Answer K) (cluster : Cluster) (cat : Catalog K) :
    updateRelocatedEvents env' first ans cluster (moved φ cat) = (updateRelocatedEvents env first ans cluster cat).map (moved φ) := by
  unfold updateRelocatedEvents
  exact foldlM_map_comm (γ := Unit) (moved φ) _ _ (fun b a => updateStep_moved hE first ans b a) cluster cat

end

/-- the variables of the loop, elsewhere -/
def movedLoop (s : LoopState K) : LoopState K := ⟨moved φ s.cur, moved φ s.prev, s.log.map (movedLog φ)⟩

section
variable {φ} {a : Args K} {env' : Env K} {sol' : SolverAnswers K}

theorem iteration_moved (hE : SameEarth φ a.env env') (hS : SameSolver φ a.sol sol') (it : Nat) (s : LoopState K) :
    iteration { a with env := env', sol := sol' } it (movedLoop φ s) = (iteration a it s).map (fun x => (movedLoop φ x.1, x.2)) := by
  unfold iteration
  have h1 : (movedLoop φ s).cur = moved φ s.cur := rfl
  have h2 : (movedLoop φ s).prev = moved φ s.prev := rfl
  have h3 : (movedLoop φ s).log = s.log.map (movedLog φ) := rfl
  rw [h1, h2, h3]
  simp only []
  rw [observe_moved hE]
  cases observe a.env a.o a.xc a.cluster s.prev s.cur with
  | throws => rfl
  | ub => rfl
  | ok ob =>
    have h4 : (movedObserve φ ob).cur = moved φ ob.cur := rfl
    have h5 : (movedObserve φ ob).ops = ob.ops.map (movedOp φ) := rfl
    have h6 : (movedObserve φ ob).reverted = ob.reverted := rfl
    simp only [Outcome.map, Outcome.bind_ok]
    rw [h4, h5, h6, residuals_moved hE]
    cases computeEventResiduals a.env a.o.usePickUncertainties (decide (it = 0)) ob.ops a.cluster ob.cur with
    | throws => rfl
    | ub => rfl
    | ok cur =>
      simp only [Outcome.map, Outcome.bind_ok]
      rw [hS.prepare]
      cases a.sol.prepare it ob.ops _ _ with
      | throws => rfl
      | ub => rfl
      | ok _ =>
        simp only [Outcome.bind_ok]
        split
        · simp [movedLoop, movedLog]
        · rw [hS.solve]
          cases a.sol.solve it ob.ops _ with
          | none => simp [movedLoop, movedLog]
          | some ans =>
            simp only []
            rw [update_moved hE]
            cases updateRelocatedEvents a.env (decide (it = 0)) ans a.cluster cur with
            | throws => rfl
            | ub => rfl
            | ok new => simp [movedLoop, movedLog, Outcome.map]

theorem loop_moved (hE : SameEarth φ a.env env') (hS : SameSolver φ a.sol sol') : ∀ (n it : Nat) (s : LoopState K),
    loop { a with env := env', sol := sol' } n it (movedLoop φ s) = (loop a n it s).map (movedLoop φ)
  | 0, _, _ => rfl
  | n + 1, it, s => by
    rw [loop, loop, iteration_moved hE hS]
    cases iteration a it s with
    | throws => rfl
    | ub => rfl
    | ok x =>
      obtain ⟨s', g⟩ := x
      simp only [Outcome.map, Outcome.bind_ok]
      cases g with
      | true => exact loop_moved hE hS n (it + 1) s'
      | false => rfl

variable (φ) in
theorem returnedLoop_moved (cur : Catalog K) : ∀ (l : List (Nat × Event K)) (r : Catalog K),
    returnedLoop (moved φ cur) (moved φ r) (l.map (fun kv => (kv.1, movedEvent φ kv.2))) = (returnedLoop cur r l).map (moved φ)
  | [], r => rfl
  | kv :: l, r => by
    rw [List.map_cons, returnedLoop, returnedLoop]
    by_cases hr : kv.2.isRelocated = true
    · rw [if_pos hr, if_pos (show (movedEvent φ kv.2).isRelocated = true from hr), me_id, moved_addFrom_keep]
      generalize r.addFrom kv.2.id cur true = x
      obtain ⟨c', out⟩ := x
      cases out with
      | ok _ => exact returnedLoop_moved cur l c'
      | throws => rfl
      | ub => rfl
    · rw [if_neg hr, if_neg (show ¬ (movedEvent φ kv.2).isRelocated = true from hr)]
      exact returnedLoop_moved cur l r

theorem relocate_moved (hE : SameEarth φ a.env env') (hS : SameSolver φ a.sol sol') (cat : Catalog K) :
    relocate { a with env := env', sol := sol' } (moved φ cat) = (relocate a cat).map (movedResult φ) := by
  unfold relocate
  have := loop_moved hE hS (a.so.algoIterations + 1) 0 ⟨cat, Catalog.init, []⟩
  rw [show movedLoop φ (⟨cat, Catalog.init, []⟩ : LoopState K) = ⟨moved φ cat, Catalog.init, []⟩ from rfl] at this
  simp only []
  rw [this]
  cases loop a (a.so.algoIterations + 1) 0 ⟨cat, Catalog.init, []⟩ with
  | throws => rfl
  | ub => rfl
  | ok s =>
    simp only [Outcome.map, Outcome.bind_ok]
    rw [show (movedLoop φ s).cur = moved φ s.cur from rfl, moved_sorted]
    have h2 := returnedLoop_moved φ s.cur s.cur.eventsSorted Catalog.init
    rw [moved_init] at h2
    rw [h2]
    cases returnedLoop s.cur Catalog.init s.cur.eventsSorted <;> rfl
end

/-! ## multi-event relocation -/

/-- the variables of the construction of the cache, elsewhere -/
def movedBuild (s : BuildState K) : BuildState K := ⟨s.cache, s.calls.map (movedCall φ)⟩

section
variable {φ} {x x' : XcorrArgs K}

theorem request_moved (hx : SameXcorr φ x x') (pre : XCorr.Cache) (r : Event K) (rp : Phase K) (ev : Event K) (p : Phase K)
    (s : BuildState K) :
    request x' pre (movedEvent φ r) rp (movedEvent φ ev) p (movedBuild φ s) =
      (request x pre r rp ev p s).map (movedBuild φ) := by
  unfold request
  have h1 : (movedBuild φ s).cache = s.cache := rfl
  have h4 : (movedBuild φ s).calls.length = s.calls.length := by simp [movedBuild]
  rw [h1, h4, me_id, me_id, hx.correlate]
  split
  · rfl
  · cases XCorr.get pre r.id ev.id rp.stationId rp.type with
    | some e => rfl
    | none =>
      cases x.correlate s.calls.length r rp ev p with
      | ok e =>
        simp only [Outcome.bind_ok, Outcome.map, movedBuild, List.map_append, List.map_cons, List.map_nil]
        rfl
      | throws => rfl
      | ub => rfl

theorem pairStep_moved (hx : SameXcorr φ x x') (cat : Catalog K) (pre : XCorr.Cache) (nb : Neighbours) (r : Event K)
    (rp : Phase K) (s : BuildState K) (n : Nat) :
    pairStep x' (moved φ cat) pre nb (movedEvent φ r) rp (movedBuild φ s) n =
      (pairStep x cat pre nb r rp s n).map (movedBuild φ) := by
  have hm : x'.maxInterEvDist = x.maxInterEvDist := by rw [hx.rest]
  unfold pairStep
  rw [moved_find]
  cases cat.events.find? n with
  | none => rfl
  | some ev =>
    simp only [Option.map_some]
    rw [hx.evEv, hm, me_id, moved_searchPhase]
    split
    · rfl
    split
    · cases searchPhase cat ev.id (rp.stationId, rp.type) with
      | none => rfl
      | some p =>
        simp only []
        split
        · rfl
        · exact request_moved hx pre r rp ev p s
    · rfl

theorem refPhaseStep_moved (hx : SameXcorr φ x x') (cat : Catalog K) (pre : XCorr.Cache) (nb : Neighbours) (r : Event K)
    (s : BuildState K) (rp : Phase K) :
    refPhaseStep x' (moved φ cat) pre nb (movedEvent φ r) (movedBuild φ s) rp =
      (refPhaseStep x cat pre nb r s rp).map (movedBuild φ) := by
  have hm : x'.minEvStaDist = x.minEvStaDist ∧ x'.maxEvStaDist = x.maxEvStaDist := by rw [hx.rest]; exact ⟨rfl, rfl⟩
  unfold refPhaseStep
  rw [moved_findSta]
  cases cat.stations.find? rp.stationId with
  | none => rfl
  | some st =>
    simp only [Option.map_some]
    rw [hx.evSta, hm.1, hm.2]
    split
    · rfl
    split
    · rfl
    · exact foldlM_map_comm (γ := Unit) (movedBuild φ) _ _ (fun b a => pairStep_moved hx cat pre nb r rp b a) nb.ids s

theorem clusterStep_moved (hx : SameXcorr φ x x') (cat : Catalog K) (pre : XCorr.Cache) (s : BuildState K) (kv : Nat × Neighbours) :
    clusterStep x' (moved φ cat) pre (movedBuild φ s) kv = (clusterStep x cat pre s kv).map (movedBuild φ) := by
  unfold clusterStep
  rw [moved_find]
  cases cat.events.find? kv.2.refId with
  | none => rfl
  | some r =>
    simp only [Option.map_some, me_id, moved_phasesOf]
    exact foldlM_map_comm (γ := Unit) (movedBuild φ) _ _ (fun b a => refPhaseStep_moved hx cat pre kv.2 r b a) _ s

theorem build_moved (hx : SameXcorr φ x x') (cat : Catalog K) (cluster : Cluster) (pre : XCorr.Cache) (calls : List (XcorrCall K)) :
    buildXCorrCache x' (moved φ cat) cluster pre (calls.map (movedCall φ)) =
      (buildXCorrCache x cat cluster pre calls).map (movedBuild φ) := by
  have hm : x'.enable = x.enable := by rw [hx.rest]
  unfold buildXCorrCache
  rw [hm]
  split
  · exact foldlM_map_comm (γ := Unit) (movedBuild φ) _ _ (fun b a => clusterStep_moved hx cat pre b a) cluster ⟨[], calls⟩
  · rfl
end

theorem addAllLoop_moved (o : Catalog K) : ∀ (l : List (Nat × Event K)) (c : Catalog K),
    Catalog.addAllLoop (moved φ o) true (moved φ c) (l.map (fun kv => (kv.1, movedEvent φ kv.2))) =
      (moved φ (Catalog.addAllLoop o true c l).1, (Catalog.addAllLoop o true c l).2)
  | [], c => rfl
  | kv :: l, c => by
    rw [List.map_cons, Catalog.addAllLoop, Catalog.addAllLoop]
    have h0 : ((moved φ c).events.find? (movedEvent φ kv.2).id).isSome = (c.events.find? kv.2.id).isSome := by
      rw [moved_find, me_id, Option.isSome_map]
    by_cases hk : (c.events.find? kv.2.id).isSome = true
    · rw [if_pos ⟨rfl, h0.trans hk⟩, if_pos ⟨rfl, hk⟩]
      exact addAllLoop_moved o l c
    · rw [if_neg (fun h => hk (h0 ▸ h.2)), if_neg (fun h => hk h.2), me_id, moved_addFrom_keep]
      generalize c.addFrom kv.2.id o true = x
      obtain ⟨c', out⟩ := x
      cases out with
      | ok _ => exact addAllLoop_moved o l c'
      | throws => rfl
      | ub => rfl

theorem addAll_moved (c o : Catalog K) :
    (moved φ c).addAll (moved φ o) true = (moved φ (c.addAll o true).1, (c.addAll o true).2) := by
  unfold Catalog.addAll
  rw [moved_sorted]
  exact addAllLoop_moved φ o _ c

section
variable {φ} {m : MultiArgs K} {env' : Env K} {x' : XcorrArgs K} {sol' : Nat → SolverAnswers K}

theorem multiStep_moved (hE : SameEarth φ m.env env') (hx : SameXcorr φ m.x x') (hS : ∀ i, SameSolver φ (m.sol i) (sol' i))
    (bg : Catalog K) (s : MultiState K) (cluster : Cluster) :
    multiStep { m with env := env', x := x', sol := sol' } (moved φ bg) (movedMulti φ s) cluster =
      (multiStep m bg s cluster).map (movedMulti φ) := by
  unfold multiStep
  have h1 : (movedMulti φ s).xcorrData = s.xcorrData := rfl
  have h2 : (movedMulti φ s).calls = s.calls.map (movedCall φ) := rfl
  have h3 : (movedMulti φ s).done.length = s.done.length := by simp [movedMulti]
  have h4 : (movedMulti φ s).reloc = moved φ s.reloc := rfl
  rw [h1, h2, h3, h4]
  simp only []
  rw [build_moved hx]
  cases buildXCorrCache m.x bg cluster s.xcorrData s.calls with
  | throws => rfl
  | ub => rfl
  | ok b =>
    simp only [Outcome.map, Outcome.bind_ok]
    have hr := relocate_moved (a := m.toArgs s.done.length cluster b.cache) hE (hS s.done.length) bg
    rw [show (movedBuild φ b).cache = b.cache from rfl,
      show MultiArgs.toArgs { m with env := env', x := x', sol := sol' } s.done.length cluster b.cache =
        { m.toArgs s.done.length cluster b.cache with env := env', sol := sol' s.done.length } from rfl, hr]
    cases relocate (m.toArgs s.done.length cluster b.cache) bg with
    | throws => rfl
    | ub => rfl
    | ok r =>
      obtain ⟨r, log⟩ := r
      simp only [Outcome.map, Outcome.bind_ok, movedResult]
      rw [addAll_moved]
      generalize s.reloc.addAll r true = y
      obtain ⟨c', out⟩ := y
      cases out with
      | ok _ => simp [movedMulti, movedResult, movedBuild]
      | throws => rfl
      | ub => rfl

theorem multi_moved (hE : SameEarth φ m.env env') (hx : SameXcorr φ m.x x') (hS : ∀ i, SameSolver φ (m.sol i) (sol' i))
    (bg : Catalog K) (clusters : List Cluster) (xc : XCorr.Cache) :
    relocateMultiEvents { m with env := env', x := x', sol := sol' } (moved φ bg) clusters xc =
      (relocateMultiEvents m bg clusters xc).map (movedMulti φ) := by
  unfold relocateMultiEvents
  exact foldlM_map_comm (γ := Unit) (movedMulti φ) _ _ (fun b a => multiStep_moved hE hx hS bg b a) clusters
    ⟨Catalog.init, xc, [], []⟩
end

/-! ## single-event relocation -/

theorem moved_maxKey (c : Catalog K) : (moved φ c).maxKey = c.maxKey := by
  unfold Catalog.maxKey AMap.keys
  rw [moved_events, List.map_map]
  rfl

theorem moved_addFrom_new (c o : Catalog K) (k : Nat) :
    (moved φ c).addFrom k (moved φ o) false = (moved φ (c.addFrom k o false).1, (c.addFrom k o false).2) := by
  unfold Catalog.addFrom
  rw [moved_find]
  cases ho : o.events.find? k with
  | none => rfl
  | some e =>
    simp only [Option.map_some, Catalog.addEvent, moved_maxKey, me_id]
    have h2 : (⟨(moved φ c).stations, (moved φ c).events.set ((c.maxKey + 1) % uintMod)
          { movedEvent φ e with id := (c.maxKey + 1) % uintMod }, (moved φ c).phases⟩ : Catalog K) =
        moved φ { c with events := c.events.set ((c.maxKey + 1) % uintMod) { e with id := (c.maxKey + 1) % uintMod } } := by
      rw [show ({ movedEvent φ e with id := (c.maxKey + 1) % uintMod } : Event K) =
        movedEvent φ { e with id := (c.maxKey + 1) % uintMod } from rfl, moved_events, set_mapVal]; rfl
    simp only [if_false, Bool.false_eq_true, moved_phasesOf]
    have h3 := moved_copyPhases φ o.stations ((c.maxKey + 1) % uintMod) (o.phasesOf e.id)
      { c with events := c.events.set ((c.maxKey + 1) % uintMod) { e with id := (c.maxKey + 1) % uintMod } }
    rw [← h2, ← moved_stations] at h3
    rw [h3]
    generalize Catalog.copyPhases o.stations _ _ (o.phasesOf e.id) = r
    obtain ⟨c', x⟩ := r
    cases x <;> rfl

theorem toCatalog_moved (nb : Neighbours) (cat : Catalog K) : toCatalog nb (moved φ cat) = (toCatalog nb cat).map (moved φ) := by
  unfold toCatalog
  refine foldlM_map_comm (γ := Unit) (moved φ) _ _ (fun r k => ?_) nb.ids Catalog.init
  unfold copyStep
  rw [moved_addFrom_keep]
  generalize r.addFrom k cat true = x
  obtain ⟨c', out⟩ := x
  cases out <;> rfl

theorem singleEventCatalog_moved (bg evCat : Catalog K) (evId : Nat) (nb : Neighbours) :
    singleEventCatalog (moved φ bg) (moved φ evCat) evId nb =
      (singleEventCatalog bg evCat evId nb).map (fun x => (moved φ x.1, x.2)) := by
  unfold singleEventCatalog
  rw [toCatalog_moved]
  cases toCatalog nb bg with
  | throws => rfl
  | ub => rfl
  | ok c =>
    simp only [Outcome.map, Outcome.bind_ok]
    rw [moved_addFrom_new]
    generalize c.addFrom evId evCat false = x
    obtain ⟨c', out⟩ := x
    cases out <;> rfl

theorem single_moved {φ : K → K → K × K} {s : SingleArgs K} {env' : Env K} {sol' : SolverAnswers K}
    {xcorr' : Catalog K → Cluster → Outcome XCorr.Cache} (hE : SameEarth φ s.env env') (hS : SameSolver φ s.sol sol')
    (hx : ∀ c cl, xcorr' (moved φ c) cl = s.xcorr c cl) (bg evCat : Catalog K) (evId : Nat) (nb : Neighbours) :
    relocateSingleEvent { s with env := env', sol := sol', xcorr := xcorr' } (moved φ bg) (moved φ evCat) evId nb =
      (relocateSingleEvent s bg evCat evId nb).map (movedResult φ) := by
  unfold relocateSingleEvent
  simp only [singleEventCatalog_moved]
  split
  · split <;> rfl
  · cases singleEventCatalog bg evCat evId nb with
    | throws => rfl
    | ub => rfl
    | ok y =>
      obtain ⟨c, m⟩ := y
      simp only [Outcome.map, Outcome.bind_ok, hx]
      cases s.xcorr c [(m, { nb with refId := m })] with
      | throws => rfl
      | ub => rfl
      | ok xc => exact relocate_moved (a := s.toArgs xc nb m) hE hS c

end Verif.Turn
