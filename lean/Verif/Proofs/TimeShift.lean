import Verif.Spec.TimeShift
import Verif.Proofs.RelocateTop
import Mathlib.Data.List.Sort

/-! Lemmas about catalogs whose events all happen later. -/

set_option linter.unusedSectionVars false
set_option linter.unusedSimpArgs false

namespace Verif.TimeShift
open Verif.Catalog Verif.Relocate

section maps
variable {A V W : Type} [DecidableEq A]

theorem find?_mapVal (f : V → W) (k : A) : ∀ m : AMap A V,
    AMap.find? (m.map (fun kv => (kv.1, f kv.2))) k = (AMap.find? m k).map f
  | [] => rfl
  | (a, v) :: m => by
    simp only [List.map_cons, AMap.find?_cons]
    split
    · rfl
    · exact find?_mapVal f k m

theorem erase_mapVal (f : V → W) (k : A) (m : AMap A V) :
    AMap.erase (m.map (fun kv => (kv.1, f kv.2))) k = (AMap.erase m k).map (fun kv => (kv.1, f kv.2)) := by
  unfold AMap.erase
  rw [List.filter_map]
  rfl

theorem set_mapVal (f : V → W) (k : A) (v : V) (m : AMap A V) :
    AMap.set (m.map (fun kv => (kv.1, f kv.2))) k (f v) = (AMap.set m k v).map (fun kv => (kv.1, f kv.2)) := by
  unfold AMap.set
  rw [erase_mapVal]
  rfl
end maps

variable {K : Type} [Field K] [LinearOrder K]

/-- an event later by its own amount -/
def le (δ : Nat → Int) (e : Event K) : Event K := laterEvent (δ e.id) e

variable (δ : Nat → Int)

theorem later_events (c : Catalog K) : (later δ c).events = c.events.map (fun kv => (kv.1, le δ kv.2)) := rfl
theorem later_phases (c : Catalog K) :
    (later δ c).phases = c.phases.map (fun kp => (kp.1, laterPhase (δ kp.1) kp.2)) := rfl
@[simp] theorem later_stations (c : Catalog K) : (later δ c).stations = c.stations := rfl
@[simp] theorem later_init : later δ (Catalog.init : Catalog K) = Catalog.init := rfl
@[simp] theorem le_id (e : Event K) : (le δ e).id = e.id := rfl
@[simp] theorem le_rel (e : Event K) : (le δ e).isRelocated = e.isRelocated := rfl

@[simp] theorem later_find (c : Catalog K) (k : Nat) : (later δ c).events.find? k = (c.events.find? k).map (le δ) := by
  rw [later_events]; exact find?_mapVal _ _ _

@[simp] theorem later_phasesOf (c : Catalog K) (k : Nat) :
    (later δ c).phasesOf k = (c.phasesOf k).map (laterPhase (δ k)) := by
  unfold Catalog.phasesOf
  rw [later_phases, List.filter_map, List.map_map, List.map_map]
  apply List.map_congr_left
  intro kp hkp
  have : kp.1 = k := by simpa using (List.mem_filter.1 hkp).2
  simp [this]

@[simp] theorem later_maxKey (c : Catalog K) : (later δ c).maxKey = c.maxKey := by
  unfold Catalog.maxKey AMap.keys
  rw [later_events, List.map_map]
  rfl

theorem later_sorted (c : Catalog K) :
    (later δ c).eventsSorted = c.eventsSorted.map (fun kv => (kv.1, le δ kv.2)) := by
  unfold Catalog.eventsSorted
  rw [later_events]
  exact (List.map_insertionSort (r := fun a b : Nat × Event K => a.1 ≤ b.1) (s := fun a b : Nat × Event K => a.1 ≤ b.1)
    (fun kv => (kv.1, le δ kv.2)) _ (fun _ _ _ _ => Iff.rfl)).symm

@[simp] theorem later_searchPhase (c : Catalog K) (k : Nat) (sp : StaPhase) :
    searchPhase (later δ c) k sp = (searchPhase c k sp).map (laterPhase (δ k)) := by
  unfold searchPhase
  rw [later_phasesOf, List.find?_map]
  rfl

theorem later_addStation (c : Catalog K) (s : Station K) : (later δ c).addStation s = later δ (c.addStation s) := by
  unfold Catalog.addStation
  simp only [later_stations]
  cases c.stations.find? (Catalog.stationIdOf s.networkCode s.stationCode s.locationCode) <;> rfl

theorem later_copyPhases (sts : AMap String (Station K)) (newId : Nat) {d : Int} (hd : δ newId = d) :
    ∀ (ps : List (Phase K)) (c : Catalog K),
      Catalog.copyPhases sts newId (later δ c) (ps.map (laterPhase d)) =
        ((later δ (Catalog.copyPhases sts newId c ps).1), (Catalog.copyPhases sts newId c ps).2)
  | [], c => rfl
  | p :: ps, c => by
    subst hd
    simp only [List.map_cons, Catalog.copyPhases]
    have h1 : (laterPhase (δ newId) p).stationId = p.stationId := rfl
    unfold Catalog.copyPhase
    rw [h1]
    cases sts.find? p.stationId with
    | none => rfl
    | some s =>
      have : ((later δ c).addStation s).addPhase { laterPhase (δ newId) p with eventId := newId } =
          later δ ((c.addStation s).addPhase { p with eventId := newId }) := by
        rw [later_addStation]
        simp [Catalog.addPhase, later, laterPhase]
      have ih := later_copyPhases sts newId rfl ps ((c.addStation s).addPhase { p with eventId := newId })
      rw [← this] at ih
      exact ih

theorem later_addFrom_keep (c o : Catalog K) (k : Nat) :
    (later δ c).addFrom k (later δ o) true = (later δ (c.addFrom k o true).1, (c.addFrom k o true).2) := by
  unfold Catalog.addFrom
  rw [later_find]
  cases ho : o.events.find? k with
  | none => rfl
  | some e =>
    simp only [Option.map_some, Catalog.addEvent, if_true, later_find, le_id]
    cases hc : c.events.find? e.id with
    | some _ => simp
    | none =>
      have h2 : (⟨c.stations, (later δ c).events.set e.id (le δ e), (later δ c).phases⟩ : Catalog K) =
          later δ { c with events := c.events.set e.id e } := by
        rw [later_events, set_mapVal]; rfl
      simp only [Option.map_none, later_phasesOf, later_stations]
      have h3 := later_copyPhases δ o.stations e.id rfl (o.phasesOf e.id) { c with events := c.events.set e.id e }
      rw [← h2] at h3
      rw [h3]
      generalize Catalog.copyPhases o.stations e.id { c with events := c.events.set e.id e } (o.phasesOf e.id) = r
      obtain ⟨c', x⟩ := r
      cases x <;> rfl

theorem later_addFrom_new (ε : Nat → Int) (c o : Catalog K) (k : Nat)
    (h : ∀ e, o.events.find? k = some e → δ ((c.maxKey + 1) % uintMod) = ε e.id) :
    (later δ c).addFrom k (later ε o) false = (later δ (c.addFrom k o false).1, (c.addFrom k o false).2) := by
  unfold Catalog.addFrom
  rw [later_find]
  cases ho : o.events.find? k with
  | none => rfl
  | some e =>
    have he := h e ho
    simp only [Option.map_some, Catalog.addEvent, later_maxKey, le_id]
    have h2 : (⟨c.stations, (later δ c).events.set ((c.maxKey + 1) % uintMod)
          { le ε e with id := (c.maxKey + 1) % uintMod }, (later δ c).phases⟩ : Catalog K) =
        later δ { c with events := c.events.set ((c.maxKey + 1) % uintMod) { e with id := (c.maxKey + 1) % uintMod } } := by
      have : ({ le ε e with id := (c.maxKey + 1) % uintMod } : Event K) = le δ { e with id := (c.maxKey + 1) % uintMod } := by
        simp [le, laterEvent, he]
      rw [this, later_events, set_mapVal]; rfl
    simp only [if_false, Bool.false_eq_true, later_phasesOf, later_stations]
    have h3 := later_copyPhases δ o.stations _ he (o.phasesOf e.id)
      { c with events := c.events.set ((c.maxKey + 1) % uintMod) { e with id := (c.maxKey + 1) % uintMod } }
    rw [← h2] at h3
    rw [h3]
    generalize Catalog.copyPhases o.stations _ _ (o.phasesOf e.id) = r
    obtain ⟨c', x⟩ := r
    cases x <;> rfl

theorem later_removeEvent (c : Catalog K) (k : Nat) : (later δ c).removeEvent k = later δ (c.removeEvent k) := by
  unfold Catalog.removeEvent
  rw [later_events, erase_mapVal, later_phases, List.filter_map]
  rfl

@[simp] theorem later_isEmpty (c : Catalog K) : isEmpty (later δ c) = isEmpty c := by
  unfold isEmpty
  rw [later_events, later_phases]
  simp

/-! ## the loop of a relocation -/

theorem foldlM_map_comm {α β γ : Type} (f : β → β) (g h : β → α → Outcome β)
    (hs : ∀ b a, g (f b) a = (h b a).map f) : ∀ (l : List α) (b : β),
      l.foldlM g (f b) = (l.foldlM h b).map f
  | [], b => rfl
  | a :: l, b => by
    rw [List.foldlM_cons, List.foldlM_cons, hs]
    cases h b a with
    | ok b' => exact foldlM_map_comm (γ := γ) f g h hs l b'
    | throws => rfl
    | ub => rfl

theorem ofOption_some {α : Type} (a : α) : Outcome.ofOption (some a) = .ok a := rfl

section
variable {env : Env K}

theorem travel (d : Int) (p : Phase K) (e : Event K) :
    (laterPhase d p).time - (laterEvent d e).time = p.time - e.time := by
  simp [laterPhase, laterEvent]

theorem addParams_later (hf : TimeFree env) (ops : List (SolverOp K)) (d : Int) (e : Event K) (st : Station K) (p : Phase K)
    (free : Bool) : addParams env ops (laterEvent d e) st (laterPhase d p) free = addParams env ops e st p free := by
  unfold addParams
  rw [hf d]
  have h1 : phaseName env (laterPhase d p) = phaseName env p := rfl
  have h2 : (laterEvent d e).id = e.id := rfl
  have h3 : (laterPhase d p).type = p.type := rfl
  rw [h1, h2, h3]
  have h4 : ∀ i, paramCalls env (laterEvent d e) st (laterPhase d p) free i = paramCalls env e st p free i := by
    intro i
    unfold paramCalls
    rw [travel]
    rfl
  simp only [h4]

theorem observation_later (o : ObsOptions K) (xc : XCorr.Cache) (mc : K) (d d' : Int) (r e : Event K) (sp : StaPhase) (rp p : Phase K) :
    observation o xc mc (laterEvent d r) (laterEvent d' e) sp (laterPhase d rp) (laterPhase d' p) =
      observation o xc mc r e sp rp p := by
  unfold observation
  rw [travel, travel]
  rfl

/-- the variables of `addObservations`, with the pick of the reference event later -/
def laterObs (d : Int) (s : ObsState K) : ObsState K := { s with refPhase := s.refPhase.map (laterPhase d) }

theorem sameRef_later (d : Int) (x : Option (Phase K)) (sp : StaPhase) :
    sameRef (x.map (laterPhase d)) sp = sameRef x sp := by
  cases x <;> rfl

theorem refStep_later (hf : TimeFree env) (cat : Catalog K) (r : Event K) (st : Station K) (s : ObsState K) (sp : StaPhase) :
    refStep env (later δ cat) (le δ r) st (laterObs (δ r.id) s) sp =
      (refStep env cat r st s sp).map (fun x => (laterObs (δ r.id) x.1, laterPhase (δ r.id) x.2)) := by
  unfold refStep
  have h1 : (laterObs (δ r.id) s).refPhase = s.refPhase.map (laterPhase (δ r.id)) := rfl
  have h2 : (laterObs (δ r.id) s).ops = s.ops := rfl
  rw [h1, sameRef_later, le_id, later_searchPhase]
  have h3 : ∀ p free, addParams env s.ops (le δ r) st (laterPhase (δ r.id) p) free = addParams env s.ops r st p free :=
    fun p free => addParams_later hf _ _ _ _ _ _
  cases s.refPhase with
  | none =>
    cases searchPhase cat r.id sp with
    | none => rfl
    | some p => simp only [Option.map_some, Option.map_none, h2, h3]; rfl
  | some q =>
    simp only [Option.map_some]
    cases sameRef (some q) sp with
    | true => rfl
    | false =>
      cases searchPhase cat r.id sp with
      | none => rfl
      | some p => simp only [Option.map_some, h2, h3]; rfl

theorem neighStep_later (hf : TimeFree env) (o : ObsOptions K) (cat : Catalog K) (xc : XCorr.Cache) (r : Event K)
    (st : Station K) (rp : Phase K) (s : ObsState K) (sp : StaPhase) (n : Nat) :
    neighStep env o (later δ cat) xc (le δ r) st (laterPhase (δ r.id) rp) (laterObs (δ r.id) s) sp n =
      (neighStep env o cat xc r st rp s sp n).map (laterObs (δ r.id)) := by
  unfold neighStep
  have h0 : (laterObs (δ r.id) s).tttError = s.tttError := rfl
  have h1 : (laterPhase (δ r.id) rp).procType = rp.procType := rfl
  have h2 : (laterObs (δ r.id) s).ops = s.ops := rfl
  rw [h0, h1, later_find, h2]
  by_cases ht : s.tttError = true
  · rw [if_pos ht, if_pos ht]; rfl
  rw [if_neg ht, if_neg ht]
  cases o.minCoef rp.procType with
  | none => rfl
  | some mc =>
    cases cat.events.find? n with
    | none => rfl
    | some ev =>
      simp only [Option.map_some, le_id, later_searchPhase]
      cases searchPhase cat ev.id sp with
      | none => rfl
      | some p =>
        simp only [Option.map_some]
        rw [show addParams env s.ops (le δ ev) st (laterPhase (δ ev.id) p) (!o.keepNeighboursFixed) =
            addParams env s.ops ev st p (!o.keepNeighboursFixed) from addParams_later hf _ _ _ _ _ _]
        rw [show (laterPhase (δ r.id) rp).time - (le δ r).time = rp.time - r.time from travel _ _ _]
        rw [show (laterPhase (δ ev.id) p).time - (le δ ev).time = p.time - ev.time from travel _ _ _]
        rw [show observation o xc mc (le δ r) (le δ ev) sp (laterPhase (δ r.id) rp) (laterPhase (δ ev.id) p) =
            observation o xc mc r ev sp rp p from observation_later _ _ _ _ _ _ _ _ _ _]
        split
        · rfl
        split
        · rfl
        split <;> rfl

theorem obsStep_later (hf : TimeFree env) (o : ObsOptions K) (cat : Catalog K) (xc : XCorr.Cache) (r : Event K)
    (s : ObsState K) (t : StaPhase × Nat) :
    obsStep env o (later δ cat) xc (le δ r) (laterObs (δ r.id) s) t = (obsStep env o cat xc r s t).map (laterObs (δ r.id)) := by
  unfold obsStep
  have h0 : currentStation (later δ cat) (laterObs (δ r.id) s).station t.1.1 = currentStation cat s.station t.1.1 := rfl
  rw [h0]
  cases currentStation cat s.station t.1.1 with
  | throws => rfl
  | ub => rfl
  | ok st =>
    simp only [Outcome.bind_ok]
    have := refStep_later δ hf cat r st { s with station := some st } t.1
    rw [show ({ laterObs (δ r.id) s with station := some st } : ObsState K) =
      laterObs (δ r.id) { s with station := some st } from rfl, this]
    cases refStep env cat r st { s with station := some st } t.1 with
    | throws => rfl
    | ub => rfl
    | ok x => exact neighStep_later δ hf o cat xc r st x.2 x.1 t.1 t.2

theorem addObservations_later (hf : TimeFree env) (o : ObsOptions K) (cat : Catalog K) (xc : XCorr.Cache) (nb : Neighbours)
    (ops : List (SolverOp K)) :
    addObservations env o (later δ cat) xc nb ops = addObservations env o cat xc nb ops := by
  unfold addObservations
  rw [later_find]
  cases cat.events.find? nb.refId with
  | none => rfl
  | some r =>
    simp only [Option.map_some, ofOption_some, Outcome.bind_ok]
    have := foldlM_map_comm (γ := Unit) (laterObs (δ r.id)) (obsStep env o (later δ cat) xc (le δ r)) (obsStep env o cat xc r)
      (fun b a => obsStep_later δ hf o cat xc r b a) (nb.phases.insertionSort tupleLe) ⟨ops, none, none, false, 0, 0⟩
    rw [show laterObs (δ r.id) (⟨ops, none, none, false, 0, 0⟩ : ObsState K) = ⟨ops, none, none, false, 0, 0⟩ from rfl] at this
    rw [this]
    cases List.foldlM (obsStep env o cat xc r) ⟨ops, none, none, false, 0, 0⟩ (nb.phases.insertionSort tupleLe) <;> rfl

/-- the variables of the loop over the cluster, later -/
def laterObserve (s : ObserveState K) : ObserveState K := { s with cur := later δ s.cur }

theorem observeStep_later (hf : TimeFree env) (o : ObsOptions K) (xc : XCorr.Cache) (prev : Catalog K) (s : ObserveState K)
    (kv : Nat × Neighbours) :
    observeStep env o xc (later δ prev) (laterObserve δ s) kv = (observeStep env o xc prev s kv).map (laterObserve δ) := by
  unfold observeStep
  have h1 : (laterObserve δ s).cur = later δ s.cur := rfl
  have h2 : (laterObserve δ s).ops = s.ops := rfl
  rw [h1, h2, addObservations_later δ hf, later_isEmpty, later_find, later_removeEvent, later_addFrom_keep]
  cases addObservations env o s.cur xc kv.2 s.ops with
  | throws => rfl
  | ub => rfl
  | ok x =>
    obtain ⟨ops, ok⟩ := x
    simp only [Outcome.bind_ok]
    split
    · rfl
    · cases s.cur.events.find? kv.1 with
      | none => rfl
      | some ev =>
        simp only [Option.map_some, ofOption_some, Outcome.bind_ok]
        by_cases hr : ev.isRelocated = true
        · rw [if_pos hr, if_pos (show (le δ ev).isRelocated = true from hr)]
          generalize (s.cur.removeEvent kv.1).addFrom kv.1 prev true = r
          obtain ⟨c', out⟩ := r
          cases out with
          | throws => rfl
          | ub => rfl
          | ok _ =>
            simp only [addObservations_later δ hf]
            cases addObservations env o c' xc kv.2 ops <;> rfl
        · rw [if_neg hr, if_neg (show ¬ (le δ ev).isRelocated = true from hr)]; rfl

theorem observe_later (hf : TimeFree env) (o : ObsOptions K) (xc : XCorr.Cache) (cluster : Cluster) (prev cur : Catalog K) :
    observe env o xc cluster (later δ prev) (later δ cur) = (observe env o xc cluster prev cur).map (laterObserve δ) := by
  unfold observe
  exact foldlM_map_comm (γ := Unit) (laterObserve δ) _ _ (fun b a => observeStep_later δ hf o xc prev b a) cluster ⟨cur, [], []⟩

theorem mapM_stations {f : Phase K → Phase K} (hs : ∀ p, (f p).stationId = p.stationId) (sts : AMap String (Station K))
    (l : List (Phase K)) :
    (l.map f).mapM (fun p => Outcome.ofOption (sts.find? p.stationId)) =
      l.mapM (fun p => Outcome.ofOption (sts.find? p.stationId)) := by
  induction l with
  | nil => rfl
  | cons p l ih =>
    simp only [List.map_cons, List.mapM_cons, hs, ih]

theorem residualOf_later (ops : List (SolverOp K)) (cat : Catalog K) (id : Nat) (d : Int) (p : Phase K) :
    residualOf ops (later δ cat) id (laterPhase d p) = residualOf ops cat id p := rfl

theorem rmsOf_later (u : Bool) (ops : List (SolverOp K)) (cat : Catalog K) (id : Nat) :
    rmsOf env u ops (later δ cat) id = rmsOf env u ops cat id := by
  unfold rmsOf
  simp only [later_phasesOf, List.filter_map, List.map_map]
  rfl

theorem residualsStep_later (u first : Bool) (ops : List (SolverOp K)) (cat : Catalog K) (kv : Nat × Neighbours) :
    residualsStep env u first ops (later δ cat) kv = (residualsStep env u first ops cat kv).map (later δ) := by
  unfold residualsStep
  rw [later_find]
  cases cat.events.find? kv.2.refId with
  | none => rfl
  | some ev =>
    simp only [Option.map_some, ofOption_some, Outcome.bind_ok, le_id, later_phasesOf, later_stations]
    have hm := mapM_stations (f := laterPhase (K := K) (δ ev.id)) (fun _ => rfl) cat.stations (cat.phasesOf ev.id)
    rw [hm, rmsOf_later]
    cases (cat.phasesOf ev.id).mapM (fun p => Outcome.ofOption (cat.stations.find? p.stationId)) with
    | throws => rfl
    | ub => rfl
    | ok _ =>
      simp only [Outcome.bind_ok, Outcome.map, Outcome.ok.injEq]
      rw [later_events, later_phases, List.map_map]
      have he := set_mapVal (le (K := K) δ) kv.2.refId
        { ev with
          startRms := if first = true then rmsOf env u ops cat ev.id else ev.startRms
          finalRms := if first = true then 0 else rmsOf env u ops cat ev.id } cat.events
      refine congr (congrArg (Catalog.mk cat.stations) (Eq.trans ?_ he)) ?_
      · rfl
      · show _ = List.map _ (List.map _ _)
        rw [List.map_map]
        apply List.map_congr_left
        intro kp _
        show (if kp.1 = ev.id then (kp.1, residualPhase u first (residualOf ops cat ev.id kp.2) (laterPhase (δ kp.1) kp.2)) else (kp.1, laterPhase (δ kp.1) kp.2)) =
          (fun kp : Nat × Phase K => (kp.1, laterPhase (δ kp.1) kp.2))
            (if kp.1 = ev.id then (kp.1, residualPhase u first (residualOf ops cat ev.id kp.2) kp.2) else kp)
        by_cases hk : kp.1 = ev.id
        · rw [if_pos hk, if_pos hk]; rfl
        · rw [if_neg hk, if_neg hk]

theorem residuals_later (u first : Bool) (ops : List (SolverOp K)) (cluster : Cluster) (cat : Catalog K) :
    computeEventResiduals env u first ops cluster (later δ cat) = (computeEventResiduals env u first ops cluster cat).map (later δ) := by
  unfold computeEventResiduals
  exact foldlM_map_comm (γ := Unit) (later δ) _ _ (fun b a => residualsStep_later δ u first ops b a) cluster cat

theorem moveEvent_later (e : Event K) (ch : Change K) : moveEvent env (le δ e) ch = le δ (moveEvent env e ch) := by
  simp only [moveEvent, le, laterEvent]
  congr 1
  omega

/-- the event whose status is reset in the first iteration -/
def flagged (first : Bool) (e : Event K) : Event K := { e with isRelocated := if first then false else e.isRelocated }

/-- `updateStep` after the event is found -/
def updateFound (env : Env K) (first : Bool) (ans : Answer K) (cat : Catalog K) (k : Nat) (ev : Event K) : Outcome (Catalog K) :=
  match ans.changes ev.id with
  | none => .ok { cat with events := cat.events.set k ev }
  | some d => do
    let _ ← (cat.phasesOf ev.id).mapM (fun p => Outcome.ofOption (cat.stations.find? p.stationId))
    .ok { cat with
      events := cat.events.set k (moveEvent env ev d)
      phases := cat.phases.map (fun kp =>
        if kp.1 = ev.id then (kp.1, updatePhase first ans cat ev.id kp.2) else kp) }

theorem updateFound_later (first : Bool) (ans : Answer K) (cat : Catalog K) (k : Nat) (ev : Event K) :
    updateFound env first ans (later δ cat) k (le δ ev) = (updateFound env first ans cat k ev).map (later δ) := by
  unfold updateFound
  rw [le_id, later_phasesOf]
  cases ans.changes ev.id with
  | none =>
    simp only [Outcome.map, Outcome.ok.injEq]
    rw [later_events, set_mapVal]
    rfl
  | some ch =>
    have hm := mapM_stations (f := laterPhase (K := K) (δ ev.id)) (fun _ => rfl) cat.stations (cat.phasesOf ev.id)
    simp only [later_stations]
    rw [hm]
    cases (cat.phasesOf ev.id).mapM (fun p => Outcome.ofOption (cat.stations.find? p.stationId)) with
    | throws => rfl
    | ub => rfl
    | ok _ =>
      simp only [Outcome.bind_ok, Outcome.map, Outcome.ok.injEq]
      rw [later_events, later_phases, List.map_map, moveEvent_later, set_mapVal]
      refine congr rfl ?_
      show _ = List.map _ (List.map _ _)
      rw [List.map_map]
      apply List.map_congr_left
      intro kp _
      show (if kp.1 = ev.id then (kp.1, updatePhase first ans cat ev.id (laterPhase (δ kp.1) kp.2)) else
          (kp.1, laterPhase (δ kp.1) kp.2)) =
        (fun kp : Nat × Phase K => (kp.1, laterPhase (δ kp.1) kp.2))
          (if kp.1 = ev.id then (kp.1, updatePhase first ans cat ev.id kp.2) else kp)
      by_cases hk : kp.1 = ev.id
      · rw [if_pos hk, if_pos hk]; rfl
      · rw [if_neg hk, if_neg hk]

theorem updateStep_later (first : Bool) (ans : Answer K) (cat : Catalog K) (kv : Nat × Neighbours) :
    updateStep env first ans (later δ cat) kv = (updateStep env first ans cat kv).map (later δ) := by
  have hu : ∀ c : Catalog K, updateStep env first ans c kv =
      Outcome.ofOption (c.events.find? kv.2.refId) >>= fun e => updateFound env first ans c kv.2.refId (flagged first e) :=
    fun _ => rfl
  rw [hu, hu, later_find]
  cases cat.events.find? kv.2.refId with
  | none => rfl
  | some ev =>
    simp only [Option.map_some, ofOption_some, Outcome.bind_ok]
    exact updateFound_later δ first ans cat kv.2.refId (flagged first ev)

theorem update_later (first : Bool) (ans : Answer K) (cluster : Cluster) (cat : Catalog K) :
    updateRelocatedEvents env first ans cluster (later δ cat) = (updateRelocatedEvents env first ans cluster cat).map (later δ) := by
  unfold updateRelocatedEvents
  exact foldlM_map_comm (γ := Unit) (later δ) _ _ (fun b a => updateStep_later δ first ans b a) cluster cat

end

/-- the variables of the loop, later -/
def laterLoop (s : LoopState K) : LoopState K := ⟨later δ s.cur, later δ s.prev, s.log.map (laterLog δ)⟩

theorem iteration_later {a : Args K} (hf : TimeFree a.env) (it : Nat) (s : LoopState K) :
    iteration a it (laterLoop δ s) = (iteration a it s).map (fun x => (laterLoop δ x.1, x.2)) := by
  unfold iteration
  have h1 : (laterLoop δ s).cur = later δ s.cur := rfl
  have h2 : (laterLoop δ s).prev = later δ s.prev := rfl
  have h3 : (laterLoop δ s).log = s.log.map (laterLog δ) := rfl
  rw [h1, h2, h3, observe_later δ hf]
  cases observe a.env a.o a.xc a.cluster s.prev s.cur with
  | throws => rfl
  | ub => rfl
  | ok ob =>
    have h4 : (laterObserve δ ob).cur = later δ ob.cur := rfl
    have h5 : (laterObserve δ ob).ops = ob.ops := rfl
    have h6 : (laterObserve δ ob).reverted = ob.reverted := rfl
    simp only [Outcome.map, Outcome.bind_ok]
    rw [h4, h5, h6, residuals_later]
    cases computeEventResiduals a.env a.o.usePickUncertainties (decide (it = 0)) ob.ops a.cluster ob.cur with
    | throws => rfl
    | ub => rfl
    | ok cur =>
      simp only [Outcome.map, Outcome.bind_ok]
      cases a.sol.prepare it ob.ops _ _ with
      | throws => rfl
      | ub => rfl
      | ok _ =>
        simp only [Outcome.bind_ok]
        split
        · simp [laterLoop, laterLog]
        · cases a.sol.solve it ob.ops _ with
          | none => simp [laterLoop, laterLog]
          | some ans =>
            simp only []
            rw [update_later]
            cases updateRelocatedEvents a.env (decide (it = 0)) ans a.cluster cur with
            | throws => rfl
            | ub => rfl
            | ok new => simp [laterLoop, laterLog, Outcome.map]

theorem loop_later {a : Args K} (hf : TimeFree a.env) : ∀ (n it : Nat) (s : LoopState K),
    loop a n it (laterLoop δ s) = (loop a n it s).map (laterLoop δ)
  | 0, _, _ => rfl
  | n + 1, it, s => by
    rw [loop, loop, iteration_later δ hf]
    cases iteration a it s with
    | throws => rfl
    | ub => rfl
    | ok x =>
      obtain ⟨s', g⟩ := x
      simp only [Outcome.map, Outcome.bind_ok]
      cases g with
      | true => exact loop_later hf n (it + 1) s'
      | false => rfl

theorem returnedLoop_later (cur : Catalog K) : ∀ (l : List (Nat × Event K)) (r : Catalog K),
    returnedLoop (later δ cur) (later δ r) (l.map (fun kv => (kv.1, le δ kv.2))) = (returnedLoop cur r l).map (later δ)
  | [], r => rfl
  | kv :: l, r => by
    rw [List.map_cons, returnedLoop, returnedLoop]
    by_cases hr : kv.2.isRelocated = true
    · rw [if_pos hr, if_pos (show (le δ kv.2).isRelocated = true from hr), le_id, later_addFrom_keep]
      generalize r.addFrom kv.2.id cur true = x
      obtain ⟨c', out⟩ := x
      cases out with
      | ok _ => exact returnedLoop_later cur l c'
      | throws => rfl
      | ub => rfl
    · rw [if_neg hr, if_neg (show ¬ (le δ kv.2).isRelocated = true from hr)]
      exact returnedLoop_later cur l r

theorem relocate_later {a : Args K} (hf : TimeFree a.env) (cat : Catalog K) :
    relocate a (later δ cat) = (relocate a cat).map (laterResult δ) := by
  unfold relocate
  have := loop_later δ hf (a.so.algoIterations + 1) 0 ⟨cat, Catalog.init, []⟩
  rw [show laterLoop δ (⟨cat, Catalog.init, []⟩ : LoopState K) = ⟨later δ cat, Catalog.init, []⟩ from rfl] at this
  rw [this]
  cases loop a (a.so.algoIterations + 1) 0 ⟨cat, Catalog.init, []⟩ with
  | throws => rfl
  | ub => rfl
  | ok s =>
    simp only [Outcome.map, Outcome.bind_ok]
    rw [show (laterLoop δ s).cur = later δ s.cur from rfl, later_sorted]
    have h2 := returnedLoop_later δ s.cur s.cur.eventsSorted Catalog.init
    rw [later_init] at h2
    rw [h2]
    cases returnedLoop s.cur Catalog.init s.cur.eventsSorted <;> rfl

/-! ## single-event relocation -/

theorem copyStep_later (o r : Catalog K) (k : Nat) : copyStep (later δ o) (later δ r) k = (copyStep o r k).map (later δ) := by
  unfold copyStep
  rw [later_addFrom_keep]
  generalize r.addFrom k o true = x
  obtain ⟨c', out⟩ := x
  cases out <;> rfl

theorem toCatalog_later (nb : Neighbours) (cat : Catalog K) : toCatalog nb (later δ cat) = (toCatalog nb cat).map (later δ) := by
  unfold toCatalog
  exact foldlM_map_comm (γ := Unit) (later δ) _ _ (fun b a => copyStep_later δ cat b a) nb.ids Catalog.init

/-- only the amounts of the events of the catalog matter -/
theorem later_congr {δ δ' : Nat → Int} {c : Catalog K} (h1 : ∀ ke ∈ c.events, δ ke.2.id = δ' ke.2.id)
    (h2 : ∀ kp ∈ c.phases, δ kp.1 = δ' kp.1) : later δ c = later δ' c := by
  unfold later
  congr 1
  · exact List.map_congr_left (fun ke h => by rw [h1 ke h])
  · exact List.map_congr_left (fun kp h => by rw [h2 kp h])

theorem singleEventCatalog_later {bg evCat : Catalog K} (hb : bg.Sound) {nb : Neighbours} (hn : nb.ids.Nodup)
    (hi : ∀ i ∈ nb.ids, (bg.events.find? i).isSome = true ∧ i + 1 < uintMod) (he : evCat.WF) (evId : Nat) (ε : Nat → Int) :
    ∃ n, (∀ i ∈ nb.ids, i < n) ∧
      singleEventCatalog (later δ bg) (later ε evCat) evId nb =
        (singleEventCatalog bg evCat evId nb).map (fun x => (later (withEvent δ n (ε evId)) x.1, x.2)) ∧
      ∀ c m, singleEventCatalog bg evCat evId nb = .ok (c, m) → m = n := by
  obtain ⟨c, h1, h2⟩ := copy_spec hb init_sound nb.ids hn (fun k hk => (hi k hk).1) (fun _ _ => rfl)
  have h1' : toCatalog nb bg = .ok c := h1
  have hkeys : ∀ k, k ∈ c.events.keys → k ∈ nb.ids := by
    intro k hk
    have := AMap.find?_isSome.2 hk
    rw [h2.events] at this
    by_contra hc
    rw [if_neg hc] at this
    cases this
  have hmax : ∀ k ∈ c.events.keys, k ≤ c.maxKey := by
    intro k hk
    obtain ⟨e, hke⟩ := Option.isSome_iff_exists.1 (AMap.find?_isSome.2 hk)
    exact Catalog.le_maxKey hke
  have hlt : c.maxKey + 1 < uintMod := by
    have : c.maxKey ≤ uintMod - 2 :=
      Catalog.foldl_max_le _ _ _ (by decide) (fun k hk => by have := (hi _ (hkeys k hk)).2; omega)
    have : 2 ≤ uintMod := by decide
    omega
  have hall : ∀ i ∈ nb.ids, i < c.maxKey + 1 := by
    intro i hin
    have : i ∈ c.events.keys := by
      rw [← AMap.find?_isSome, h2.events, if_pos hin]
      exact (hi i hin).1
    have := hmax i this
    omega
  refine ⟨c.maxKey + 1, hall, ?_, ?_⟩
  · unfold singleEventCatalog
    rw [toCatalog_later, h1']
    simp only [Outcome.map, Outcome.bind_ok]
    have hcong : later δ c = later (withEvent δ (c.maxKey + 1) (ε evId)) c := by
      apply later_congr
      · intro ke hke
        have hf := AMap.find?_of_mem h2.sound.eventsUnique (show (ke.1, ke.2) ∈ c.events from hke)
        have hid := (h2.sound.eventKey _ _ hf).1
        have := hmax _ (AMap.mem_keys_of_mem hke)
        unfold withEvent
        rw [if_neg (by omega)]
      · intro kp hkp
        have := hmax _ (AMap.find?_isSome.1 (h2.sound.phaseEvent kp hkp))
        unfold withEvent
        rw [if_neg (by omega)]
    rw [hcong, later_addFrom_new _ ε]
    · generalize c.addFrom evId evCat false = x
      obtain ⟨c', out⟩ := x
      cases out <;> rfl
    · intro e hfe
      rw [Nat.mod_eq_of_lt hlt, (he.eventKey _ _ hfe).1]
      simp [withEvent]
  · intro c' m hm
    unfold singleEventCatalog at hm
    rw [h1'] at hm
    simp only [Outcome.bind_ok] at hm
    unfold Catalog.addFrom Catalog.addEvent at hm
    cases hfe : evCat.events.find? evId with
    | none => rw [hfe] at hm; cases hm
    | some e =>
      rw [hfe] at hm
      simp only [Bool.false_eq_true, if_false, Nat.mod_eq_of_lt hlt] at hm
      generalize Catalog.copyPhases evCat.stations (c.maxKey + 1) _ (evCat.phasesOf e.id) = x at hm
      obtain ⟨c'', out⟩ := x
      cases out with
      | ok _ => cases hm; rfl
      | throws => cases hm
      | ub => cases hm

/-! ## multi-event relocation -/

/-- the variables of the construction of the cache, later -/
def laterBuild (s : BuildState K) : BuildState K := ⟨s.cache, s.calls.map (laterCall δ)⟩

section
variable {x : XcorrArgs K}

theorem request_later (hx : TimeFreeXcorr x) (pre : XCorr.Cache) (r : Event K) (rp : Phase K) (ev : Event K) (p : Phase K)
    (s : BuildState K) :
    request x pre (le δ r) (laterPhase (δ r.id) rp) (le δ ev) (laterPhase (δ ev.id) p) (laterBuild δ s) =
      (request x pre r rp ev p s).map (laterBuild δ) := by
  unfold request
  have h1 : (laterBuild δ s).cache = s.cache := rfl
  have h2 : (laterPhase (δ r.id) rp).stationId = rp.stationId := rfl
  have h3 : (laterPhase (δ r.id) rp).type = rp.type := rfl
  have h4 : (laterBuild δ s).calls.length = s.calls.length := by simp [laterBuild]
  rw [h1, h2, h3, h4, le_id, le_id]
  rw [show x.correlate s.calls.length (le δ r) (laterPhase (δ r.id) rp) (le δ ev) (laterPhase (δ ev.id) p) =
    x.correlate s.calls.length r rp ev p from hx.correlate _ _ _ _ _ _ _]
  split
  · rfl
  · cases XCorr.get pre r.id ev.id rp.stationId rp.type with
    | some e => rfl
    | none =>
      cases x.correlate s.calls.length r rp ev p with
      | ok e =>
        simp only [Outcome.bind_ok, Outcome.map, laterBuild, List.map_append, List.map_cons, List.map_nil]
        rfl
      | throws => rfl
      | ub => rfl

theorem pairStep_later (hx : TimeFreeXcorr x) (cat : Catalog K) (pre : XCorr.Cache) (nb : Neighbours) (r : Event K)
    (rp : Phase K) (s : BuildState K) (n : Nat) :
    pairStep x (later δ cat) pre nb (le δ r) (laterPhase (δ r.id) rp) (laterBuild δ s) n =
      (pairStep x cat pre nb r rp s n).map (laterBuild δ) := by
  unfold pairStep
  rw [later_find]
  cases cat.events.find? n with
  | none => rfl
  | some ev =>
    have h2 : (laterPhase (δ r.id) rp).stationId = rp.stationId := rfl
    have h3 : (laterPhase (δ r.id) rp).type = rp.type := rfl
    simp only [Option.map_some]
    rw [show x.evEv (le δ r) (le δ ev) = x.evEv r ev from hx.evEv _ _ _ _, h2, h3, le_id, later_searchPhase]
    split
    · rfl
    split
    · cases searchPhase cat ev.id (rp.stationId, rp.type) with
      | none => rfl
      | some p =>
        simp only [Option.map_some]
        by_cases hs : p.source ≠ Source.catalog
        · rw [if_pos hs, if_pos (show (laterPhase (δ ev.id) p).source ≠ Source.catalog from hs)]; rfl
        · rw [if_neg hs, if_neg (show ¬ (laterPhase (δ ev.id) p).source ≠ Source.catalog from hs)]
          exact request_later δ hx pre r rp ev p s
    · rfl

theorem refPhaseStep_later (hx : TimeFreeXcorr x) (cat : Catalog K) (pre : XCorr.Cache) (nb : Neighbours) (r : Event K)
    (s : BuildState K) (rp : Phase K) :
    refPhaseStep x (later δ cat) pre nb (le δ r) (laterBuild δ s) (laterPhase (δ r.id) rp) =
      (refPhaseStep x cat pre nb r s rp).map (laterBuild δ) := by
  unfold refPhaseStep
  have h2 : (laterPhase (δ r.id) rp).stationId = rp.stationId := rfl
  rw [later_stations, h2]
  cases cat.stations.find? rp.stationId with
  | none => rfl
  | some st =>
    simp only []
    rw [show x.evSta (le δ r) st = x.evSta r st from hx.evSta _ _ _]
    split
    · rfl
    split
    · rfl
    · exact foldlM_map_comm (γ := Unit) (laterBuild δ) _ _ (fun b a => pairStep_later δ hx cat pre nb r rp b a) nb.ids s

theorem foldlM_map_comm₂ {α α' β : Type} (f : β → β) (m : α → α') (g : β → α' → Outcome β) (h : β → α → Outcome β)
    (hs : ∀ b a, g (f b) (m a) = (h b a).map f) : ∀ (l : List α) (b : β),
      (l.map m).foldlM g (f b) = (l.foldlM h b).map f
  | [], b => rfl
  | a :: l, b => by
    rw [List.map_cons, List.foldlM_cons, List.foldlM_cons, hs]
    cases h b a with
    | ok b' => exact foldlM_map_comm₂ f m g h hs l b'
    | throws => rfl
    | ub => rfl

theorem clusterStep_later (hx : TimeFreeXcorr x) (cat : Catalog K) (pre : XCorr.Cache) (s : BuildState K) (kv : Nat × Neighbours) :
    clusterStep x (later δ cat) pre (laterBuild δ s) kv = (clusterStep x cat pre s kv).map (laterBuild δ) := by
  unfold clusterStep
  rw [later_find]
  cases cat.events.find? kv.2.refId with
  | none => rfl
  | some r =>
    simp only [Option.map_some, le_id, later_phasesOf]
    exact foldlM_map_comm₂ (laterBuild δ) (laterPhase (δ r.id)) _ _ (fun b a => refPhaseStep_later δ hx cat pre kv.2 r b a) _ s

theorem build_later (hx : TimeFreeXcorr x) (cat : Catalog K) (cluster : Cluster) (pre : XCorr.Cache) (calls : List (XcorrCall K)) :
    buildXCorrCache x (later δ cat) cluster pre (calls.map (laterCall δ)) =
      (buildXCorrCache x cat cluster pre calls).map (laterBuild δ) := by
  unfold buildXCorrCache
  split
  · exact foldlM_map_comm (γ := Unit) (laterBuild δ) _ _ (fun b a => clusterStep_later δ hx cat pre b a) cluster ⟨[], calls⟩
  · rfl
end

theorem addAllLoop_later (o : Catalog K) : ∀ (l : List (Nat × Event K)) (c : Catalog K),
    Catalog.addAllLoop (later δ o) true (later δ c) (l.map (fun kv => (kv.1, le δ kv.2))) =
      (later δ (Catalog.addAllLoop o true c l).1, (Catalog.addAllLoop o true c l).2)
  | [], c => rfl
  | kv :: l, c => by
    rw [List.map_cons, Catalog.addAllLoop, Catalog.addAllLoop]
    have h0 : ((later δ c).events.find? (le δ kv.2).id).isSome = (c.events.find? kv.2.id).isSome := by
      rw [later_find, le_id, Option.isSome_map]
    by_cases hk : (c.events.find? kv.2.id).isSome = true
    · rw [if_pos ⟨rfl, h0.trans hk⟩, if_pos ⟨rfl, hk⟩]
      exact addAllLoop_later o l c
    · rw [if_neg (fun h => hk (h0 ▸ h.2)), if_neg (fun h => hk h.2), le_id, later_addFrom_keep]
      generalize c.addFrom kv.2.id o true = x
      obtain ⟨c', out⟩ := x
      cases out with
      | ok _ => exact addAllLoop_later o l c'
      | throws => rfl
      | ub => rfl

theorem addAll_later (c o : Catalog K) :
    (later δ c).addAll (later δ o) true = (later δ (c.addAll o true).1, (c.addAll o true).2) := by
  unfold Catalog.addAll
  rw [later_sorted]
  exact addAllLoop_later δ o _ c

theorem multiStep_later {m : MultiArgs K} (hf : TimeFree m.env) (hx : TimeFreeXcorr m.x) (bg : Catalog K) (s : MultiState K)
    (cluster : Cluster) : multiStep m (later δ bg) (laterMulti δ s) cluster = (multiStep m bg s cluster).map (laterMulti δ) := by
  unfold multiStep
  have h1 : (laterMulti δ s).xcorrData = s.xcorrData := rfl
  have h2 : (laterMulti δ s).calls = s.calls.map (laterCall δ) := rfl
  have h3 : (laterMulti δ s).done.length = s.done.length := by simp [laterMulti]
  have h4 : (laterMulti δ s).reloc = later δ s.reloc := rfl
  rw [h1, h2, h3, h4, build_later δ hx]
  cases buildXCorrCache m.x bg cluster s.xcorrData s.calls with
  | throws => rfl
  | ub => rfl
  | ok b =>
    simp only [Outcome.map, Outcome.bind_ok]
    have hr := relocate_later δ (a := m.toArgs s.done.length cluster b.cache) hf bg
    rw [show (laterBuild δ b).cache = b.cache from rfl, hr]
    cases relocate (m.toArgs s.done.length cluster b.cache) bg with
    | throws => rfl
    | ub => rfl
    | ok r =>
      obtain ⟨r, log⟩ := r
      simp only [Outcome.map, Outcome.bind_ok, laterResult]
      rw [addAll_later]
      generalize s.reloc.addAll r true = y
      obtain ⟨c', out⟩ := y
      cases out with
      | ok _ => simp [laterMulti, laterResult, laterBuild]
      | throws => rfl
      | ub => rfl

theorem multi_later {m : MultiArgs K} (hf : TimeFree m.env) (hx : TimeFreeXcorr m.x) (bg : Catalog K) (clusters : List Cluster)
    (xc : XCorr.Cache) :
    relocateMultiEvents m (later δ bg) clusters xc = (relocateMultiEvents m bg clusters xc).map (laterMulti δ) := by
  unfold relocateMultiEvents
  exact foldlM_map_comm (γ := Unit) (laterMulti δ) _ _ (fun b a => multiStep_later δ hf hx bg b a) clusters
    ⟨Catalog.init, xc, [], []⟩

/-! ## selection of neighbours -/

section
open Verif.Selection
variable {g : Geometry K} (hg : TimeFreeGeometry g) {cfg : Config K} {cat refCat : Catalog K} {r : Event K} (ε : Nat → Int)
include hg

theorem sel_search (c : Catalog K) (k : Nat) (sp : StaPhase) :
    Selection.searchPhase (later ε c) k sp = (Selection.searchPhase c k sp).map (laterPhase (ε k)) := by
  unfold Selection.searchPhase
  rw [later_phasesOf, List.find?_map]
  rfl

theorem matchPhase_later (ev : Event K) (d : K) (p : Phase K) :
    matchPhase g cfg (later δ cat) (le ε r) (later ε refCat) (le δ ev) d (laterPhase (δ ev.id) p) =
      matchPhase g cfg cat r refCat ev d p := by
  unfold matchPhase
  have h1 : (laterPhase (δ ev.id) p).stationId = p.stationId := rfl
  have h2 : (laterPhase (δ ev.id) p).type = p.type := rfl
  have h3 : (laterPhase (δ ev.id) p).procType = p.procType := rfl
  rw [later_stations, h1, h2, h3, le_id, sel_search hg]
  cases cat.stations.find? p.stationId with
  | none => rfl
  | some st =>
    simp only []
    rw [show g.staDist (le ε r) st = g.staDist r st from hg _ _ _, show g.staDist (le δ ev) st = g.staDist ev st from hg _ _ _]
    cases Selection.searchPhase refCat r.id (p.stationId, p.type) <;> rfl

theorem matchPhases_later (ev : Event K) (d : K) : ∀ (ps : List (Phase K)) (acc : List (K × StaPhase)),
    matchPhases g cfg (later δ cat) (le ε r) (later ε refCat) (le δ ev) d (ps.map (laterPhase (δ ev.id))) acc =
      matchPhases g cfg cat r refCat ev d ps acc
  | [], _ => rfl
  | p :: ps, acc => by
    rw [List.map_cons, matchPhases, matchPhases, matchPhase_later δ hg ε]
    cases matchPhase g cfg cat r refCat ev d p with
    | ok y =>
      cases y with
      | none => exact matchPhases_later ev d ps acc
      | some z => exact matchPhases_later ev d ps _
    | throws => rfl
    | ub => rfl

theorem addNeighbour_later :
    addNeighbour g cfg (later δ cat) (le ε r) (later ε refCat) = addNeighbour g cfg cat r refCat := by
  funext nb id d
  unfold addNeighbour
  rw [le_id, later_find]
  split
  · rfl
  · cases cat.events.find? id with
    | none => rfl
    | some ev =>
      simp only [Option.map_some, le_id, later_phasesOf]
      rw [matchPhases_later δ hg ε]

theorem nearest_later (pop : KdTree.Pop K) (t : EventTree K) :
    nearest g cfg (later δ cat) (le ε r) (later ε refCat) pop t = nearest g cfg cat r refCat pop t := by
  have h : nearestVisit g cfg (later δ cat) (le ε r) (later ε refCat) t = nearestVisit g cfg cat r refCat t := by
    funext s i d
    unfold nearestVisit
    rw [addNeighbour_later δ hg ε]
  unfold nearest
  rw [h]
  rfl

theorem scanCell_later (t : EventTree K) (cell : (K × K) × Nat) : ∀ (l : List (K × Nat)) (nb : Neighbours),
    scanCell g cfg (later δ cat) (le ε r) (later ε refCat) t cell l nb = scanCell g cfg cat r refCat t cell l nb
  | [], _ => rfl
  | (d, i) :: l, nb => by
    rw [scanCell, scanCell, addNeighbour_later δ hg ε]
    have he : eventPt (le ε r) = eventPt r := rfl
    rw [he]
    simp only [scanCell_later t cell l]

theorem sweep_later (t : EventTree K) : ∀ (cs : List ((K × K) × Nat)) (pts : List (K × Nat)) (nb : Neighbours) (m : Bool),
    sweep g cfg (later δ cat) (le ε r) (later ε refCat) t cs pts nb m = sweep g cfg cat r refCat t cs pts nb m
  | [], _, _, _ => rfl
  | c :: cs, pts, nb, m => by
    rw [sweep, sweep, scanCell_later δ hg ε]
    simp only [sweep_later t cs]

theorem rounds_later (t : EventTree K) (cs : List ((K × K) × Nat)) : ∀ (n : Nat) (pts : List (K × Nat)) (nb : Neighbours),
    rounds g cfg (later δ cat) (le ε r) (later ε refCat) t cs n pts nb = rounds g cfg cat r refCat t cs n pts nb
  | 0, _, _ => rfl
  | n + 1, pts, nb => by
    rw [rounds, rounds, sweep_later δ hg ε]
    simp only [rounds_later t cs n]

theorem select_later (pop : KdTree.Pop K) (t : EventTree K) :
    selectNeighbours g cfg (later δ cat) (le ε r) (later ε refCat) pop t = selectNeighbours g cfg cat r refCat pop t := by
  unfold selectNeighbours ellipsoids
  rw [nearest_later δ hg ε]
  simp only [rounds_later δ hg ε]
  rfl

end

section
open Verif.Selection
variable {g : Geometry K} (hg : TimeFreeGeometry g) {cfg : Config K} {q : Nat} {pop : KdTree.Pop K} {t : EventTree K}

omit [Field K] [LinearOrder K] in
/-- the variables of the selection, later -/
def laterCat (s : CatState K) : CatState K := { s with valid := later δ s.valid }

theorem tree_later (nth) (cat : Catalog K) : createEventTree nth (later δ cat) = createEventTree nth cat := by
  have : (later δ cat).eventsSorted.map (fun kv => (eventPt kv.2, kv.2.id)) =
      cat.eventsSorted.map (fun kv => (eventPt kv.2, kv.2.id)) := by
    rw [later_sorted, List.map_map]; rfl
  unfold createEventTree
  rw [this]

include hg

theorem firstPass_later : ∀ (l : List (Nat × Event K)) (s : CatState K),
    firstPass g cfg q pop t (l.map (fun kv => (kv.1, le δ kv.2))) (laterCat δ s) = (firstPass g cfg q pop t l s).map (laterCat δ)
  | [], _ => rfl
  | (k, ev) :: l, s => by
    rw [List.map_cons, firstPass, firstPass]
    rw [show (laterCat δ s).valid = later δ s.valid from rfl, select_later δ hg δ]
    cases selectNeighbours g cfg s.valid ev s.valid pop t with
    | throws => rfl
    | ub => rfl
    | ok nb =>
      simp only []
      by_cases hq : q ≤ nb.amount
      · rw [if_pos hq, if_pos hq]
        exact firstPass_later l { s with found := s.found.insertNew nb.refId nb }
      · rw [if_neg hq, if_neg hq, le_id, later_removeEvent]
        exact firstPass_later l { s with removed := ev.id :: s.removed, valid := s.valid.removeEvent ev.id }

theorem redoPass_later : ∀ (l : List (Nat × Neighbours)) (s : CatState K) (b : Bool),
    redoPass g cfg q pop t l (laterCat δ s) b = (redoPass g cfg q pop t l s b).map (fun x => (laterCat δ x.1, x.2))
  | [], _, _ => rfl
  | (k, nb) :: l, s, b => by
    rw [redoPass, redoPass]
    have h1 : (laterCat δ s).removed = s.removed := rfl
    have h2 : (laterCat δ s).valid = later δ s.valid := rfl
    have h3 : (laterCat δ s).found = s.found := rfl
    rw [h1, h2, h3, later_find]
    split
    · cases s.valid.events.find? nb.refId with
      | none => rfl
      | some ev =>
        simp only [Option.map_some]
        rw [select_later δ hg δ]
        cases selectNeighbours g cfg s.valid ev s.valid pop t with
        | throws => rfl
        | ub => rfl
        | ok nb' =>
          simp only []
          by_cases hq : nb'.amount < q
          · rw [if_pos hq, if_pos hq, later_removeEvent]
            exact redoPass_later l { s with removed := nb'.refId :: s.removed, valid := s.valid.removeEvent nb'.refId } true
          · rw [if_neg hq, if_neg hq]
            exact redoPass_later l { s with found := s.found.insertNew nb'.refId nb' } b
    · exact redoPass_later l { s with found := s.found.insertNew nb.refId nb } b

theorem redoLoop_later (order : AMap Nat Neighbours → List (Nat × Neighbours)) : ∀ (n : Nat) (s : CatState K),
    redoLoop g cfg q pop t order n (laterCat δ s) = redoLoop g cfg q pop t order n s
  | 0, _ => rfl
  | n + 1, s => by
    rw [redoLoop, redoLoop]
    have := redoPass_later δ hg (cfg := cfg) (q := q) (pop := pop) (t := t) (order s.found) { s with found := [] } false
    rw [show ({ laterCat δ s with found := [] } : CatState K) = laterCat δ { s with found := [] } from rfl,
      show (laterCat δ s).found = s.found from rfl, this]
    cases redoPass g cfg q pop t (order s.found) { s with found := [] } false with
    | throws => rfl
    | ub => rfl
    | ok y =>
      obtain ⟨s', b⟩ := y
      cases b with
      | true => exact redoLoop_later order n s'
      | false => rfl

theorem selectCatalog_later (order : AMap Nat Neighbours → List (Nat × Neighbours)) (cat : Catalog K) :
    selectCatalog g cfg q pop t order (later δ cat) = selectCatalog g cfg q pop t order cat := by
  unfold selectCatalog
  rw [later_sorted]
  have := firstPass_later δ hg (cfg := cfg) (q := q) (pop := pop) (t := t) cat.eventsSorted ⟨cat, [], []⟩
  rw [show laterCat δ (⟨cat, [], []⟩ : CatState K) = ⟨later δ cat, [], []⟩ from rfl] at this
  rw [this]
  cases firstPass g cfg q pop t cat.eventsSorted ⟨cat, [], []⟩ with
  | throws => rfl
  | ub => rfl
  | ok s => exact redoLoop_later δ hg order _ s

end

/-! ## the event to relocate -/

theorem flatMap_map_left {α β γ : Type} (f : α → β) (g : β → List γ) (l : List α) :
    (l.map f).flatMap g = l.flatMap (fun a => g (f a)) := by
  induction l with
  | nil => rfl
  | cons a l ih => simp [ih]

theorem fill_later {c : Catalog K} (hc : c.WF) (src : Source) (vp vs : List String) (w : K → K → K) :
    (later δ c).fillProcessingInfo src vp vs (fun p => w p.lowerUncertainty p.upperUncertainty) =
      later δ (c.fillProcessingInfo src vp vs (fun p => w p.lowerUncertainty p.upperUncertainty)) := by
  have h : ((later δ c).fillProcessingInfo src vp vs (fun p => w p.lowerUncertainty p.upperUncertainty)).phases =
      (later δ (c.fillProcessingInfo src vp vs (fun p => w p.lowerUncertainty p.upperUncertainty))).phases := by
    rw [later_phases]
    unfold Catalog.fillProcessingInfo
    simp only [later_sorted, flatMap_map_left, List.map_flatMap]
    apply List.flatMap_congr
    intro kv _
    simp only [le_id, later_phasesOf, List.map_map]
    apply List.map_congr_left
    intro p hp
    have : p.eventId = kv.2.id := hc.phaseKey _ (Catalog.mem_phasesOf.1 hp)
    simp [laterPhase, this]
  have h' : ∀ a b : Catalog K, a.stations = b.stations → a.events = b.events → a.phases = b.phases → a = b := by
    rintro ⟨_, _, _⟩ ⟨_, _, _⟩ rfl rfl rfl; rfl
  exact h' _ _ rfl rfl h

end Verif.TimeShift
