import Verif.Spec.Renumber
import Verif.Proofs.TimeShift
import Verif.Proofs.SolverPrepare

/-! Lemmas about catalogs whose events have other numbers. -/

set_option linter.unusedSectionVars false
set_option linter.unusedSimpArgs false

namespace Verif.Renumber
open Verif.Catalog Verif.Relocate
open Verif.TimeShift (foldlM_map_comm ofOption_some foldlM_map_comm₂ flagged updateFound)

section maps
variable {A B V W : Type} [DecidableEq A] [DecidableEq B]

theorem find?_mapBoth {r : A → B} (hr : Function.Injective r) (f : V → W) (k : A) : ∀ m : AMap A V,
    AMap.find? (m.map (fun kv => (r kv.1, f kv.2))) (r k) = (AMap.find? m k).map f
  | [] => rfl
  | (a, v) :: m => by
    simp only [List.map_cons, AMap.find?_cons, hr.eq_iff]
    split
    · rfl
    · exact find?_mapBoth hr f k m

theorem erase_mapBoth {r : A → B} (hr : Function.Injective r) (f : V → W) (k : A) (m : AMap A V) :
    AMap.erase (m.map (fun kv => (r kv.1, f kv.2))) (r k) = (AMap.erase m k).map (fun kv => (r kv.1, f kv.2)) := by
  unfold AMap.erase
  rw [List.filter_map]
  congr 1
  refine List.filter_congr (fun x _ => ?_)
  simp [hr.eq_iff]

theorem set_mapBoth {r : A → B} (hr : Function.Injective r) (f : V → W) (k : A) (v : V) (m : AMap A V) :
    AMap.set (m.map (fun kv => (r kv.1, f kv.2))) (r k) (f v) = (AMap.set m k v).map (fun kv => (r kv.1, f kv.2)) := by
  unfold AMap.set
  rw [erase_mapBoth hr]
  rfl
end maps

variable {K : Type} [Field K] [LinearOrder K] {r : Nat → Nat}

@[simp] theorem e_id (e : Event K) : (event r e).id = r e.id := rfl
@[simp] theorem e_rel (e : Event K) : (event r e).isRelocated = e.isRelocated := rfl
@[simp] theorem cat_stations (c : Catalog K) : (catalog r c).stations = c.stations := rfl
theorem cat_events (c : Catalog K) : (catalog r c).events = c.events.map (fun kv => (r kv.1, event r kv.2)) := rfl
theorem cat_phases (c : Catalog K) : (catalog r c).phases = c.phases.map (fun kp => (r kp.1, phase r kp.2)) := rfl
@[simp] theorem cat_init : catalog r (Catalog.init : Catalog K) = Catalog.init := rfl

section
variable (hr : StrictMono r)
include hr

theorem cat_find (c : Catalog K) (k : Nat) : (catalog r c).events.find? (r k) = (c.events.find? k).map (event r) := by
  rw [cat_events]; exact find?_mapBoth hr.injective _ _ _

theorem cat_phasesOf (c : Catalog K) (k : Nat) : (catalog r c).phasesOf (r k) = (c.phasesOf k).map (phase r) := by
  unfold Catalog.phasesOf
  rw [cat_phases, List.filter_map, List.map_map, List.map_map]
  have : (fun kp : Nat × Phase K => decide (kp.1 = r k)) ∘ (fun kp : Nat × Phase K => (r kp.1, phase r kp.2)) = fun kp : Nat × Phase K => decide (kp.1 = k) := by
    funext kp; simp [hr.injective.eq_iff]
  rw [this]
  rfl

theorem cat_searchPhase (c : Catalog K) (k : Nat) (sp : StaPhase) :
    searchPhase (catalog r c) (r k) sp = (searchPhase c k sp).map (phase r) := by
  unfold searchPhase
  rw [cat_phasesOf hr, List.find?_map]
  rfl

theorem cat_sorted (c : Catalog K) :
    (catalog r c).eventsSorted = c.eventsSorted.map (fun kv => (r kv.1, event r kv.2)) := by
  unfold Catalog.eventsSorted
  rw [cat_events]
  exact (List.map_insertionSort (r := fun a b : Nat × Event K => a.1 ≤ b.1) (s := fun a b : Nat × Event K => a.1 ≤ b.1)
    (fun kv => (r kv.1, event r kv.2)) _ (fun _ _ _ _ => hr.le_iff_le.symm)).symm

omit hr in
theorem cat_addStation (c : Catalog K) (s : Station K) : (catalog r c).addStation s = catalog r (c.addStation s) := by
  unfold Catalog.addStation
  simp only [cat_stations]
  cases c.stations.find? (Catalog.stationIdOf s.networkCode s.stationCode s.locationCode) <;> rfl

omit hr in
theorem cat_addPhase (c : Catalog K) (p : Phase K) : (catalog r c).addPhase (phase r p) = catalog r (c.addPhase p) := by
  unfold Catalog.addPhase
  simp [catalog, phase]

omit hr in
theorem cat_copyPhases (sts : AMap String (Station K)) (newId : Nat) :
    ∀ (ps : List (Phase K)) (c : Catalog K),
      Catalog.copyPhases sts (r newId) (catalog r c) (ps.map (phase r)) =
        ((catalog r (Catalog.copyPhases sts newId c ps).1), (Catalog.copyPhases sts newId c ps).2)
  | [], c => rfl
  | p :: ps, c => by
    rw [List.map_cons]
    simp only [Catalog.copyPhases]
    unfold Catalog.copyPhase
    rw [show (phase r p).stationId = p.stationId from rfl]
    cases sts.find? p.stationId with
    | none => rfl
    | some s =>
      have : ((catalog r c).addStation s).addPhase { phase r p with eventId := r newId } =
          catalog r ((c.addStation s).addPhase { p with eventId := newId }) := by
        rw [cat_addStation, ← cat_addPhase]; rfl
      have ih := cat_copyPhases sts newId ps ((c.addStation s).addPhase { p with eventId := newId })
      rw [← this] at ih
      exact ih

theorem cat_addFrom (c o : Catalog K) (k : Nat) :
    (catalog r c).addFrom (r k) (catalog r o) true = (catalog r (c.addFrom k o true).1, (c.addFrom k o true).2.map r) := by
  unfold Catalog.addFrom
  rw [cat_find hr]
  cases ho : o.events.find? k with
  | none => rfl
  | some e =>
    simp only [Option.map_some, Catalog.addEvent, if_true, cat_find hr, e_id]
    cases hc : c.events.find? e.id with
    | some _ => simp [Outcome.map]
    | none =>
      have h2 : (⟨(catalog r c).stations, (catalog r c).events.set (r e.id) (event r e), (catalog r c).phases⟩ : Catalog K) =
          catalog r { c with events := c.events.set e.id e } := by
        rw [cat_events, set_mapBoth hr.injective]; rfl
      simp only [Option.map_none, cat_phasesOf hr]
      have h3 := cat_copyPhases (r := r) o.stations e.id (o.phasesOf e.id) { c with events := c.events.set e.id e }
      rw [← h2] at h3
      rw [cat_stations, h3]
      generalize Catalog.copyPhases o.stations e.id { c with events := c.events.set e.id e } (o.phasesOf e.id) = x
      obtain ⟨c', x⟩ := x
      cases x <;> rfl

theorem cat_removeEvent (c : Catalog K) (k : Nat) : (catalog r c).removeEvent (r k) = catalog r (c.removeEvent k) := by
  unfold Catalog.removeEvent
  rw [cat_events, erase_mapBoth hr.injective, cat_phases, List.filter_map]
  have : (fun kp : Nat × Phase K => decide (kp.1 ≠ r k)) ∘ (fun kp : Nat × Phase K => (r kp.1, phase r kp.2)) = fun kp : Nat × Phase K => decide (kp.1 ≠ k) := by
    funext kp; simp [hr.injective.eq_iff]
  rw [this]
  rfl

omit hr in
@[simp] theorem cat_isEmpty (c : Catalog K) : isEmpty (catalog r c) = isEmpty c := by
  unfold isEmpty
  rw [cat_events, cat_phases, cat_stations]
  simp

/-! ## the solver -/

omit hr in
/-- the conversion of event numbers, with other numbers -/
def conv (r : Nat → Nat) (m : IdToIndex Nat) : IdToIndex Nat :=
  ⟨m.current, m.fwd.map (fun kv => (r kv.1, kv.2)), m.frm.map (fun kv => (kv.1, r kv.2))⟩

theorem conv_find (m : IdToIndex Nat) (k : Nat) : (conv r m).fwd.find? (r k) = m.fwd.find? k := by
  have := find?_mapBoth hr.injective (fun v : Nat => v) k m.fwd
  rw [Option.map_id'] at this
  exact this

theorem conv_convert (m : IdToIndex Nat) (k : Nat) : (conv r m).convert (r k) = (conv r (m.convert k).1, (m.convert k).2) := by
  unfold IdToIndex.convert
  rw [conv_find hr]
  cases m.fwd.find? k with
  | some i => rfl
  | none =>
    have h1 := set_mapBoth hr.injective (fun v : Nat => v) k m.current m.fwd
    have h2 := TimeShift.set_mapVal r m.current k m.frm
    simp only [conv] at *
    rw [h1, h2]

end

/-- two solvers that were told the same with other numbers -/
structure Told (r : Nat → Nat) (s s' : Solver K) : Prop where
  eq : s' = { s with evConv := conv r s.evConv, obsConv := s'.obsConv }
  current : s'.obsConv.current = s.obsConv.current
  keys : ∀ e1 e2 k, s'.obsConv.fwd.find? (Solver.obsKey (r e1) (r e2) k) = s.obsConv.fwd.find? (Solver.obsKey e1 e2 k)

theorem obs_convert (hr : StrictMono r) {m m' : IdToIndex (List Char)} (hc : m'.current = m.current)
    (hk : ∀ e1 e2 k, m'.fwd.find? (Solver.obsKey (r e1) (r e2) k) = m.fwd.find? (Solver.obsKey e1 e2 k)) (a b : Nat) (k : List Char) :
    (m'.convert (Solver.obsKey (r a) (r b) k)).2 = (m.convert (Solver.obsKey a b k)).2 ∧
    (m'.convert (Solver.obsKey (r a) (r b) k)).1.current = (m.convert (Solver.obsKey a b k)).1.current ∧
    ∀ e1 e2 k', (m'.convert (Solver.obsKey (r a) (r b) k)).1.fwd.find? (Solver.obsKey (r e1) (r e2) k') =
      (m.convert (Solver.obsKey a b k)).1.fwd.find? (Solver.obsKey e1 e2 k') := by
  unfold IdToIndex.convert
  rw [hk]
  cases m.fwd.find? (Solver.obsKey a b k) with
  | some i => exact ⟨rfl, hc, hk⟩
  | none =>
    refine ⟨hc, by simp only [hc], fun e1 e2 k' => ?_⟩
    simp only []
    by_cases h : Solver.obsKey a b k = Solver.obsKey e1 e2 k'
    · obtain ⟨rfl, rfl, rfl⟩ := Solver.obsKey_inj.1 h
      rw [AMap.find?_set_self, AMap.find?_set_self, hc]
    · have h' : Solver.obsKey (r a) (r b) k ≠ Solver.obsKey (r e1) (r e2) k' := by
        intro h'
        obtain ⟨h1, h2, h3⟩ := Solver.obsKey_inj.1 h'
        exact h (Solver.obsKey_inj.2 ⟨hr.injective h1, hr.injective h2, h3⟩)
      rw [AMap.find?_set_ne _ _ (Ne.symm h'), AMap.find?_set_ne _ _ (Ne.symm h), hk]

theorem told_step (hr : StrictMono r) {s s' : Solver K} (h : Told r s s') (o : SolverOp K) : Told r (s.step o) (s'.step (op r o)) := by
  obtain ⟨ec, sc, pc, oc, os, ep, sp, op'⟩ := s
  obtain ⟨ec', sc', pc', oc', os', ep', sp', op''⟩ := s'
  obtain ⟨he, hc, hk⟩ := h
  simp only [Solver.mk.injEq] at he hc hk
  obtain ⟨rfl, rfl, rfl, -, rfl, rfl, rfl, rfl⟩ := he
  cases o with
  | event id lat lon depth =>
    simp only [op, Solver.step, Solver.addEvent, conv_convert hr]
    exact ⟨rfl, hc, hk⟩
  | station sta lat lon e => exact ⟨rfl, hc, hk⟩
  | params p =>
    simp only [op, Solver.step, Solver.addObservationParams, conv_convert hr]
    exact ⟨rfl, hc, hk⟩
  | obs o =>
    obtain ⟨h1, h2, h3⟩ := obs_convert hr hc hk o.e1 o.e2 (Solver.phStaKey o.phase o.sta)
    simp only [op, Solver.step, Solver.addObservation, conv_convert hr]
    refine ⟨?_, h2, h3⟩
    simp only [h1]

theorem told (hr : StrictMono r) (ops : List (SolverOp K)) : Told r (Solver.run ops) (Solver.run (ops.map (op r))) := by
  have h : ∀ s s' : Solver K, Told r s s' → Told r (ops.foldl Solver.step s) ((ops.map (op r)).foldl Solver.step s') := by
    induction ops with
    | nil => exact fun _ _ h => h
    | cons o ops ih =>
      intro s s' h
      rw [List.map_cons, List.foldl_cons, List.foldl_cons]
      exact ih _ _ (told_step hr h o)
  exact h _ _ ⟨rfl, rfl, fun _ _ _ => rfl⟩

theorem obsParams_told (hr : StrictMono r) (ops : List (SolverOp K)) (id : Nat) (sta ph : String) :
    getObservationParams (Solver.run (ops.map (op r))) (r id) sta ph = getObservationParams (Solver.run ops) id sta ph := by
  have h := (told hr ops).eq
  unfold getObservationParams
  rw [h]
  simp only [conv_find hr]

/-! ## correlation results -/

section
variable (hr : StrictMono r)
include hr

omit hr in
/-- the results of an event, with other numbers -/
def cache1 (r : Nat → Nat) (m : AMap String (AMap String (AMap Nat XCorr.Entry))) : AMap String (AMap String (AMap Nat XCorr.Entry)) :=
  m.map (fun sta => (sta.1, sta.2.map (fun ph => (ph.1, ph.2.map (fun e2 => (r e2.1, e2.2))))))

omit hr in
/-- the results of an event and a station, with other numbers -/
def cache2 (r : Nat → Nat) (m : AMap String (AMap Nat XCorr.Entry)) : AMap String (AMap Nat XCorr.Entry) :=
  m.map (fun ph => (ph.1, ph.2.map (fun e2 => (r e2.1, e2.2))))

omit hr in
/-- the results of an event, a station and a phase, with other numbers -/
def cache3 (r : Nat → Nat) (m : AMap Nat XCorr.Entry) : AMap Nat XCorr.Entry := m.map (fun e2 => (r e2.1, e2.2))

theorem find0 (c : XCorr.Cache) (k : Nat) : AMap.find? (cache r c) (r k) = (AMap.find? c k).map (cache1 r) :=
  find?_mapBoth hr.injective (cache1 r) k c
omit hr in
theorem find1 (m : AMap String (AMap String (AMap Nat XCorr.Entry))) (k : String) :
    AMap.find? (cache1 r m) k = (AMap.find? m k).map (cache2 r) := TimeShift.find?_mapVal (cache2 r) k m
omit hr in
theorem find2 (m : AMap String (AMap Nat XCorr.Entry)) (k : String) :
    AMap.find? (cache2 r m) k = (AMap.find? m k).map (cache3 r) := TimeShift.find?_mapVal (cache3 r) k m
theorem find3 (m : AMap Nat XCorr.Entry) (k : Nat) : AMap.find? (cache3 r m) (r k) = AMap.find? m k := by
  have := find?_mapBoth hr.injective (fun v : XCorr.Entry => v) k m
  rw [Option.map_id'] at this
  exact this

theorem set0 (c : XCorr.Cache) (k : Nat) (v) : AMap.set (cache r c) (r k) (cache1 r v) = cache r (AMap.set c k v) :=
  set_mapBoth hr.injective (cache1 r) k v c
omit hr in
theorem set1 (m : AMap String (AMap String (AMap Nat XCorr.Entry))) (k : String) (v) :
    AMap.set (cache1 r m) k (cache2 r v) = cache1 r (AMap.set m k v) := TimeShift.set_mapVal (cache2 r) k v m
omit hr in
theorem set2 (m : AMap String (AMap Nat XCorr.Entry)) (k : String) (v) :
    AMap.set (cache2 r m) k (cache3 r v) = cache2 r (AMap.set m k v) := TimeShift.set_mapVal (cache3 r) k v m
theorem set3 (m : AMap Nat XCorr.Entry) (k : Nat) (v : XCorr.Entry) : AMap.set (cache3 r m) (r k) v = cache3 r (AMap.set m k v) :=
  set_mapBoth hr.injective (fun v : XCorr.Entry => v) k v m
theorem erase3 (m : AMap Nat XCorr.Entry) (k : Nat) : AMap.erase (cache3 r m) (r k) = cache3 r (AMap.erase m k) :=
  erase_mapBoth hr.injective (fun v : XCorr.Entry => v) k m

theorem cache_at (c : XCorr.Cache) (e1 e2 : Nat) (sta ph : String) :
    XCorr.at? (cache r c) (r e1) sta ph (r e2) = XCorr.at? c e1 sta ph e2 := by
  unfold XCorr.at?
  rw [find0 hr]
  cases AMap.find? c e1 with
  | none => rfl
  | some m1 =>
    simp only [Option.map_some, Option.bind_some, find1]
    cases AMap.find? m1 sta with
    | none => rfl
    | some m2 =>
      simp only [Option.map_some, Option.bind_some, find2]
      cases AMap.find? m2 ph with
      | none => rfl
      | some m3 => simp only [Option.map_some, Option.bind_some, find3 hr]

theorem cache_get (c : XCorr.Cache) (e1 e2 : Nat) (sta ph : String) :
    XCorr.get (cache r c) (r e1) (r e2) sta ph = XCorr.get c e1 e2 sta ph := by
  unfold XCorr.get
  rw [cache_at hr, cache_at hr]

theorem cache_assign (c : XCorr.Cache) (e1 e2 : Nat) (sta ph : String) (e : XCorr.Entry) :
    XCorr.assign (cache r c) (r e1) sta ph (r e2) e = cache r (XCorr.assign c e1 sta ph e2 e) := by
  have g1 : ((AMap.find? c e1).map (cache1 r)).getD [] = cache1 r ((AMap.find? c e1).getD []) := by
    cases AMap.find? c e1 <;> rfl
  have g2 : ∀ m : AMap String (AMap String (AMap Nat XCorr.Entry)),
      ((AMap.find? m sta).map (cache2 r)).getD [] = cache2 r ((AMap.find? m sta).getD []) := by
    intro m; cases AMap.find? m sta <;> rfl
  have g3 : ∀ m : AMap String (AMap Nat XCorr.Entry),
      ((AMap.find? m ph).map (cache3 r)).getD [] = cache3 r ((AMap.find? m ph).getD []) := by
    intro m; cases AMap.find? m ph <;> rfl
  unfold XCorr.assign
  simp only [find0 hr, g1, find1, g2, find2, g3, set3 hr, set2, set1, set0 hr]

theorem cache_eraseAt (c : XCorr.Cache) (e1 e2 : Nat) (sta ph : String) :
    XCorr.eraseAt (cache r c) (r e1) sta ph (r e2) = cache r (XCorr.eraseAt c e1 sta ph e2) := by
  unfold XCorr.eraseAt
  rw [find0 hr]
  cases AMap.find? c e1 with
  | none => rfl
  | some m1 =>
    simp only [Option.map_some, find1]
    cases AMap.find? m1 sta with
    | none => rfl
    | some m2 =>
      simp only [Option.map_some, find2]
      cases AMap.find? m2 ph with
      | none => rfl
      | some m3 => simp only [Option.map_some, erase3 hr, set2, set1, set0 hr]

theorem cache_add (c : XCorr.Cache) (e1 e2 : Nat) (sta ph : String) (e : XCorr.Entry) :
    XCorr.add (cache r c) (r e1) (r e2) sta ph e = cache r (XCorr.add c e1 e2 sta ph e) := by
  unfold XCorr.add
  rw [cache_assign hr, cache_eraseAt hr]

omit hr in
theorem cache_forEach (c : XCorr.Cache) :
    XCorr.forEach (cache r c) = (XCorr.forEach c).map (fun x => (r x.1, r x.2.1, x.2.2)) := by
  unfold XCorr.forEach cache
  simp only [List.flatMap_map, List.map_flatMap, List.map_map]
  rfl

theorem cache_merge (c d : XCorr.Cache) : XCorr.merge (cache r c) (cache r d) = cache r (XCorr.merge c d) := by
  unfold XCorr.merge
  rw [cache_forEach]
  generalize XCorr.forEach d = l
  induction l generalizing c with
  | nil => rfl
  | cons x l ih => rw [List.map_cons, List.foldl_cons, List.foldl_cons, cache_add hr, ih]

theorem cache_entry (c : XCorr.Cache) (e1 e2 : Nat) (sp : StaPhase) :
    xcorrEntry (cache r c) (r e1) (r e2) sp = xcorrEntry c e1 e2 sp := by
  unfold xcorrEntry
  rw [cache_get hr]
  cases c <;> rfl

/-! ## neighbours -/

omit hr in
@[simp] theorem nb_ref (nb : Neighbours) : (neighbours r nb).refId = r nb.refId := rfl
omit hr in
theorem nb_ids (nb : Neighbours) : (neighbours r nb).ids = nb.ids.map r := by
  unfold Neighbours.ids AMap.keys neighbours
  simp only [List.map_map]
  rfl
theorem nb_hasPhase (nb : Neighbours) (k : Nat) (sp : StaPhase) : (neighbours r nb).hasPhase (r k) sp = nb.hasPhase k sp := by
  have := find?_mapBoth hr.injective (fun v : List StaPhase => v) k nb.nbs
  rw [Option.map_id'] at this
  unfold Neighbours.hasPhase Neighbours.phasesOf neighbours
  simp only [this]

theorem nb_phases (nb : Neighbours) : (neighbours r nb).phases.insertionSort tupleLe =
    (nb.phases.insertionSort tupleLe).map (fun t => (t.1, r t.2)) := by
  have h : (neighbours r nb).phases = nb.phases.map (fun t => (t.1, r t.2)) := by
    unfold Neighbours.phases neighbours
    simp only [List.flatMap_map, List.map_flatMap, List.map_map]
    rfl
  rw [h]
  refine (List.map_insertionSort (r := tupleLe) (s := tupleLe) (fun t : StaPhase × Nat => (t.1, r t.2)) _ (fun a _ b _ => ?_)).symm
  unfold tupleLe
  simp only [hr.le_iff_le]

/-! ## the loop of a relocation -/

variable {env : Env K} (hE : TravelTimesIgnore r env)

omit hr in
include hE in
theorem paramCalls_ren (e : Event K) (st : Station K) (p : Phase K) (free : Bool) (i : TravelTimeInfo K) :
    paramCalls env (event r e) st (phase r p) free i = (paramCalls env e st p free i).map (op r) := rfl

include hE in
theorem addParams_ren (ops : List (SolverOp K)) (e : Event K) (st : Station K) (p : Phase K)
    (free : Bool) : addParams env (ops.map (op r)) (event r e) st (phase r p) free =
      ((addParams env ops e st p free).1.map (op r), (addParams env ops e st p free).2) := by
  unfold addParams
  rw [e_id, show (phase r p).type = p.type from rfl, obsParams_told hr, hE,
    show phaseName env (phase r p) = phaseName env p from rfl]
  split
  · rfl
  · cases env.ttt e st (phaseName env p) with
    | none => rfl
    | some i => simp only [paramCalls_ren hE, List.map_append]

theorem observation_ren (o : ObsOptions K) (xc : XCorr.Cache) (mc : K) (e f : Event K) (sp : StaPhase) (rp p : Phase K) :
    op r (.obs (observation o xc mc e f sp rp p)) =
      .obs (observation o (cache r xc) mc (event r e) (event r f) sp (phase r rp) (phase r p)) := by
  unfold observation
  rw [e_id, e_id, cache_entry hr]
  cases xcorrEntry xc e.id f.id sp with
  | none => rfl
  | some x =>
    simp only []
    split <;> rfl

omit hr in
/-- the variables of `addObservations`, with other numbers -/
def obsState (r : Nat → Nat) (s : ObsState K) : ObsState K :=
  { s with ops := s.ops.map (op r), refPhase := s.refPhase.map (phase r) }

include hE in
theorem refStep_ren (cat : Catalog K) (e : Event K) (st : Station K) (s : ObsState K) (sp : StaPhase) :
    refStep env (catalog r cat) (event r e) st (obsState r s) sp =
      (refStep env cat e st s sp).map (fun x => (obsState r x.1, phase r x.2)) := by
  unfold refStep
  have h1 : (obsState r s).refPhase = s.refPhase.map (phase r) := rfl
  have h2 : (obsState r s).ops = s.ops.map (op r) := rfl
  rw [h1, e_id, cat_searchPhase hr]
  cases s.refPhase with
  | none =>
    cases searchPhase cat e.id sp with
    | none => rfl
    | some p => simp only [Option.map_none, Option.map_some, h2, addParams_ren hr hE]; rfl
  | some q =>
    rw [Option.map_some, show sameRef (some (phase r q)) sp = sameRef (some q) sp from rfl]
    cases sameRef (some q) sp with
    | true => rfl
    | false =>
      cases searchPhase cat e.id sp with
      | none => rfl
      | some p => simp only [Option.map_some, h2, addParams_ren hr hE]; rfl

include hE in
theorem neighStep_ren (o : ObsOptions K) (cat : Catalog K) (xc : XCorr.Cache) (e : Event K)
    (st : Station K) (rp : Phase K) (s : ObsState K) (sp : StaPhase) (n : Nat) :
    neighStep env o (catalog r cat) (cache r xc) (event r e) st (phase r rp) (obsState r s) sp (r n) =
      (neighStep env o cat xc e st rp s sp n).map (obsState r) := by
  unfold neighStep
  have h0 : (obsState r s).tttError = s.tttError := rfl
  have h2 : (obsState r s).ops = s.ops.map (op r) := rfl
  rw [h0, cat_find hr, h2, show (phase r rp).procType = rp.procType from rfl]
  by_cases ht : s.tttError = true
  · rw [if_pos ht, if_pos ht]; rfl
  rw [if_neg ht, if_neg ht]
  cases o.minCoef rp.procType with
  | none => rfl
  | some mc =>
    cases cat.events.find? n with
    | none => rfl
    | some ev =>
      simp only [Option.map_some, e_id, cat_searchPhase hr]
      cases searchPhase cat ev.id sp with
      | none => rfl
      | some p =>
        simp only [Option.map_some, addParams_ren hr hE, ← observation_ren hr]
        rw [show (event r e).time = e.time from rfl, show (event r ev).time = ev.time from rfl,
          show (phase r rp).time = rp.time from rfl, show (phase r p).time = p.time from rfl]
        split
        · rfl
        split
        · rfl
        split
        · rfl
        · simp [obsState, Outcome.map]

include hE in
theorem obsStep_ren (o : ObsOptions K) (cat : Catalog K) (xc : XCorr.Cache) (e : Event K)
    (s : ObsState K) (t : StaPhase × Nat) :
    obsStep env o (catalog r cat) (cache r xc) (event r e) (obsState r s) (t.1, r t.2) =
      (obsStep env o cat xc e s t).map (obsState r) := by
  unfold obsStep
  rw [show (obsState r s).station = s.station from rfl,
    show currentStation (catalog r cat) s.station t.1.1 = currentStation cat s.station t.1.1 from rfl]
  cases currentStation cat s.station t.1.1 with
  | throws => rfl
  | ub => rfl
  | ok st =>
    simp only [Outcome.bind_ok]
    have := refStep_ren hr hE cat e st { s with station := some st } t.1
    rw [show ({ obsState r s with station := some st } : ObsState K) =
      obsState r { s with station := some st } from rfl, this]
    cases refStep env cat e st { s with station := some st } t.1 with
    | throws => rfl
    | ub => rfl
    | ok x => exact neighStep_ren hr hE o cat xc e st x.2 x.1 t.1 t.2

include hE in
theorem addObservations_ren (o : ObsOptions K) (cat : Catalog K) (xc : XCorr.Cache) (nb : Neighbours)
    (ops : List (SolverOp K)) :
    addObservations env o (catalog r cat) (cache r xc) (neighbours r nb) (ops.map (op r)) =
      (addObservations env o cat xc nb ops).map (fun x => (x.1.map (op r), x.2)) := by
  unfold addObservations
  rw [nb_ref, cat_find hr]
  cases cat.events.find? nb.refId with
  | none => rfl
  | some e =>
    simp only [Option.map_some, ofOption_some, Outcome.bind_ok]
    rw [nb_phases hr]
    have := foldlM_map_comm₂ (obsState r) (fun t : StaPhase × Nat => (t.1, r t.2))
      (obsStep env o (catalog r cat) (cache r xc) (event r e)) (obsStep env o cat xc e)
      (fun b a => obsStep_ren hr hE o cat xc e b a) (nb.phases.insertionSort tupleLe) ⟨ops, none, none, false, 0, 0⟩
    rw [show obsState r (⟨ops, none, none, false, 0, 0⟩ : ObsState K) = ⟨ops.map (op r), none, none, false, 0, 0⟩ from rfl] at this
    rw [this]
    cases List.foldlM (obsStep env o cat xc e) ⟨ops, none, none, false, 0, 0⟩ (nb.phases.insertionSort tupleLe) <;> rfl

omit hr in
/-- the variables of the loop over the cluster, with other numbers -/
def observeState (r : Nat → Nat) (s : ObserveState K) : ObserveState K := ⟨catalog r s.cur, s.ops.map (op r), s.reverted.map r⟩

include hE in
theorem observeStep_ren (o : ObsOptions K) (xc : XCorr.Cache) (prev : Catalog K) (s : ObserveState K)
    (kv : Nat × Neighbours) :
    observeStep env o (cache r xc) (catalog r prev) (observeState r s) (r kv.1, neighbours r kv.2) =
      (observeStep env o xc prev s kv).map (observeState r) := by
  unfold observeStep
  have h1 : (observeState r s).cur = catalog r s.cur := rfl
  have h2 : (observeState r s).ops = s.ops.map (op r) := rfl
  rw [h1, h2, addObservations_ren hr hE, cat_isEmpty, cat_find hr, cat_removeEvent hr, cat_addFrom hr]
  cases addObservations env o s.cur xc kv.2 s.ops with
  | throws => rfl
  | ub => rfl
  | ok x =>
    obtain ⟨ops, ok⟩ := x
    simp only [Outcome.map, Outcome.bind_ok]
    split
    · rfl
    · cases s.cur.events.find? kv.1 with
      | none => rfl
      | some ev =>
        simp only [Option.map_some, ofOption_some, Outcome.bind_ok]
        by_cases hrel : ev.isRelocated = true
        · rw [if_pos hrel, if_pos (show (event r ev).isRelocated = true from hrel)]
          generalize (s.cur.removeEvent kv.1).addFrom kv.1 prev true = y
          obtain ⟨c', out⟩ := y
          cases out with
          | throws => rfl
          | ub => rfl
          | ok _ =>
            simp only [addObservations_ren hr hE]
            cases addObservations env o c' xc kv.2 ops with
            | ok z => simp [observeState, Outcome.map]
            | throws => rfl
            | ub => rfl
        · rw [if_neg hrel, if_neg (show ¬ (event r ev).isRelocated = true from hrel)]; rfl

include hE in
theorem observe_ren (o : ObsOptions K) (xc : XCorr.Cache) (cl : Cluster) (prev cur : Catalog K) :
    observe env o (cache r xc) (cluster r cl) (catalog r prev) (catalog r cur) =
      (observe env o xc cl prev cur).map (observeState r) := by
  unfold observe cluster
  exact foldlM_map_comm₂ (observeState r) _ _ _ (fun b a => observeStep_ren hr hE o xc prev b a) cl ⟨cur, [], []⟩

omit hr in
theorem mapM_ren (cat : Catalog K) (l : List (Phase K)) :
    (l.map (phase r)).mapM (fun p => Outcome.ofOption (cat.stations.find? p.stationId)) =
      l.mapM (fun p => Outcome.ofOption (cat.stations.find? p.stationId)) := by
  induction l with
  | nil => rfl
  | cons p l ih =>
    rw [List.map_cons, List.mapM_cons, List.mapM_cons, ih]
    rfl

theorem residualOf_ren (ops : List (SolverOp K)) (cat : Catalog K) (id : Nat) (p : Phase K) :
    residualOf (ops.map (op r)) (catalog r cat) (r id) (phase r p) = residualOf ops cat id p := by
  unfold residualOf
  rw [cat_stations, show (phase r p).stationId = p.stationId from rfl, show (phase r p).type = p.type from rfl]
  cases cat.stations.find? p.stationId with
  | none => rfl
  | some st => simp only [obsParams_told hr]

theorem rmsOf_ren (u : Bool) (ops : List (SolverOp K)) (cat : Catalog K) (id : Nat) :
    rmsOf env u (ops.map (op r)) (catalog r cat) (r id) = rmsOf env u ops cat id := by
  have hf : ∀ l : List (Phase K), (l.map (phase r)).filter (fun p => (residualOf (ops.map (op r)) (catalog r cat) (r id) p).isSome) =
      (l.filter (fun p => (residualOf ops cat id p).isSome)).map (phase r) := by
    intro l
    rw [List.filter_map]
    congr 1
    refine List.filter_congr (fun p _ => ?_)
    show (residualOf _ _ _ (phase r p)).isSome = _
    rw [residualOf_ren hr]
  unfold rmsOf
  simp only [cat_phasesOf hr, hf, List.map_map, Function.comp_def, residualOf_ren hr]
  rfl

theorem residualsStep_ren (u first : Bool) (ops : List (SolverOp K)) (cat : Catalog K) (kv : Nat × Neighbours) :
    residualsStep env u first (ops.map (op r)) (catalog r cat) (r kv.1, neighbours r kv.2) =
      (residualsStep env u first ops cat kv).map (catalog r) := by
  unfold residualsStep
  simp only [nb_ref]
  rw [cat_find hr]
  cases cat.events.find? kv.2.refId with
  | none => rfl
  | some ev =>
    simp only [Option.map_some, ofOption_some, Outcome.bind_ok, e_id, cat_phasesOf hr, cat_stations]
    rw [mapM_ren, rmsOf_ren hr]
    cases (cat.phasesOf ev.id).mapM (fun p => Outcome.ofOption (cat.stations.find? p.stationId)) with
    | throws => rfl
    | ub => rfl
    | ok _ =>
      simp only [Outcome.bind_ok, Outcome.map, Outcome.ok.injEq]
      have he := set_mapBoth hr.injective (event r) kv.2.refId
        { ev with
          startRms := if first = true then rmsOf env u ops cat ev.id else ev.startRms
          finalRms := if first = true then 0 else rmsOf env u ops cat ev.id } cat.events
      have hp : (catalog r cat).phases.map (fun kp =>
          if kp.1 = r ev.id then
            (kp.1, residualPhase u first (residualOf (ops.map (op r)) (catalog r cat) (r ev.id) kp.2) kp.2)
          else kp) =
          (cat.phases.map (fun kp =>
            if kp.1 = ev.id then (kp.1, residualPhase u first (residualOf ops cat ev.id kp.2) kp.2) else kp)).map
              (fun kp => (r kp.1, phase r kp.2)) := by
        rw [cat_phases, List.map_map, List.map_map]
        refine List.map_congr_left (fun kp _ => ?_)
        simp only [Function.comp_apply, hr.injective.eq_iff, residualOf_ren hr]
        split <;> rfl
      exact congrArg₂ (Catalog.mk cat.stations) he hp

theorem residuals_ren (u first : Bool) (ops : List (SolverOp K)) (cl : Cluster) (cat : Catalog K) :
    computeEventResiduals env u first (ops.map (op r)) (cluster r cl) (catalog r cat) =
      (computeEventResiduals env u first ops cl cat).map (catalog r) := by
  unfold computeEventResiduals cluster
  exact foldlM_map_comm₂ (catalog r) _ _ _ (fun b a => residualsStep_ren hr u first ops b a) cl cat

theorem answer_changes (ans : Answer K) (k : Nat) : (answer r ans).changes (r k) = ans.changes k := by
  simp only [answer, Function.partialInv_left hr.injective, Option.bind_some]

theorem answer_used (ans : Answer K) (k : Nat) (sta ph : String) : (answer r ans).used (r k) sta ph = ans.used k sta ph := by
  simp only [answer, Function.partialInv_left hr.injective, Option.map_some, Option.getD_some]

theorem updatePhase_ren (first : Bool) (ans : Answer K) (cat : Catalog K) (id : Nat) (p : Phase K) :
    updatePhase first (answer r ans) (catalog r cat) (r id) (phase r p) = phase r (updatePhase first ans cat id p) := by
  unfold updatePhase
  rw [cat_stations, show (phase r p).stationId = p.stationId from rfl, show (phase r p).type = p.type from rfl]
  cases cat.stations.find? p.stationId with
  | none => rfl
  | some st => simp only [answer_used hr]; rfl

theorem updateFound_ren (first : Bool) (ans : Answer K) (cat : Catalog K) (k : Nat) (ev : Event K) :
    updateFound env first (answer r ans) (catalog r cat) (r k) (event r ev) = (updateFound env first ans cat k ev).map (catalog r) := by
  unfold updateFound
  rw [e_id, cat_phasesOf hr, answer_changes hr]
  cases ans.changes ev.id with
  | none =>
    simp only [Outcome.map, Outcome.ok.injEq]
    rw [cat_events, set_mapBoth hr.injective]
    rfl
  | some ch =>
    simp only [cat_stations]
    rw [mapM_ren]
    cases (cat.phasesOf ev.id).mapM (fun p => Outcome.ofOption (cat.stations.find? p.stationId)) with
    | throws => rfl
    | ub => rfl
    | ok _ =>
      simp only [Outcome.bind_ok, Outcome.map, Outcome.ok.injEq]
      have hp : (catalog r cat).phases.map (fun kp =>
          if kp.1 = r ev.id then (kp.1, updatePhase first (answer r ans) (catalog r cat) (r ev.id) kp.2) else kp) =
          (cat.phases.map (fun kp =>
            if kp.1 = ev.id then (kp.1, updatePhase first ans cat ev.id kp.2) else kp)).map (fun kp => (r kp.1, phase r kp.2)) := by
        rw [cat_phases, List.map_map, List.map_map]
        refine List.map_congr_left (fun kp _ => ?_)
        simp only [Function.comp_apply, hr.injective.eq_iff, updatePhase_ren hr]
        split <;> rfl
      rw [hp, cat_events, show moveEvent env (event r ev) ch = event r (moveEvent env ev ch) from rfl, set_mapBoth hr.injective]
      rfl

theorem updateStep_ren (first : Bool) (ans : Answer K) (cat : Catalog K) (kv : Nat × Neighbours) :
    updateStep env first (answer r ans) (catalog r cat) (r kv.1, neighbours r kv.2) =
      (updateStep env first ans cat kv).map (catalog r) := by
  have hu : ∀ (a : Answer K) (c : Catalog K) (kv : Nat × Neighbours), updateStep env first a c kv =
      Outcome.ofOption (c.events.find? kv.2.refId) >>= fun e => updateFound env first a c kv.2.refId (flagged first e) :=
    fun _ _ _ => rfl
  rw [hu, hu, nb_ref, cat_find hr]
  cases cat.events.find? kv.2.refId with
  | none => rfl
  | some ev =>
    simp only [Option.map_some, ofOption_some, Outcome.bind_ok]
    exact updateFound_ren hr first ans cat kv.2.refId (flagged first ev)

theorem update_ren (first : Bool) (ans : Answer K) (cl : Cluster) (cat : Catalog K) :
    updateRelocatedEvents env first (answer r ans) (cluster r cl) (catalog r cat) =
      (updateRelocatedEvents env first ans cl cat).map (catalog r) := by
  unfold updateRelocatedEvents cluster
  exact foldlM_map_comm₂ (catalog r) _ _ _ (fun b a => updateStep_ren hr first ans b a) cl cat

omit hr in
/-- the variables of the loop, with other numbers -/
noncomputable def loopState (r : Nat → Nat) (s : LoopState K) : LoopState K := ⟨catalog r s.cur, catalog r s.prev, s.log.map (log r)⟩

end

section
variable (hr : StrictMono r) {a : Args K} (hE : TravelTimesIgnore r a.env) (hS : SolverIgnores r a.sol)
include hr hE hS

theorem iteration_ren (it : Nat) (s : LoopState K) :
    iteration { a with xc := cache r a.xc, cluster := cluster r a.cluster } it (loopState r s) =
      (iteration a it s).map (fun x => (loopState r x.1, x.2)) := by
  unfold iteration
  have h1 : (loopState r s).cur = catalog r s.cur := rfl
  have h2 : (loopState r s).prev = catalog r s.prev := rfl
  have h3 : (loopState r s).log = s.log.map (log r) := rfl
  rw [h1, h2, h3]
  simp only []
  rw [observe_ren hr hE]
  cases observe a.env a.o a.xc a.cluster s.prev s.cur with
  | throws => rfl
  | ub => rfl
  | ok ob =>
    have h4 : (observeState r ob).cur = catalog r ob.cur := rfl
    have h5 : (observeState r ob).ops = ob.ops.map (op r) := rfl
    have h6 : (observeState r ob).reverted = ob.reverted.map r := rfl
    simp only [Outcome.map, Outcome.bind_ok]
    rw [h4, h5, h6, residuals_ren hr]
    cases computeEventResiduals a.env a.o.usePickUncertainties (decide (it = 0)) ob.ops a.cluster ob.cur with
    | throws => rfl
    | ub => rfl
    | ok cur =>
      simp only [Outcome.map, Outcome.bind_ok]
      rw [hS.prepare]
      cases a.sol.prepare it ob.ops _ _ with
      | throws => rfl
      | ub => rfl
      | ok _ =>
        simp only [Outcome.bind_ok]
        split
        · simp [loopState, log]
        · rw [hS.solve]
          cases a.sol.solve it ob.ops _ with
          | none => simp [loopState, log]
          | some ans =>
            simp only [Option.map_some]
            rw [update_ren hr]
            cases updateRelocatedEvents a.env (decide (it = 0)) ans a.cluster cur with
            | throws => rfl
            | ub => rfl
            | ok new => simp [loopState, log, Outcome.map]

theorem loop_ren : ∀ (n it : Nat) (s : LoopState K),
    loop { a with xc := cache r a.xc, cluster := cluster r a.cluster } n it (loopState r s) = (loop a n it s).map (loopState r)
  | 0, _, _ => rfl
  | n + 1, it, s => by
    rw [loop, loop, iteration_ren hr hE hS]
    cases iteration a it s with
    | throws => rfl
    | ub => rfl
    | ok x =>
      obtain ⟨s', g⟩ := x
      simp only [Outcome.map, Outcome.bind_ok]
      cases g with
      | true => exact loop_ren n (it + 1) s'
      | false => rfl

omit hE hS in
theorem returnedLoop_ren (cur : Catalog K) : ∀ (l : List (Nat × Event K)) (c : Catalog K),
    returnedLoop (catalog r cur) (catalog r c) (l.map (fun kv => (r kv.1, event r kv.2))) = (returnedLoop cur c l).map (catalog r)
  | [], c => rfl
  | kv :: l, c => by
    rw [List.map_cons, returnedLoop, returnedLoop]
    by_cases hrel : kv.2.isRelocated = true
    · rw [if_pos hrel, if_pos (show (event r kv.2).isRelocated = true from hrel), e_id, cat_addFrom hr]
      generalize c.addFrom kv.2.id cur true = x
      obtain ⟨c', out⟩ := x
      cases out with
      | ok _ => exact returnedLoop_ren cur l c'
      | throws => rfl
      | ub => rfl
    · rw [if_neg hrel, if_neg (show ¬ (event r kv.2).isRelocated = true from hrel)]
      exact returnedLoop_ren cur l c

theorem relocate_ren (cat : Catalog K) :
    relocate { a with xc := cache r a.xc, cluster := cluster r a.cluster } (catalog r cat) = (relocate a cat).map (result r) := by
  unfold relocate
  have := loop_ren hr hE hS (a.so.algoIterations + 1) 0 ⟨cat, Catalog.init, []⟩
  rw [show loopState r (⟨cat, Catalog.init, []⟩ : LoopState K) = ⟨catalog r cat, Catalog.init, []⟩ from rfl] at this
  simp only []
  rw [this]
  cases loop a (a.so.algoIterations + 1) 0 ⟨cat, Catalog.init, []⟩ with
  | throws => rfl
  | ub => rfl
  | ok s =>
    simp only [Outcome.map, Outcome.bind_ok]
    rw [show (loopState r s).cur = catalog r s.cur from rfl, cat_sorted hr]
    have h2 := returnedLoop_ren hr s.cur s.cur.eventsSorted Catalog.init
    rw [cat_init] at h2
    rw [h2]
    cases returnedLoop s.cur Catalog.init s.cur.eventsSorted <;> rfl
end

/-! ## multi-event relocation -/

/-- the variables of the construction of the cache, with other numbers -/
def build (r : Nat → Nat) (s : BuildState K) : BuildState K := ⟨cache r s.cache, s.calls.map (call r)⟩

section
variable (hr : StrictMono r) {x : XcorrArgs K} (hx : XcorrIgnores r x)
include hr hx

theorem request_ren (pre : XCorr.Cache) (e : Event K) (rp : Phase K) (ev : Event K) (p : Phase K) (s : BuildState K) :
    request x (cache r pre) (event r e) (phase r rp) (event r ev) (phase r p) (build r s) =
      (request x pre e rp ev p s).map (build r) := by
  unfold request XCorr.has
  have h1 : (build r s).cache = cache r s.cache := rfl
  have h4 : (build r s).calls.length = s.calls.length := by simp [build]
  have h5 : (build r s).calls = s.calls.map (call r) := rfl
  rw [h1, h4, h5, e_id, e_id, hx.correlate, show (phase r rp).stationId = rp.stationId from rfl,
    show (phase r rp).type = rp.type from rfl, cache_get hr, cache_get hr]
  split
  · rfl
  · cases XCorr.get pre e.id ev.id rp.stationId rp.type with
    | some c => simp only [cache_add hr]; rfl
    | none =>
      cases x.correlate s.calls.length e rp ev p with
      | ok c =>
        simp only [Outcome.bind_ok, Outcome.map, cache_add hr, build, List.map_append, List.map_cons, List.map_nil]
        rfl
      | throws => rfl
      | ub => rfl

theorem pairStep_ren (cat : Catalog K) (pre : XCorr.Cache) (nb : Neighbours) (e : Event K) (rp : Phase K) (s : BuildState K) (n : Nat) :
    pairStep x (catalog r cat) (cache r pre) (neighbours r nb) (event r e) (phase r rp) (build r s) (r n) =
      (pairStep x cat pre nb e rp s n).map (build r) := by
  unfold pairStep
  rw [cat_find hr]
  cases cat.events.find? n with
  | none => rfl
  | some ev =>
    simp only [Option.map_some]
    rw [hx.evEv, e_id, cat_searchPhase hr, nb_hasPhase hr, show (phase r rp).stationId = rp.stationId from rfl,
      show (phase r rp).type = rp.type from rfl]
    split
    · rfl
    split
    · cases searchPhase cat ev.id (rp.stationId, rp.type) with
      | none => rfl
      | some p =>
        simp only [Option.map_some, show (phase r p).source = p.source from rfl]
        split
        · rfl
        · exact request_ren hr hx pre e rp ev p s
    · rfl

theorem refPhaseStep_ren (cat : Catalog K) (pre : XCorr.Cache) (nb : Neighbours) (e : Event K) (s : BuildState K) (rp : Phase K) :
    refPhaseStep x (catalog r cat) (cache r pre) (neighbours r nb) (event r e) (build r s) (phase r rp) =
      (refPhaseStep x cat pre nb e s rp).map (build r) := by
  unfold refPhaseStep
  rw [cat_stations, show (phase r rp).stationId = rp.stationId from rfl]
  cases cat.stations.find? rp.stationId with
  | none => rfl
  | some st =>
    simp only [hx.evSta, nb_ids]
    split
    · rfl
    split
    · rfl
    · exact foldlM_map_comm₂ (build r) r _ _ (fun b a => pairStep_ren hr hx cat pre nb e rp b a) nb.ids s

theorem clusterStep_ren (cat : Catalog K) (pre : XCorr.Cache) (s : BuildState K) (kv : Nat × Neighbours) :
    clusterStep x (catalog r cat) (cache r pre) (build r s) (r kv.1, neighbours r kv.2) =
      (clusterStep x cat pre s kv).map (build r) := by
  unfold clusterStep
  simp only [nb_ref]
  rw [cat_find hr]
  cases cat.events.find? kv.2.refId with
  | none => rfl
  | some e =>
    simp only [Option.map_some, e_id, cat_phasesOf hr]
    exact foldlM_map_comm₂ (build r) (phase r) _ _ (fun b a => refPhaseStep_ren hr hx cat pre kv.2 e b a) _ s

theorem build_ren (cat : Catalog K) (cl : Cluster) (pre : XCorr.Cache) (calls : List (XcorrCall K)) :
    buildXCorrCache x (catalog r cat) (cluster r cl) (cache r pre) (calls.map (call r)) =
      (buildXCorrCache x cat cl pre calls).map (build r) := by
  unfold buildXCorrCache cluster
  split
  · exact foldlM_map_comm₂ (build r) _ _ _ (fun b a => clusterStep_ren hr hx cat pre b a) cl ⟨[], calls⟩
  · rfl
end

section
variable (hr : StrictMono r)
include hr

theorem addAllLoop_ren (o : Catalog K) : ∀ (l : List (Nat × Event K)) (c : Catalog K),
    Catalog.addAllLoop (catalog r o) true (catalog r c) (l.map (fun kv => (r kv.1, event r kv.2))) =
      (catalog r (Catalog.addAllLoop o true c l).1, (Catalog.addAllLoop o true c l).2)
  | [], c => rfl
  | kv :: l, c => by
    rw [List.map_cons, Catalog.addAllLoop, Catalog.addAllLoop]
    have h0 : ((catalog r c).events.find? (event r kv.2).id).isSome = (c.events.find? kv.2.id).isSome := by
      rw [e_id, cat_find hr, Option.isSome_map]
    by_cases hk : (c.events.find? kv.2.id).isSome = true
    · rw [if_pos ⟨rfl, h0.trans hk⟩, if_pos ⟨rfl, hk⟩]
      exact addAllLoop_ren o l c
    · rw [if_neg (fun h => hk (h0 ▸ h.2)), if_neg (fun h => hk h.2), e_id, cat_addFrom hr]
      generalize c.addFrom kv.2.id o true = x
      obtain ⟨c', out⟩ := x
      cases out with
      | ok _ => exact addAllLoop_ren o l c'
      | throws => rfl
      | ub => rfl

theorem addAll_ren (c o : Catalog K) :
    (catalog r c).addAll (catalog r o) true = (catalog r (c.addAll o true).1, (c.addAll o true).2) := by
  unfold Catalog.addAll
  rw [cat_sorted hr]
  exact addAllLoop_ren hr o _ c

variable {m : MultiArgs K} (hE : TravelTimesIgnore r m.env) (hx : XcorrIgnores r m.x) (hS : ∀ i, SolverIgnores r (m.sol i))
include hE hx hS

theorem multiStep_ren (bg : Catalog K) (s : MultiState K) (cl : Cluster) :
    multiStep m (catalog r bg) (multi r s) (cluster r cl) = (multiStep m bg s cl).map (multi r) := by
  unfold multiStep
  have h1 : (multi r s).xcorrData = cache r s.xcorrData := rfl
  have h2 : (multi r s).calls = s.calls.map (call r) := rfl
  have h3 : (multi r s).done.length = s.done.length := by simp [multi]
  have h4 : (multi r s).reloc = catalog r s.reloc := rfl
  rw [h1, h2, h3, h4]
  simp only []
  rw [build_ren hr hx]
  cases buildXCorrCache m.x bg cl s.xcorrData s.calls with
  | throws => rfl
  | ub => rfl
  | ok b =>
    simp only [Outcome.map, Outcome.bind_ok]
    have hrel := relocate_ren (a := m.toArgs s.done.length cl b.cache) hr hE (hS s.done.length) bg
    rw [show (build r b).cache = cache r b.cache from rfl,
      show m.toArgs s.done.length (cluster r cl) (cache r b.cache) =
        { m.toArgs s.done.length cl b.cache with
          xc := cache r (m.toArgs s.done.length cl b.cache).xc
          cluster := cluster r (m.toArgs s.done.length cl b.cache).cluster } from rfl, hrel]
    cases relocate (m.toArgs s.done.length cl b.cache) bg with
    | throws => rfl
    | ub => rfl
    | ok y =>
      obtain ⟨y, lg⟩ := y
      simp only [Outcome.map, Outcome.bind_ok, result]
      rw [addAll_ren hr]
      generalize s.reloc.addAll y true = z
      obtain ⟨c', out⟩ := z
      cases out with
      | ok _ => simp [multi, result, build, cache_merge hr]
      | throws => rfl
      | ub => rfl

theorem multi_ren (bg : Catalog K) (clusters : List Cluster) (xc : XCorr.Cache) :
    relocateMultiEvents m (catalog r bg) (clusters.map (cluster r)) (cache r xc) =
      (relocateMultiEvents m bg clusters xc).map (multi r) := by
  unfold relocateMultiEvents
  exact foldlM_map_comm₂ (multi r) (cluster r) _ _ (fun b a => multiStep_ren hr hE hx hS bg b a) clusters
    ⟨Catalog.init, xc, [], []⟩
end

end Verif.Renumber
