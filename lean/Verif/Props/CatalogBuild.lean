import Verif.Props.Catalog
import Verif.Props.CatalogEdit

/-!
# C78: what a newly built catalog contains
-/

set_option linter.unusedSectionVars false
set_option linter.unusedSimpArgs false

namespace Verif.Catalog.Catalog
variable {D : Type}

/-- the id made of the codes -/
def codes (net sta loc : String) : String := net ++ "." ++ sta ++ "." ++ loc

theorem addStations_find (ss : List (Station D)) (c : Catalog D) :
    (ss.foldl addStation c).events = c.events ∧ (ss.foldl addStation c).phases = c.phases ∧
    ∀ k, (ss.foldl addStation c).stations.find? k = (c.stations.find? k).or
      ((ss.find? (fun s => codes s.networkCode s.stationCode s.locationCode = k)).map
        (fun s => { s with id := k })) := by
  induction ss generalizing c with
  | nil => simp
  | cons s ss ih =>
    obtain ⟨i1, i2, i3⟩ := ih (c.addStation s)
    obtain ⟨a1, a2, a3⟩ := add_station c s
    refine ⟨by rw [List.foldl_cons, i1, a1], by rw [List.foldl_cons, i2, a2], fun k => ?_⟩
    rw [List.foldl_cons, i3, a3, List.find?_cons, Option.or_assoc]
    congr 1
    by_cases hk : codes s.networkCode s.stationCode s.locationCode = k
    · rw [if_pos (by rw [← hk]; rfl)]; simp [hk]
    · rw [if_neg (fun h => hk (by rw [h]; rfl))]; simp [hk]

theorem addPhases_find (ps : List (Phase D)) (c : Catalog D) :
    (ps.foldl addPhase c).events = c.events ∧ (ps.foldl addPhase c).stations = c.stations ∧
    ∀ k, (ps.foldl addPhase c).phasesOf k = c.phasesOf k ++ ps.filter (fun p => p.eventId = k) := by
  induction ps generalizing c with
  | nil => simp
  | cons p ps ih =>
    obtain ⟨i1, i2, i3⟩ := ih (c.addPhase p)
    obtain ⟨a1, a2, a3⟩ := add_phase c p
    refine ⟨by rw [List.foldl_cons, i1, a2], by rw [List.foldl_cons, i2, a1], fun k => ?_⟩
    rw [List.foldl_cons, i3, a3, List.append_assoc, List.filter_cons]
    congr 1
    by_cases hk : p.eventId = k
    · simp [hk]
    · simp [hk, Ne.symm hk]

theorem addEvents_spec (es : List (Event D)) (c : Catalog D) :
    ((es.map (·.id)).Nodup ∧ (∀ e ∈ es, c.events.find? e.id = none) →
      ∃ c', c.addEvents es = (c', .ok ()) ∧ c'.stations = c.stations ∧ c'.phases = c.phases ∧
        ∀ k, c'.events.find? k = (c.events.find? k).or (es.find? (fun e => e.id = k))) ∧
    (¬ ((es.map (·.id)).Nodup ∧ ∀ e ∈ es, c.events.find? e.id = none) →
      (c.addEvents es).2 = .throws) := by
  induction es generalizing c with
  | nil => simp [addEvents]
  | cons e es ih =>
    unfold addEvents addEvent
    simp only [if_true]
    cases hf : c.events.find? e.id with
    | some x => simp [hf]
    | none =>
      simp only
      obtain ⟨i1, i2⟩ := ih { c with events := c.events.set e.id e }
      simp only [AMap.find?_set] at i1 i2
      have hiff : ((es.map (·.id)).Nodup ∧ ∀ x ∈ es, (if x.id = e.id then some e else c.events.find? x.id) = none) ↔
          (((e :: es).map (·.id)).Nodup ∧ ∀ x ∈ e :: es, c.events.find? x.id = none) := by
        simp only [List.map_cons, List.nodup_cons, List.mem_map, not_exists, not_and, List.mem_cons,
          forall_eq_or_imp, hf, true_and]
        constructor
        · rintro ⟨h1, h2⟩
          refine ⟨⟨fun x hx he => ?_, h1⟩, fun x hx => ?_⟩
          · have := h2 x hx; rw [if_pos he] at this; cases this
          · have := h2 x hx
            split at this
            · cases this
            · exact this
        · rintro ⟨⟨h1, h2⟩, h3⟩
          exact ⟨h2, fun x hx => by rw [if_neg (h1 x hx)]; exact h3 x hx⟩
      refine ⟨fun h => ?_, fun h => i2 (fun h' => h (hiff.1 h'))⟩
      obtain ⟨c', h1, h2, h3, h4⟩ := i1 (hiff.2 h)
      refine ⟨c', h1, h2, h3, fun k => ?_⟩
      rw [h4, List.find?_cons]
      by_cases hk : e.id = k
      · subst hk; simp [hf]
      · simp [hk, Ne.symm hk]

/-- **C78h** A catalog built from lists of stations, events and phases contains every given event and phase, phases in the
given order, and for every combination of codes the first given station.  It is refused exactly when two events have the
same id. -/
theorem catalog_of_lists (ss : List (Station D)) (es : List (Event D)) (ps : List (Phase D)) :
    (¬ (es.map (·.id)).Nodup → ofLists ss es ps = .throws) ∧
    ((es.map (·.id)).Nodup → ∃ c, ofLists ss es ps = .ok c ∧
      (∀ k, c.events.find? k = es.find? (fun e => e.id = k)) ∧
      (∀ k, c.phasesOf k = ps.filter (fun p => p.eventId = k)) ∧
      ∀ k, c.stations.find? k = (ss.find? (fun s => codes s.networkCode s.stationCode s.locationCode = k)).map
        (fun s => { s with id := k })) := by
  obtain ⟨s1, s2, s3⟩ := addStations_find ss (init : Catalog D)
  obtain ⟨e1, e2⟩ := addEvents_spec es (ss.foldl addStation (init : Catalog D))
  have hnone : ∀ e ∈ es, (ss.foldl addStation (init : Catalog D)).events.find? e.id = none := by
    intro e _; rw [s1]; rfl
  unfold ofLists
  refine ⟨fun h => ?_, fun h => ?_⟩
  · have := e2 (fun h' => h h'.1)
    generalize addEvents _ es = r at this
    obtain ⟨c', o⟩ := r
    simp only at this
    subst this
    rfl
  · obtain ⟨c', h1, h2, h3, h4⟩ := e1 ⟨h, hnone⟩
    obtain ⟨p1, p2, p3⟩ := addPhases_find ps c'
    rw [h1]
    refine ⟨_, rfl, fun k => ?_, fun k => ?_, fun k => ?_⟩
    · rw [p1, h4, s1]; rfl
    · rw [p3]; unfold phasesOf; rw [h3, s2]; rfl
    · rw [p2, h2, s3]; rfl

theorem rows_find {K V R : Type} [DecidableEq K] (key : R → K) (val : R → V) (rows : List R) (m : AMap K V) (k : K) :
    (rows.foldl (fun m r => m.set (key r) (val r)) m).find? k =
      ((rows.reverse.find? (fun r => key r = k)).map val).or (m.find? k) := by
  induction rows generalizing m with
  | nil => simp
  | cons r rows ih =>
    rw [List.foldl_cons, ih, AMap.find?_set, List.reverse_cons, List.find?_append]
    cases hf : rows.reverse.find? (fun r => key r = k) with
    | some x => simp
    | none =>
      by_cases hk : key r = k
      · simp [hk]
      · simp [hk, Ne.symm hk]

/-- **C78i** A catalog built from the rows of the three files contains, for every event id and every combination of station
codes, the last row with it, and all phases in the order of the rows, each referring to the station with its codes.  It is
refused exactly when a phase has codes of which there is no station; a phase without event is accepted. -/
theorem catalog_of_rows (ss : List (Station D)) (es : List (Event D)) (ps : List (Phase D)) :
    ((∃ p ∈ ps, ∀ s ∈ ss, codes s.networkCode s.stationCode s.locationCode ≠
        codes p.networkCode p.stationCode p.locationCode) → ofRows ss es ps = .throws) ∧
    ((∀ p ∈ ps, ∃ s ∈ ss, codes s.networkCode s.stationCode s.locationCode =
        codes p.networkCode p.stationCode p.locationCode) → ∃ c, ofRows ss es ps = .ok c ∧
      (∀ k, c.events.find? k = es.reverse.find? (fun e => e.id = k)) ∧
      (∀ k, c.phasesOf k = (ps.filter (fun p => p.eventId = k)).map
        (fun p => { p with stationId := codes p.networkCode p.stationCode p.locationCode })) ∧
      ∀ k, c.stations.find? k = (ss.reverse.find? (fun s => codes s.networkCode s.stationCode s.locationCode = k)).map
        (fun s => { s with id := k })) := by
  have hst : ∀ k, (ss.foldl (fun (m : AMap String (Station D)) s =>
      m.set (stationIdOf s.networkCode s.stationCode s.locationCode)
        { s with id := stationIdOf s.networkCode s.stationCode s.locationCode }) []).find? k =
      (ss.reverse.find? (fun s => codes s.networkCode s.stationCode s.locationCode = k)).map
        (fun s => { s with id := k }) := by
    intro k
    rw [rows_find (fun s : Station D => stationIdOf s.networkCode s.stationCode s.locationCode)
      (fun s : Station D => ({ s with id := stationIdOf s.networkCode s.stationCode s.locationCode } : Station D))]
    rw [AMap.find?_nil, Option.or_none]
    change Option.map _ (ss.reverse.find? (fun s => codes s.networkCode s.stationCode s.locationCode = k)) = _
    cases hf : ss.reverse.find? (fun s => codes s.networkCode s.stationCode s.locationCode = k) with
    | none => rfl
    | some s =>
      have := List.find?_some hf
      simp only [decide_eq_true_eq] at this
      simp only [Option.map_some, ← this]
      rfl
  have hknown : ∀ k, ((ss.reverse.find? (fun s => codes s.networkCode s.stationCode s.locationCode = k)).map
      (fun s : Station D => { s with id := k })).isSome = true ↔
      ∃ s ∈ ss, codes s.networkCode s.stationCode s.locationCode = k := by
    intro k; simp
  have hall : ((ps.map fun p => { p with stationId := stationIdOf p.networkCode p.stationCode p.locationCode }).all
      (fun p => ((ss.foldl (fun (m : AMap String (Station D)) s =>
        m.set (stationIdOf s.networkCode s.stationCode s.locationCode)
        { s with id := stationIdOf s.networkCode s.stationCode s.locationCode }) []).find? p.stationId).isSome)) = true ↔
      ∀ p ∈ ps, ∃ s ∈ ss, codes s.networkCode s.stationCode s.locationCode =
        codes p.networkCode p.stationCode p.locationCode := by
    simp only [List.all_eq_true, List.mem_map, forall_exists_index, and_imp, forall_apply_eq_imp_iff₂, hst, hknown]
    rfl
  unfold ofRows
  simp only
  refine ⟨?_, fun h => ?_⟩
  · rintro ⟨p, hp, hn⟩
    rw [if_neg]
    rw [hall]
    intro h
    obtain ⟨s, hs, e⟩ := h p hp
    exact hn s hs e
  · rw [if_pos (hall.2 h)]
    refine ⟨_, rfl, fun k => ?_, fun k => ?_, hst⟩
    · simp only
      rw [rows_find (fun e : Event D => e.id) (fun e => e)]
      simp
    · unfold phasesOf
      simp only [List.map_map, List.filter_map, Function.comp_def]
      rfl

/-- lists with two events and lists with the same event twice; rows where the event is given twice (the second
time with another time), and a phase with unknown station -/
example : ([exEv 1 5, exEv 2 6].map (·.id)).Nodup ∧ ¬ ([exEv 1 5, exEv 1 6].map (·.id)).Nodup ∧
    (ofRows [exSta] [exEv 1 5, exEv 1 6] [exPh 1 "P"] >>= fun c => .ok (c.events.find? 1)) = .ok (some (exEv 1 6)) ∧
    (ofRows [exSta] [exEv 1 5] [{ exPh 1 "P" with stationCode := "B" }] >>= fun c => .ok c.phases) = .throws := by
  decide +kernel

end Verif.Catalog.Catalog
