import Verif.Spec.Catalog
import Verif.Proofs.Catalog
import Verif.Model.Relocate

/-!
# C78: edits and searches of a catalog
-/

namespace Verif.Catalog.Catalog
variable {D : Type}

/-- the phase is of this station and type -/
def Names (station type : String) (p : Phase D) : Prop := p.stationId = station ∧ p.type = type

/-- **C78a** Adding a phase puts it at the end of those of its event and changes nothing else. -/
theorem add_phase (c : Catalog D) (p : Phase D) :
    (c.addPhase p).stations = c.stations ∧ (c.addPhase p).events = c.events ∧
    ∀ k, (c.addPhase p).phasesOf k = c.phasesOf k ++ if k = p.eventId then [p] else [] := by
  refine ⟨rfl, rfl, fun k => ?_⟩
  unfold addPhase phasesOf
  rw [List.filter_append, List.map_append]
  congr 1
  by_cases h : p.eventId = k
  · subst h; simp
  · simp [h, Ne.symm h]

theorem eraseP_phases (station type : String) (id : Nat) : ∀ l : List (Nat × Phase D),
    (∀ k ≠ id, (l.eraseP (fun kp => decide (kp.1 = id ∧ kp.2.stationId = station ∧ kp.2.type = type))).filter (fun kp => kp.1 = k) =
      l.filter (fun kp => kp.1 = k)) ∧
    (((∀ p ∈ (l.filter (fun kp => kp.1 = id)).map (·.2), ¬ Names station type p) ∧
      l.eraseP (fun kp => decide (kp.1 = id ∧ kp.2.stationId = station ∧ kp.2.type = type)) = l) ∨
     ∃ a p b, (l.filter (fun kp => kp.1 = id)).map (·.2) = a ++ p :: b ∧ Names station type p ∧
      ((l.eraseP (fun kp => decide (kp.1 = id ∧ kp.2.stationId = station ∧ kp.2.type = type))).filter (fun kp => kp.1 = id)).map (·.2) =
        a ++ b)
  | [] => ⟨fun _ _ => rfl, .inl ⟨by simp, rfl⟩⟩
  | x :: l => by
    obtain ⟨ih1, ih2⟩ := eraseP_phases station type id l
    by_cases hx : x.1 = id ∧ x.2.stationId = station ∧ x.2.type = type
    · have e : (x :: l).eraseP (fun kp => decide (kp.1 = id ∧ kp.2.stationId = station ∧ kp.2.type = type)) = l := by
        rw [List.eraseP_cons_of_pos (by simpa using hx)]
      rw [e]
      refine ⟨?_, .inr ⟨[], x.2, (l.filter (fun kp => kp.1 = id)).map (·.2), ?_, hx.2, rfl⟩⟩
      · intro k hk
        rw [List.filter_cons_of_neg]
        simp only [decide_eq_true_eq]
        rw [hx.1]
        exact Ne.symm hk
      · rw [List.filter_cons_of_pos (by simpa using hx.1)]; rfl
    · have e : (x :: l).eraseP (fun kp => decide (kp.1 = id ∧ kp.2.stationId = station ∧ kp.2.type = type)) =
          x :: l.eraseP (fun kp => decide (kp.1 = id ∧ kp.2.stationId = station ∧ kp.2.type = type)) := by
        rw [List.eraseP_cons_of_neg (by simpa using hx)]
      rw [e]
      refine ⟨?_, ?_⟩
      · intro k hk
        rw [List.filter_cons, List.filter_cons, ih1 k hk]
      · by_cases hid : x.1 = id
        · rcases ih2 with ⟨h1, h2⟩ | ⟨a, p, b, h1, h2, h3⟩
          · refine .inl ⟨?_, by rw [h2]⟩
            intro p hp
            rw [List.filter_cons_of_pos (by simpa using hid), List.map_cons, List.mem_cons] at hp
            rcases hp with rfl | hp
            · exact fun hn => hx ⟨hid, hn⟩
            · exact h1 p hp
          · refine .inr ⟨x.2 :: a, p, b, ?_, h2, ?_⟩
            · rw [List.filter_cons_of_pos (by simpa using hid), List.map_cons, h1]; rfl
            · rw [List.filter_cons_of_pos (by simpa using hid), List.map_cons, h3]; rfl
        · rcases ih2 with ⟨h1, h2⟩ | ⟨a, p, b, h1, h2, h3⟩
          · exact .inl ⟨by rw [List.filter_cons_of_neg (by simpa using hid)]; exact h1, by rw [h2]⟩
          · exact .inr ⟨a, p, b, by rw [List.filter_cons_of_neg (by simpa using hid)]; exact h1, h2,
              by rw [List.filter_cons_of_neg (by simpa using hid)]; exact h3⟩

/-- **C78b** Removing a phase of an event, by station and type, removes one such phase, or nothing when there is none; the
other phases stay, in their order, as do those of other events, the events and the stations. -/
theorem remove_phase (c : Catalog D) (id : Nat) (station type : String) :
    (c.removePhase id station type).stations = c.stations ∧ (c.removePhase id station type).events = c.events ∧
    (∀ k, k ≠ id → (c.removePhase id station type).phasesOf k = c.phasesOf k) ∧
    (((∀ p ∈ c.phasesOf id, ¬ Names station type p) ∧ c.removePhase id station type = c) ∨
     ∃ a p b, c.phasesOf id = a ++ p :: b ∧ Names station type p ∧ (c.removePhase id station type).phasesOf id = a ++ b) := by
  obtain ⟨h1, h2⟩ := eraseP_phases station type id c.phases
  refine ⟨rfl, rfl, ?_, ?_⟩
  · intro k hk
    unfold phasesOf removePhase
    rw [h1 k hk]
  · rcases h2 with ⟨h2, h3⟩ | h2
    · exact .inl ⟨h2, by unfold removePhase; rw [h3]⟩
    · exact .inr h2

/-- **C78c** Adding a station never changes one that is there, and otherwise stores it under the id made of its codes. -/
theorem add_station (c : Catalog D) (s : Station D) :
    (c.addStation s).events = c.events ∧ (c.addStation s).phases = c.phases ∧
    ∀ k, (c.addStation s).stations.find? k =
      (c.stations.find? k).or (if k = s.networkCode ++ "." ++ s.stationCode ++ "." ++ s.locationCode then some { s with id := k } else none) := by
  refine ⟨by simp, by simp, fun k => ?_⟩
  rw [addStation_find]
  rfl

/-- **C78d** Updating a station replaces the one with that id and reports it; when there is none it is added only if asked
for.  Nothing else changes. -/
theorem update_station (c : Catalog D) (s : Station D) (add : Bool) :
    ((c.updateStation s add).2 = true ↔ (c.stations.find? s.id).isSome) ∧
    (c.updateStation s add).1.events = c.events ∧ (c.updateStation s add).1.phases = c.phases ∧
    ((c.stations.find? s.id).isSome → ∀ k, (c.updateStation s add).1.stations.find? k = if k = s.id then some s else c.stations.find? k) ∧
    (c.stations.find? s.id = none → (c.updateStation s add).1 = if add then c.addStation s else c) := by
  unfold updateStation
  cases h : c.stations.find? s.id with
  | some s' => exact ⟨by simp, rfl, rfl, fun _ k => AMap.find?_set _ _ _ _, fun h => (by cases h)⟩
  | none =>
    refine ⟨by simp, ?_, ?_, by simp, by simp⟩
    · cases add <;> simp
    · cases add <;> simp

/-- **C78e** Updating an event replaces the one with that id and reports it, and changes no other event, no phase and no
station; when there is none it is added only if asked for. -/
theorem update_event (c : Catalog D) (e : Event D) (add keep : Bool) :
    (c.updateEvent e add keep).1.stations = c.stations ∧ (c.updateEvent e add keep).1.phases = c.phases ∧
    ((c.events.find? e.id).isSome → (c.updateEvent e add keep).2 = .ok true ∧
      ∀ k, (c.updateEvent e add keep).1.events.find? k = if k = e.id then some e else c.events.find? k) ∧
    (c.events.find? e.id = none → add = false → c.updateEvent e add keep = (c, .ok false)) ∧
    (c.events.find? e.id = none → add = true → (c.updateEvent e add keep).1 = (c.addEvent e keep).1 ∧
      ∀ id, (c.addEvent e keep).2 = .ok id → (c.updateEvent e add keep).2 = .ok false) := by
  have hadd : (c.addEvent e keep).1.stations = c.stations ∧ (c.addEvent e keep).1.phases = c.phases := by
    unfold addEvent
    cases keep with
    | false => exact ⟨rfl, rfl⟩
    | true =>
      simp only [if_true]
      split <;> exact ⟨rfl, rfl⟩
  unfold updateEvent
  cases h : c.events.find? e.id with
  | some e' => exact ⟨rfl, rfl, fun _ => ⟨rfl, fun k => AMap.find?_set _ _ _ _⟩, fun h => (by cases h), fun h => (by cases h)⟩
  | none =>
    cases add with
    | false => exact ⟨rfl, rfl, fun h => (by cases h), fun _ _ => rfl, fun _ h => (by cases h)⟩
    | true =>
      simp only [if_true]
      rcases hr : c.addEvent e keep with ⟨c', r⟩
      rw [hr] at hadd
      cases r with
      | ok id => exact ⟨hadd.1, hadd.2, fun h => (by cases h), fun _ h => (by cases h), fun _ _ => ⟨rfl, fun _ _ => rfl⟩⟩
      | throws => exact ⟨hadd.1, hadd.2, fun h => (by cases h), fun _ h => (by cases h), fun _ _ => ⟨rfl, fun _ h => (by cases h)⟩⟩
      | ub => exact ⟨hadd.1, hadd.2, fun h => (by cases h), fun _ h => (by cases h), fun _ _ => ⟨rfl, fun _ h => (by cases h)⟩⟩

/-- **C78f** Searching a phase finds one of the event with that station and type, whenever there is any. -/
theorem search_phase {K : Type} [Field K] [LinearOrder K] (c : Catalog K) (id : Nat) (station type : String) :
    (∀ p, Relocate.searchPhase c id (station, type) = some p → p ∈ c.phasesOf id ∧ Names station type p) ∧
    (Relocate.searchPhase c id (station, type) = none → ∀ p ∈ c.phasesOf id, ¬ Names station type p) := by
  unfold Relocate.searchPhase
  constructor
  · intro p h
    have := List.find?_some h
    simp only [decide_eq_true_eq] at this
    exact ⟨List.mem_of_find?_eq_some h, this⟩
  · intro h p hp hn
    rw [List.find?_eq_none] at h
    have := h p hp
    simp only [decide_eq_true_eq] at this
    exact this hn

/-- no dot in the text -/
def NoDot (s : String) : Prop := '.' ∉ s.toList

theorem split_dot {a b c d : List Char} (ha : '.' ∉ a) (hc : '.' ∉ c) (h : a ++ '.' :: b = c ++ '.' :: d) : a = c ∧ b = d := by
  induction a generalizing c with
  | nil =>
    cases c with
    | nil => simpa using h
    | cons x c =>
      simp only [List.nil_append, List.cons_append, List.cons.injEq] at h
      exact absurd (by rw [← h.1]; simp) hc
  | cons x a ih =>
    cases c with
    | nil =>
      simp only [List.nil_append, List.cons_append, List.cons.injEq] at h
      exact absurd (by rw [h.1]; simp) ha
    | cons y c =>
      simp only [List.cons_append, List.cons.injEq] at h
      obtain ⟨h1, h2⟩ := ih (fun h => ha (List.mem_cons_of_mem _ h)) (fun h => hc (List.mem_cons_of_mem _ h)) h.2
      exact ⟨by rw [h.1, h1], h2⟩

/-- **C78g** In a consistent catalog whose network and station codes have no dots, searching a station by codes finds the one
with these codes, if there is one, and nothing else. -/
theorem search_station {c : Catalog D} (h : WF c)
    (hd : ∀ k s, c.stations.find? k = some s → NoDot s.networkCode ∧ NoDot s.stationCode) (net sta loc : String)
    (hn : NoDot net) (hs : NoDot sta) (s : Station D) :
    c.searchStation net sta loc = some s ↔
      (∃ k, c.stations.find? k = some s) ∧ s.networkCode = net ∧ s.stationCode = sta ∧ s.locationCode = loc := by
  unfold searchStation
  constructor
  · intro hf
    obtain ⟨h1, h2⟩ := h.stationKey _ _ hf
    obtain ⟨d1, d2⟩ := hd _ _ hf
    unfold stationIdOf at h2
    have h3 := congrArg String.toList h2
    simp only [String.toList_append] at h3
    have e : ".".toList = ['.'] := rfl
    simp only [e, List.append_assoc, List.singleton_append] at h3
    obtain ⟨e1, h4⟩ := split_dot d1 hn h3
    obtain ⟨e2, e3⟩ := split_dot d2 hs h4
    exact ⟨⟨_, hf⟩, String.toList_inj.1 e1, String.toList_inj.1 e2, String.toList_inj.1 e3⟩
  · rintro ⟨⟨k, hk⟩, rfl, rfl, rfl⟩
    rw [(h.stationKey _ _ hk).2]; exact hk

namespace EditExample

def ph (station type : String) : Phase ℚ :=
  { eventId := 1, stationId := station, time := 0, lowerUncertainty := 0, upperUncertainty := 0, type := type, networkCode := "",
    stationCode := "", locationCode := "", channelCode := "", isRelocated := false, startResidual := 0, finalResidual := 0,
    weight := 0, procType := .P, classWeight := 0, source := .catalog }

/-- of a P and an S phase of a station, the one asked for goes -/
example : (removePhase ⟨[], [], [(1, ph "A" "P"), (2, ph "A" "S"), (1, ph "A" "S"), (1, ph "B" "S")]⟩ 1 "A" "S").phases.map
    (fun kp => (kp.1, kp.2.stationId, kp.2.type)) = [(1, "A", "P"), (2, "A", "S"), (1, "B", "S")] := by decide +kernel

/-- codes with dots are confused: the second station is taken for the first one -/
theorem dotted_codes_confused (la lo el : D) (x : Station D) :
    let s : Station D := ⟨"", la, lo, el, "A", "B.C", ""⟩
    let c := (init : Catalog D).addStation s
    c.addStation { x with networkCode := "A.B", stationCode := "C", locationCode := "" } = c ∧
    c.searchStation "A.B" "C" "" = some { s with id := "A.B.C." } := by
  intro s c
  have e : c.stations.find? "A.B.C." = some { s with id := "A.B.C." } := by
    show (init.addStation s).stations.find? "A.B.C." = _
    rw [addStation_find]
    rfl
  refine ⟨?_, e⟩
  unfold addStation
  simp only [show stationIdOf "A.B" "C" "" = "A.B.C." from by decide +kernel, e]

end EditExample

end Verif.Catalog.Catalog
