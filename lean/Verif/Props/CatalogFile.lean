import Verif.Proofs.CatalogFile
import Mathlib.Data.Option.Basic

/-!
# C75: catalog files
-/

set_option linter.unusedSimpArgs false

namespace Verif.CatalogFile
open Verif.Csv Verif.Catalog Verif.PairFile Verif.Decimal Verif.XCorrFile Verif.CsvFile Verif.Decimal.Spec

/-- The catalog can be written: it is consistent, the times are between 1970 and 9999, the texts contain neither commas,
quotes nor line breaks, the numbers are doubles with a small margin, every phase has a station of the catalog, and a catalog
with relocated phases has a relocated event. -/
structure Writable (cat : Catalog (Fl ℚ)) : Prop where
  wf : cat.WF
  station : ∀ id s, cat.stations.find? id = some s →
    Clean s.networkCode.toList ∧ Clean s.stationCode.toList ∧ Clean s.locationCode.toList
  event : ∀ id e, cat.events.find? id = some e → 0 ≤ e.time ∧ (Utc.toDate e.time).date.year ≤ 9999
  stationNumbers : ∀ id s, cat.stations.find? id = some s → Bounded s.latitude ∧ Bounded s.longitude ∧ Bounded s.elevation
  eventNumbers : ∀ id e, cat.events.find? id = some e →
    Bounded e.latitude ∧ Bounded e.longitude ∧ Bounded e.depth ∧ Bounded e.magnitude ∧
      (e.isRelocated = true → Precise e.startRms ∧ Precise e.finalRms)
  phaseNumbers : ∀ kp ∈ cat.phases, Precise kp.2.lowerUncertainty ∧ Precise kp.2.upperUncertainty ∧
    (kp.2.isRelocated = true → Precise kp.2.weight ∧ Precise kp.2.startResidual ∧ Precise kp.2.finalResidual)
  phaseId : ∀ kp ∈ cat.phases, kp.1 < 4294967296
  phaseTime : ∀ kp ∈ cat.phases, 0 ≤ kp.2.time ∧ (Utc.toDate kp.2.time).date.year ≤ 9999
  phaseText : ∀ kp ∈ cat.phases, Clean kp.2.type.toList ∧ Clean kp.2.networkCode.toList ∧ Clean kp.2.stationCode.toList ∧
    Clean kp.2.locationCode.toList ∧ Clean kp.2.channelCode.toList
  phaseStation : ∀ kp ∈ cat.phases, (cat.stations.find? kp.2.stationId).isSome ∧
    kp.2.stationId = Catalog.stationIdOf kp.2.networkCode kp.2.stationCode kp.2.locationCode
  relocated : (∃ kp ∈ cat.phases, kp.2.isRelocated = true) → ∃ id e, cat.events.find? id = some e ∧ e.isRelocated = true

theorem stationRead_back (rnd : ℚ → ℚ) {s : Station (Fl ℚ)} (h : s.id = Catalog.stationIdOf s.networkCode s.stationCode s.locationCode) :
    Spec.StationRead rnd s (stationBack rnd s) where
  id := h.symm
  codes := ⟨rfl, rfl, rfl⟩
  latitude := numRead_fixed _ _ _
  longitude := numRead_fixed _ _ _
  elevation := numRead_fixed _ _ _

theorem eventRead_back (rnd : ℚ → ℚ) (load : Bool) (u e : Event (Fl ℚ)) : Spec.EventRead rnd load e (eventBack rnd load u e) where
  id := rfl
  time := rfl
  latitude := numRead_fixed _ _ _
  longitude := numRead_fixed _ _ _
  depth := numRead_fixed _ _ _
  magnitude := numRead_fixed _ _ _
  isRelocated := rfl
  startRms := by
    intro h
    have : (load && e.isRelocated) = true := h
    simp only [eventBack, this, if_true]
    exact numRead_general _ _
  finalRms := by
    intro h
    have : (load && e.isRelocated) = true := h
    simp only [eventBack, this, if_true]
    exact numRead_general _ _

theorem phaseRead_back (rnd : ℚ → ℚ) (load : Bool) (u : Phase (Fl ℚ)) {p : Phase (Fl ℚ)}
    (h : p.stationId = Catalog.stationIdOf p.networkCode p.stationCode p.locationCode) :
    Spec.PhaseRead rnd load p (phaseBack rnd load u p) where
  eventId := rfl
  stationId := h.symm
  time := rfl
  type := rfl
  codes := ⟨rfl, rfl, rfl, rfl⟩
  lowerUncertainty := numRead_general _ _
  upperUncertainty := numRead_general _ _
  isRelocated := rfl
  weight := by
    intro h
    have : (load && p.isRelocated) = true := h
    simp only [phaseBack, this, if_true]
    exact numRead_general _ _
  startResidual := by
    intro h
    have : (load && p.isRelocated) = true := h
    simp only [phaseBack, this, if_true]
    exact numRead_general _ _
  finalResidual := by
    intro h
    have : (load && p.isRelocated) = true := h
    simp only [phaseBack, this, if_true]
    exact numRead_general _ _

/-- **C75** A catalog that can be written to the three files is read back from them, whatever the order in which the
containers are visited: the same station ids and event ids, each with the values it had, up to the digits written (eight
decimals for coordinates, six for depths, three for magnitudes and elevations, six significant digits for
uncertainties, weights and residuals), exact times, and the same phases up to their order.  The relocation information
is restored when it is asked for, and nothing is marked as relocated otherwise. -/
theorem catalog_file_round_trip (rnd : ℚ → ℚ) (load : Bool) (u : Event (Fl ℚ)) (v : Phase (Fl ℚ)) {cat : Catalog (Fl ℚ)}
    (h : Writable cat) {phases : List (Nat × Phase (Fl ℚ))} (hp : phases.Perm cat.phases)
    {stations : List (String × Station (Fl ℚ))} (hs : stations.Perm cat.stations) :
    ∃ r, read rnd load u v (write cat phases stations) = .ok r ∧
      (∀ id, Option.Rel (Spec.StationRead rnd) (cat.stations.find? id) (r.stations.find? id)) ∧
      (∀ id, Option.Rel (Spec.EventRead rnd load) (cat.events.find? id) (r.events.find? id)) ∧
      ∃ l, l.Perm cat.phases ∧
        List.Forall₂ (fun kp kp' => kp'.1 = kp.1 ∧ Spec.PhaseRead rnd load kp.2 kp'.2) l r.phases := by
  have hwf := h.wf
  have hsm : ∀ kv ∈ stations, cat.stations.find? kv.1 = some kv.2 :=
    fun kv hk => AMap.find?_of_mem hwf.stationsUnique (hs.mem_iff.1 hk)
  have hes : cat.eventsSorted.Perm cat.events := List.perm_insertionSort _ _
  have hem : ∀ kv ∈ cat.eventsSorted, cat.events.find? kv.1 = some kv.2 :=
    fun kv hk => AMap.find?_of_mem hwf.eventsUnique (hes.mem_iff.1 hk)
  have hps : (phases.insertionSort (fun a b => a.1 ≤ b.1)).Perm cat.phases := (List.perm_insertionSort _ _).trans hp
  have hreloc : ∀ kv ∈ cat.eventsSorted, kv.2.isRelocated = true → relocInfo cat = true :=
    fun kv hk hr => List.any_eq_true.2 ⟨kv, hk, hr⟩
  have hreloc' : ∀ kp ∈ cat.phases, kp.2.isRelocated = true → relocInfo cat = true := by
    intro kp hk hr
    obtain ⟨id, e, he, her⟩ := h.relocated ⟨kp, hk, hr⟩
    exact hreloc (id, e) (hes.mem_iff.2 (AMap.mem_of_find? he)) her
  have hkeyS : ∀ kv ∈ cat.stations, kv.2.id = kv.1 ∧
      Catalog.stationIdOf kv.2.networkCode kv.2.stationCode kv.2.locationCode = kv.1 :=
    fun kv hk => hwf.stationKey _ _ (AMap.find?_of_mem hwf.stationsUnique hk)
  have hkeyE : ∀ kv ∈ cat.events, kv.2.id = kv.1 ∧ kv.1 < Catalog.uintMod :=
    fun kv hk => hwf.eventKey _ _ (AMap.find?_of_mem hwf.eventsUnique hk)
  -- stations
  have r1 : readWithHeader (write cat phases stations).station =
      .ok ((stations.map (fun kv => stationFields kv.2)).map (formatRow stationHeader)) := by
    apply read_file
    · refine ⟨by decide, ?_⟩
      unfold Clean; decide
    · intro row hrow
      obtain ⟨kv, hk, rfl⟩ := List.mem_map.1 hrow
      exact clean_stationRow (h.station _ _ (hsm kv hk))
  have m1 : mapRows (stationOf rnd) ((stations.map (fun kv => stationFields kv.2)).map (formatRow stationHeader)) =
      .ok (stations.map (fun kv => stationBack rnd kv.2)) := by
    rw [List.map_map]
    have : ∀ l : List (String × Station (Fl ℚ)), (∀ kv ∈ l, kv ∈ stations) →
        mapRows (stationOf rnd) (l.map (formatRow stationHeader ∘ fun kv => stationFields kv.2)) =
        .ok (l.map (fun kv => stationBack rnd kv.2)) := by
      intro l hl
      induction l with
      | nil => rfl
      | cons a l ih =>
        rw [List.map_cons]
        unfold mapRows
        rw [ih (fun kv hkv => hl kv (by simp [hkv])), Function.comp_apply,
          stationOf_row rnd (h.stationNumbers _ _ (hsm a (hl a (by simp))))]; rfl
    exact this _ (fun _ h => h)
  -- events
  have r2 : readWithHeader (write cat phases stations).event =
      .ok ((cat.eventsSorted.map (fun kv => eventFields' (relocInfo cat) kv.2)).map (formatRow (eventHeader' (relocInfo cat)))) := by
    apply read_file (header := eventHeader' (relocInfo cat)) (rows := cat.eventsSorted.map (fun kv => eventFields' (relocInfo cat) kv.2))
    · cases relocInfo cat <;> (refine ⟨by decide, ?_⟩; unfold Clean; decide)
    · intro row hrow
      obtain ⟨kv, hk, rfl⟩ := List.mem_map.1 hrow
      exact clean_eventRow _ _
  have m2 : mapRows (eventOf rnd load u)
      ((cat.eventsSorted.map (fun kv => eventFields' (relocInfo cat) kv.2)).map (formatRow (eventHeader' (relocInfo cat)))) =
      .ok (cat.eventsSorted.map (fun kv => eventBack rnd load u kv.2)) := by
    rw [List.map_map]
    have : ∀ l : List (Nat × Event (Fl ℚ)), (∀ kv ∈ l, kv ∈ cat.eventsSorted) →
        mapRows (eventOf rnd load u) (l.map (formatRow (eventHeader' (relocInfo cat)) ∘ fun kv => eventFields' (relocInfo cat) kv.2)) =
        .ok (l.map (fun kv => eventBack rnd load u kv.2)) := by
      intro l hl
      induction l with
      | nil => rfl
      | cons a l ih =>
        have ha := hl a (by simp)
        have hk := hkeyE a (hes.mem_iff.1 ha)
        rw [List.map_cons]
        unfold mapRows
        rw [ih (fun kv hkv => hl kv (by simp [hkv])), Function.comp_apply,
          eventOf_row rnd load u a.2 _ (by rw [hk.1]; exact hk.2) (h.event _ _ (hem a ha)) (h.eventNumbers _ _ (hem a ha)) (hreloc a ha)]; rfl
    exact this _ (fun _ h => h)
  -- phases
  have r3 : readWithHeader (write cat phases stations).phase =
      .ok (((phases.insertionSort (fun a b => a.1 ≤ b.1)).map (fun kv => phaseFields' (relocInfo cat) kv.2)).map
        (formatRow (phaseHeader' (relocInfo cat)))) := by
    apply read_file (header := phaseHeader' (relocInfo cat))
      (rows := (phases.insertionSort (fun a b => a.1 ≤ b.1)).map (fun kv => phaseFields' (relocInfo cat) kv.2))
    · cases relocInfo cat <;> (refine ⟨by decide, ?_⟩; unfold Clean; decide)
    · intro row hrow
      obtain ⟨kv, hk, rfl⟩ := List.mem_map.1 hrow
      exact clean_phaseRow _ (h.phaseText _ (hps.mem_iff.1 hk))
  have hknown : ∀ kp ∈ cat.phases, ((stations.map (fun kv => stationBack rnd kv.2)).any (fun s =>
      s.id = Catalog.stationIdOf kp.2.networkCode kp.2.stationCode kp.2.locationCode)) = true := by
    intro kp hk
    obtain ⟨h1, h2⟩ := h.phaseStation kp hk
    obtain ⟨s, h1⟩ := Option.isSome_iff_exists.1 h1
    have hm := AMap.mem_of_find? h1
    rw [List.any_eq_true]
    refine ⟨stationBack rnd s, List.mem_map.2 ⟨(kp.2.stationId, s), hs.mem_iff.2 hm, rfl⟩, ?_⟩
    rw [decide_eq_true_eq, ← h2]
    exact (hkeyS _ hm).2
  have m3 : mapRows (phaseOf rnd load v (fun id => (stations.map (fun kv => stationBack rnd kv.2)).any (fun s => s.id = id)))
      (((phases.insertionSort (fun a b => a.1 ≤ b.1)).map (fun kv => phaseFields' (relocInfo cat) kv.2)).map
        (formatRow (phaseHeader' (relocInfo cat)))) =
      .ok ((phases.insertionSort (fun a b => a.1 ≤ b.1)).map (fun kv => phaseBack rnd load v kv.2)) := by
    rw [List.map_map]
    have : ∀ l : List (Nat × Phase (Fl ℚ)), (∀ kv ∈ l, kv ∈ cat.phases) →
        mapRows (phaseOf rnd load v (fun id => (stations.map (fun kv => stationBack rnd kv.2)).any (fun s => s.id = id)))
          (l.map (formatRow (phaseHeader' (relocInfo cat)) ∘ fun kv => phaseFields' (relocInfo cat) kv.2)) =
        .ok (l.map (fun kv => phaseBack rnd load v kv.2)) := by
      intro l hl
      induction l with
      | nil => rfl
      | cons a l ih =>
        have ha := hl a (by simp)
        rw [List.map_cons]
        unfold mapRows
        rw [ih (fun kv hkv => hl kv (by simp [hkv])), Function.comp_apply,
          phaseOf_row rnd load v a.2 _ _ (by rw [hwf.phaseKey a ha]; exact h.phaseId a ha) (h.phaseTime a ha) (h.phaseNumbers a ha) (hreloc' a ha)
            (hknown a ha)]; rfl
    exact this _ (fun kv hk => hps.mem_iff.1 hk)
  -- the containers
  have c1 : ∀ id, _ := fun id => find?_map_perm hwf.stationsUnique hs (stationBack rnd)
    (fun s => Catalog.stationIdOf s.networkCode s.stationCode s.locationCode) (fun kv hk => (hkeyS kv hk).2) id
  have c2 : ∀ id, _ := fun id => find?_map_perm hwf.eventsUnique hes (eventBack rnd load u) (fun e => e.id)
    (fun kv hk => (hkeyE kv hk).1) id
  have hst : (stations.map (fun kv => stationBack rnd kv.2)).foldl (fun (m : AMap String (Station (Fl ℚ))) s =>
      let id := Catalog.stationIdOf s.networkCode s.stationCode s.locationCode
      m.set id { s with id := id }) ([] : AMap String (Station (Fl ℚ))) =
      (stations.map (fun kv => stationBack rnd kv.2)).foldl (fun (m : AMap String (Station (Fl ℚ))) s =>
        m.set (Catalog.stationIdOf s.networkCode s.stationCode s.locationCode) s) [] := by
    apply List.foldl_ext
    intro m s hs
    obtain ⟨kv, -, rfl⟩ := List.mem_map.1 hs
    rfl
  have hphs : ((phases.insertionSort (fun a b => a.1 ≤ b.1)).map (fun kv => phaseBack rnd load v kv.2)).map (fun p =>
      { p with stationId := Catalog.stationIdOf p.networkCode p.stationCode p.locationCode }) =
      (phases.insertionSort (fun a b => a.1 ≤ b.1)).map (fun kv => phaseBack rnd load v kv.2) := by
    rw [List.map_map]; rfl
  refine ⟨⟨(stations.map (fun kv => stationBack rnd kv.2)).foldl (fun (m : AMap String (Station (Fl ℚ))) s =>
        m.set (Catalog.stationIdOf s.networkCode s.stationCode s.locationCode) s) [],
      (cat.eventsSorted.map (fun kv => eventBack rnd load u kv.2)).foldl (fun (m : AMap Nat (Event (Fl ℚ))) e => m.set e.id e) [],
      ((phases.insertionSort (fun a b => a.1 ≤ b.1)).map (fun kv => phaseBack rnd load v kv.2)).map (fun p => (p.eventId, p))⟩,
    ?_, fun id => ?_, fun id => ?_, phases.insertionSort (fun a b => a.1 ≤ b.1), hps, ?_⟩
  rotate_left
  · show Option.Rel _ _ (AMap.find? _ id)
    rw [c1]
    cases hf : cat.stations.find? id with
    | none => exact .none
    | some s =>
      have := hwf.stationKey _ _ hf
      exact .some (stationRead_back rnd (by rw [this.1, this.2]))
  · show Option.Rel _ _ (AMap.find? _ id)
    rw [c2]
    cases hf : cat.events.find? id with
    | none => exact .none
    | some e => exact .some (eventRead_back rnd load u e)
  · rw [List.map_map, List.forall₂_map_right_iff, List.forall₂_same]
    intro kp hk
    have hk := hps.mem_iff.1 hk
    exact ⟨hwf.phaseKey kp hk, phaseRead_back rnd load v (h.phaseStation kp hk).2⟩
  · unfold read
    rw [r1, r2, r3]
    simp only [bind, Outcome.bind]
    rw [m1]
    simp only [bind, Outcome.bind]
    rw [m2]
    simp only [bind, Outcome.bind]
    rw [m3]
    simp only [bind, Outcome.bind]
    unfold Catalog.ofRows
    rw [hst, hphs]
    rw [if_pos]
    rw [List.all_eq_true]
    intro p hp'
    obtain ⟨kp, hk, rfl⟩ := List.mem_map.1 hp'
    have hk := hps.mem_iff.1 hk
    obtain ⟨h1, h2⟩ := h.phaseStation kp hk
    rw [c1]
    show (((cat.stations.find? (Catalog.stationIdOf kp.2.networkCode kp.2.stationCode kp.2.locationCode))).map (stationBack rnd)).isSome = true
    rw [← h2, Option.isSome_map]
    exact h1

namespace Example

def sta : Station (Fl ℚ) := ⟨"CH.ABC.", .num (46 + 1/3), .num (-7/10), .num 1234, "CH", "ABC", ""⟩
def ev (id : Nat) (reloc : Bool) : Event (Fl ℚ) :=
  ⟨id, 1709210096789000, .num (46123456789/1000000000), .num (75/10), .num (-12/10), .nan, reloc, .num (1/7), .num (1/90000)⟩
def ph (id : Nat) (reloc : Bool) : Phase (Fl ℚ) :=
  ⟨id, "CH.ABC.", 1709210099000001, .num (1/100), .inf false, "Pg", "CH", "ABC", "", "HHZ", .NO, .nan, .catalog, reloc,
    .num (123456789/1000000), .num (-1/4), .num 0⟩
def cat : Catalog (Fl ℚ) := ⟨[("CH.ABC.", sta)], [(7, ev 7 true), (2, ev 2 false)], [(7, ph 7 true), (2, ph 2 false)]⟩

theorem writable : Writable cat where
  wf := by
    refine ⟨by unfold AMap.NodupKeys; decide +kernel, ?_, by unfold AMap.NodupKeys; decide +kernel, ?_, by decide +kernel⟩
    · intro id s h
      have := AMap.mem_of_find? h
      simp only [cat, List.mem_singleton, Prod.mk.injEq] at this
      obtain ⟨rfl, rfl⟩ := this
      decide +kernel
    · intro id s h
      have := AMap.mem_of_find? h
      simp only [cat, List.mem_cons, List.not_mem_nil, or_false, Prod.mk.injEq] at this
      rcases this with ⟨rfl, rfl⟩ | ⟨rfl, rfl⟩ <;> decide +kernel
  station := by
    intro id s h
    have := AMap.mem_of_find? h
    simp only [cat, List.mem_singleton, Prod.mk.injEq] at this
    obtain ⟨rfl, rfl⟩ := this
    unfold Clean; decide +kernel
  event := by
    intro id s h
    have := AMap.mem_of_find? h
    simp only [cat, List.mem_cons, List.not_mem_nil, or_false, Prod.mk.injEq] at this
    rcases this with ⟨rfl, rfl⟩ | ⟨rfl, rfl⟩ <;> decide +kernel
  stationNumbers := by
    intro id s h
    have := AMap.mem_of_find? h
    simp only [cat, List.mem_singleton, Prod.mk.injEq] at this
    obtain ⟨rfl, rfl⟩ := this
    decide +kernel
  eventNumbers := by
    intro id s h
    have := AMap.mem_of_find? h
    simp only [cat, List.mem_cons, List.not_mem_nil, or_false, Prod.mk.injEq] at this
    rcases this with ⟨rfl, rfl⟩ | ⟨rfl, rfl⟩ <;> decide +kernel
  phaseNumbers := by decide +kernel
  phaseId := by decide +kernel
  phaseTime := by decide +kernel
  phaseText := by unfold Clean; decide +kernel
  phaseStation := by decide +kernel
  relocated := fun _ => ⟨7, ev 7 true, by decide +kernel, rfl⟩

example : (write cat cat.phases cat.stations).event =
    ("id,isotime,latitude,longitude,depth,magnitude,relocated,startRms,finalRms\n" ++
     "2,2024-02-29T12:34:56.789Z,46.12345679,7.50000000,-1.200000,nan,false,,\n" ++
     "7,2024-02-29T12:34:56.789Z,46.12345679,7.50000000,-1.200000,nan,true,0.142857,1.11111e-05\n").toList := by
  decide +kernel

example : (write cat cat.phases cat.stations).phase =
    ("eventId,isotime,lowerUncertainty,upperUncertainty,type,networkCode,stationCode,locationCode,channelCode,usedInReloc,weight,startResidual,finalResidual\n" ++
     "2,2024-02-29T12:34:59.000001Z,0.01,inf,Pg,CH,ABC,,HHZ,false,,,\n" ++
     "7,2024-02-29T12:34:59.000001Z,0.01,inf,Pg,CH,ABC,,HHZ,true,123.457,-0.25,0\n").toList := by
  decide +kernel

example : (write cat cat.phases cat.stations).station =
    ("latitude,longitude,elevation,networkCode,stationCode,locationCode\n46.33333333,-0.70000000,1234.000,CH,ABC,\n").toList := by
  decide +kernel

/-- the round trip of this catalog -/
example : ∃ r, read id true (ev 0 false) (ph 0 false) (write cat cat.phases cat.stations) = .ok r ∧
    ∃ e, r.events.find? 7 = some e ∧ e.isRelocated = true ∧ e.time = 1709210096789000 ∧ e.magnitude = .nan := by
  obtain ⟨r, h1, -, h3, -⟩ := catalog_file_round_trip id true (ev 0 false) (ph 0 false) writable (List.Perm.refl _) (List.Perm.refl _)
  have h := h3 7
  rw [show cat.events.find? 7 = some (ev 7 true) from by decide +kernel] at h
  generalize hr : r.events.find? 7 = o at h
  cases h with
  | some he => exact ⟨r, h1, _, hr, he.isRelocated, he.time, he.magnitude⟩

/-- (negation) The relocation information of the phases is lost when no event is marked as relocated: it is not even
written. -/
theorem phase_information_lost :
    (read id true (ev 0 false) (ph 0 false)
      (write ⟨[("CH.ABC.", sta)], [(2, ev 2 false)], [(2, ph 2 true)]⟩ [(2, ph 2 true)] [("CH.ABC.", sta)])).map
      (fun r => r.phases.map (fun kp => kp.2.isRelocated)) = .ok [false] := by
  decide +kernel

/-- (negation) A catalog with a phase of an unknown station is written without error, but the files cannot be read. -/
theorem unknown_station_unreadable :
    (read id true (ev 0 false) (ph 0 false) (write ⟨[], [(2, ev 2 false)], [(2, ph 2 false)]⟩ [(2, ph 2 false)] [])).map
      (fun r => r.phases.length) = .throws := by
  decide +kernel

/-- (negation) A comma in a code shifts the columns: the channel of the phase is read as another one. -/
theorem comma_shifts_columns :
    (read id true (ev 0 false) (ph 0 false)
      (write ⟨[("CH.ABC.", sta)], [(2, ev 2 false)], [(2, { ph 2 false with channelCode := "HH,Z" })]⟩
        [(2, { ph 2 false with channelCode := "HH,Z" })] [("CH.ABC.", sta)])).map
      (fun r => r.phases.map (fun kp => kp.2.channelCode)) = .ok ["HH"] := by
  decide +kernel

/-- (negation) A residual below the smallest normal double is written without error, but the files cannot be read. -/
theorem tiny_residual_unreadable :
    (read id true (ev 0 false) (ph 0 false)
      (write ⟨[("CH.ABC.", sta)], [(2, ev 2 true)], [(2, { ph 2 true with finalResidual := .num (1 / 10 ^ 310) })]⟩
        [(2, { ph 2 true with finalResidual := .num (1 / 10 ^ 310) })] [("CH.ABC.", sta)])).map
      (fun r => r.phases.length) = .throws := by
  decide +kernel

/-- the text of that residual -/
example : flText generalText (.num (1 / 10 ^ 310)) = "1e-310".toList := by decide +kernel

end Example
end Verif.CatalogFile
