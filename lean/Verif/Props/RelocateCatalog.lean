import Verif.Props.CommandLine
import Verif.Props.SeisComPOrigin
import Verif.Props.Catalog
import Verif.Props.MergeCatalogs

/-!
# C92: relocation of a catalog given on the command line, with XML output
-/

set_option linter.unusedSimpArgs false

namespace Verif.CommandLine
open Verif.Catalog Verif.Daemon Spec Verif.Daemon.Spec
open SeisComP (Ids Different)
open SeisComP.Spec (originOf loaded)
open Verif.Csv (Str)

/-! ## one event -/

theorem eq_singleton {c : Catalog Num} (h : Catalog.WF c) {n : Nat} {e : Event Num} (hf : ∀ k, c.events.find? k = if k = n then some e else none) :
    c.events = [(n, e)] := by
  have hmem : ∀ kv ∈ c.events, kv = (n, e) := by
    intro kv hkv
    have h1 := AMap.find?_of_mem h.eventsUnique (k := kv.1) (v := kv.2) hkv
    rw [hf] at h1
    by_cases hk : kv.1 = n
    · rw [if_pos hk] at h1
      cases h1
      exact Prod.ext hk rfl
    · rw [if_neg hk] at h1; cases h1
  have hn : (n, e) ∈ c.events := AMap.mem_of_find? (by rw [hf, if_pos rfl])
  have hu := h.eventsUnique
  unfold AMap.NodupKeys AMap.keys at hu
  cases hc : c.events with
  | nil => rw [hc] at hn; cases hn
  | cons a l =>
    rw [hc] at hmem hu
    have ha := hmem a (by simp)
    cases l with
    | nil => rw [ha]
    | cons b l =>
      have hb := hmem b (by simp)
      rw [ha, hb] at hu
      simp at hu

theorem extract_one {r : Catalog Num} (hr : Catalog.Sound r) {k : Nat} {e : Event Num} (he : r.events.find? k = some e) :
    ∃ x, r.extractEvent e.id true = .ok x ∧ Catalog.Sound x ∧ x.events = [(e.id, e)] ∧ x.phasesOf e.id = r.phasesOf e.id ∧
      ∀ ph ∈ r.phasesOf e.id, x.stations.find? ph.stationId = r.stations.find? ph.stationId := by
  have hid := (hr.eventKey _ _ he).1
  rw [hid]
  obtain ⟨x, n, h1, h2, h3, h4, h5, h6⟩ := (Catalog.catalog_extractEvent hr k true).2 e he
  have hn : n = k := by simpa using h2
  subst hn
  refine ⟨x, h1, h6, eq_singleton h6.toWF ?_, ?_, ?_⟩
  · intro j
    rw [h3]
    by_cases hj : j = n
    · rw [if_pos hj, if_pos hj, ← hid]
    · rw [if_neg hj, if_neg hj]
  · rw [h4, if_pos rfl]
    conv_rhs => rw [← List.map_id (r.phasesOf n)]
    refine List.map_congr_left (fun p hp => ?_)
    have : p.eventId = n := by
      unfold Catalog.phasesOf at hp
      obtain ⟨kp, hk, rfl⟩ := List.mem_map.1 hp
      have h := List.mem_filter.1 hk
      rw [hr.phaseKey kp h.1]
      simpa using h.2
    rw [← this]; rfl
  · intro ph hp
    rw [h5, if_pos (List.mem_map.2 ⟨ph, hp, rfl⟩)]

/-- the phases of an event can be told apart by time and channel, and at least one was used in the relocation -/
def Convertible (r : Catalog Num) (k : Nat) : Prop :=
  (r.phasesOf k).Pairwise Different ∧ ∃ ph ∈ r.phasesOf k, ph.isRelocated = true

theorem different_symm {a b : Phase Num} (h : Different a b) : Different b a := by
  intro hb
  exact h ⟨hb.1.symm, hb.2.1.symm, hb.2.2.1.symm, hb.2.2.2.1.symm, hb.2.2.2.2.symm⟩

theorem event_converted (cfg : Config) {w : World} (horder : ∀ l, (w.order l).Perm l) (p : Profile) (idmap : AMap Nat SeisComP.Origin)
    {r : Catalog Num} (hr : Catalog.Sound r) {fresh : Nat → String} (hid : Ids (some w.cache) w.eventParameters fresh) {k : Nat}
    {e : Event Num} (he : r.events.find? k = some e) (hc : Convertible r k) :
    ∃ x, eventToOrigin cfg w p idmap r fresh e = .ok x ∧ OriginOf cfg w p (idmap.find? k) r e x := by
  have hek := (hr.eventKey _ _ he).1
  obtain ⟨c, h1, h2, h3, h4, h5⟩ := extract_one hr he
  have hperm : (w.order (c.phasesOf e.id)).Perm (c.phasesOf e.id) := horder _
  obtain ⟨new, picks, l, g1, g2, g3, g4, g5, g6, g7, g8, g9⟩ := SeisComP.origin_from_event (q := w.query) hid h2 h3 hperm
    (hperm.symm.pairwise (by rw [h4, hek]; exact hc.1) (fun h => different_symm h))
    (by obtain ⟨ph, hp, hu⟩ := hc.2; exact ⟨ph, hperm.symm.mem_iff.1 (by rw [h4, hek]; exact hp), hu⟩)
    (idmap.find? k) cfg.author cfg.agencyID p.methodID (p.tttType ++ ":" ++ p.tttModel) true w.delazi w.nth
  refine ⟨(new, picks), ?_, ?_⟩
  · unfold eventToOrigin
    rw [h1]
    simp only [Outcome.bind_ok, World.source]
    rw [hek] at g1 ⊢
    exact g1
  · have hp4 : (w.order (c.phasesOf e.id)).Perm (r.phasesOf e.id) := by rw [← h4]; exact hperm
    refine ⟨⟨g2.1, g2.2.1⟩, ⟨g2.2.2.1, g2.2.2.2⟩, g3.1, g3.2.1, g3.2.2, g4, g5, ⟨w.order (c.phasesOf e.id), l, hp4, ?_, g7, ?_⟩, ⟨?_, ?_⟩, ?_⟩
    · have : List.Forall₂ (fun a b => a ∈ w.order (c.phasesOf e.id) ∧ SeisComP.Spec.Converted (some w.cache) w.eventParameters
          (idmap.find? k) (w.delazi e) c.stations a b) (w.order (c.phasesOf e.id)) l := by
        rw [List.forall₂_iff_get] at g6 ⊢
        exact ⟨g6.1, fun i hi hj => ⟨List.get_mem _ _, g6.2 i hi hj⟩⟩
      refine this.imp ?_
      intro a b hab
      have hs := h5 a (hp4.mem_iff.1 hab.1)
      exact { hab.2 with
        distance := fun s h => hab.2.distance s (by rw [hs]; exact h)
        azimuth := fun s h => hab.2.azimuth s (by rw [hs]; exact h) }
    · simpa using g8
    · rw [g9.associatedPhaseCount]; exact hp4.length_eq
    · rw [g9.usedPhaseCount]; exact (hp4.filter _).length_eq
    · intro hre
      rw [g9.standardError, if_pos hre]

/-! ## all events -/

theorem events_converted (cfg : Config) {w : World} (horder : ∀ l, (w.order l).Perm l) (p : Profile) (idmap : AMap Nat SeisComP.Origin)
    {r : Catalog Num} (hr : Catalog.Sound r) {fresh : Nat → Nat → String} (hid : ∀ i, Ids (some w.cache) w.eventParameters (fresh i)) :
    ∀ (kvs : List (Nat × Event Num)) (i : Nat), (∀ kv ∈ kvs, r.events.find? kv.1 = some kv.2) → (∀ kv ∈ kvs, Convertible r kv.1) →
    ∃ xs, eventsToOrigins cfg w p idmap r fresh i kvs = .ok xs ∧
      List.Forall₂ (fun kv x => OriginOf cfg w p (idmap.find? kv.1) r kv.2 x) kvs xs := by
  intro kvs
  induction kvs with
  | nil => intro i _ _; exact ⟨[], rfl, .nil⟩
  | cons kv kvs ih =>
    intro i h1 h2
    obtain ⟨x, g1, g2⟩ := event_converted cfg horder p idmap hr (hid i) (h1 kv (by simp)) (h2 kv (by simp))
    obtain ⟨xs, g3, g4⟩ := ih (i + 1) (fun a ha => h1 a (by simp [ha])) (fun a ha => h2 a (by simp [ha]))
    refine ⟨x :: xs, ?_, .cons g2 g4⟩
    unfold eventsToOrigins
    rw [g1]
    simp only [Outcome.bind_ok, g3]

/-- the profile with the name given -/
def chosen (cfg : Config) (profiles : List Profile) (p : Profile) : Prop :=
  cfg.forceProfile ≠ "" ∧ profiles.find? (fun p => p.name = cfg.forceProfile) = some p

theorem eventsSorted_increasing {r : Catalog Num} (hr : Catalog.WF r) : r.eventsSorted.Pairwise (fun a b => a.1 < b.1) := by
  have h1 : r.eventsSorted.Pairwise (fun a b => a.1 ≤ b.1) := by
    unfold Catalog.eventsSorted
    have := List.pairwise_insertionSort (fun a b : Nat × Event Num => a.1 ≤ b.1) r.events
    exact this
  have h2 := (Catalog.eventsSorted_facts hr).1
  rw [List.Nodup, List.pairwise_map] at h2
  exact (h1.and h2).imp (fun h => lt_of_le_of_ne h.1 h.2)

/-- **C92a** Relocating a catalog with XML output: the file has exactly one origin for every event of the relocated catalog, in the
order of the ids, each as the relocation found it, with all its picks and with the origin it comes from, if every event has a
phase that was used and no two phases with the same time and channel. -/
theorem relocated_catalog_xml {cfg : Config} {w : World} (horder : ∀ l, (w.order l).Perm l) {rnd : ℚ → ℚ} {files : Str → Option Str}
    {profiles : List Profile} {relocate : Profile → Catalog Num → Option (Catalog Num)} {fresh : Nat → Nat → String}
    (hid : ∀ i, Ids (some w.cache) w.eventParameters (fresh i)) {o : Options} (hx : o.xmlout = true)
    {cat : Catalog Num} {idmap : AMap Nat SeisComP.Origin} (hcat : getCatalog w rnd files o.relocateCatalog = .ok (cat, idmap))
    (hne : isEmpty cat = false) {p : Profile} (hp : chosen cfg profiles p) {r : Catalog Num} (hrel : relocate p cat = some r)
    (hr : Catalog.Sound r) (hc : ∀ k, (r.events.find? k).isSome → Convertible r k) :
    ∃ xs, relocateCatalog cfg w rnd files profiles relocate fresh o = .ok (some xs) ∧
      ∃ evs : List (Nat × Event Num), evs.Pairwise (fun a b => a.1 < b.1) ∧ (∀ k e, (k, e) ∈ evs ↔ r.events.find? k = some e) ∧
        List.Forall₂ (fun ke x => OriginOf cfg w p (idmap.find? ke.1) r ke.2 x) evs xs := by
  obtain ⟨f1, f2, f3, f4⟩ := Catalog.eventsSorted_facts hr.toWF
  obtain ⟨xs, g1, g2⟩ := events_converted cfg horder p idmap hr hid r.eventsSorted 0 f2
    (fun kv hkv => hc kv.1 (by rw [f2 kv hkv]; rfl))
  refine ⟨xs, ?_, r.eventsSorted, eventsSorted_increasing hr.toWF, fun k e => ⟨fun h => f2 _ h, f3 k e⟩, g2⟩
  unfold relocateCatalog
  rw [hcat]
  simp only [Outcome.bind_ok]
  rw [if_neg hp.1, hp.2]
  simp only [hne, hrel, hx, g1, Outcome.bind_ok, Bool.false_eq_true, if_false, if_true]

/-- **C92b** The command fails exactly when the catalog is empty or cannot be read, when there is no profile with the given name,
or when the relocation fails. -/
theorem relocate_catalog_fails {cfg : Config} {w : World} {rnd : ℚ → ℚ} {files : Str → Option Str} {profiles : List Profile}
    {relocate : Profile → Catalog Num → Option (Catalog Num)} {fresh : Nat → Nat → String} {o : Options}
    {cat : Catalog Num} {idmap : AMap Nat SeisComP.Origin} (hcat : getCatalog w rnd files o.relocateCatalog = .ok (cat, idmap)) :
    relocateCatalog cfg w rnd files profiles relocate fresh o = .ok none ↔
      isEmpty cat = true ∨ (∀ p, ¬ chosen cfg profiles p) ∨ ∃ p, chosen cfg profiles p ∧ relocate p cat = none := by
  unfold relocateCatalog
  rw [hcat]
  simp only [Outcome.bind_ok]
  by_cases hn : cfg.forceProfile = ""
  · rw [if_pos hn]
    exact ⟨fun _ => .inr (.inl (fun p h => h.1 hn)), fun _ => rfl⟩
  · rw [if_neg hn]
    cases hf : profiles.find? (fun p => p.name = cfg.forceProfile) with
    | none => exact ⟨fun _ => .inr (.inl (fun p h => by have := h.2; rw [hf] at this; cases this)), fun _ => rfl⟩
    | some p =>
      have hch : chosen cfg profiles p := ⟨hn, hf⟩
      have huniq : ∀ q, chosen cfg profiles q → q = p := by
        intro q hq
        have := hq.2
        rw [hf] at this
        exact (Option.some.inj this).symm
      by_cases he : isEmpty cat = true
      · simp [he]
      · simp only [he]
        cases hrel : relocate p cat with
        | none => exact ⟨fun _ => .inr (.inr ⟨p, hch, hrel⟩), fun _ => rfl⟩
        | some r =>
          constructor
          · intro h
            exfalso
            cases hx : o.xmlout with
            | false => simp [hx] at h
            | true =>
              simp only [hx, if_true, Bool.false_eq_true, if_false] at h
              cases hxs : eventsToOrigins cfg w p idmap r fresh 0 r.eventsSorted with
              | ok xs => rw [hxs] at h; cases h
              | throws => rw [hxs] at h; cases h
              | ub => rw [hxs] at h; cases h
          · rintro (h | h | ⟨q, h1, h2⟩)
            · cases h
            · exact absurd hch (h p)
            · rw [huniq q h1, hrel] at h2; cases h2

/-! ## where the catalog comes from -/

theorem tokens_item {x : Str} (h : Item x) : tokens x = [x] := tokens_commaSeparated (xs := [x]) (by simp) (by simpa using h)

/-- **C92c** A catalog given as a file of origin ids has exactly one event for every origin that is named in the file, found and has
arrivals, and each event knows this origin. -/
theorem catalog_of_ids {w : World} {rnd : ℚ → ℚ} {files : Str → Option Str} {path text : Str} (hpath : Item path)
    (hf : files path = some text) {rows : List (AMap Str Str)} (hrows : Csv.readWithHeader text = .ok rows)
    (hcol : ∀ row ∈ rows, (row.find? "origin".toList).isSome = true) (hroom : rows.length < uintMod) {cat : Catalog Num}
    {idmap : AMap Nat SeisComP.Origin} (h : getCatalog w rnd files path = .ok (cat, idmap)) (hne : isEmpty cat = false) :
    Catalog.Sound cat ∧ ∃ ids : List Nat, ids.Nodup ∧ (∀ k, (cat.events.find? k).isSome ↔ k ∈ ids) ∧
      List.Forall₂ (fun id org => idmap.find? id = some org ∧
          SeisComP.OriginAdded w.query (some w.cache) w.eventParameters w.inventory [] org id cat) ids
        ((((rows.filterMap (fun row => row.find? "origin".toList)).filterMap
          (fun id => originOf (some w.cache) w.eventParameters (String.ofList id))).map (loaded w.query)).filter (fun org => org.arrivals ≠ [])) := by
  have hempty : isEmpty (Catalog.init : Catalog Num) = true := rfl
  unfold getCatalog at h
  rw [tokens_item hpath] at h
  simp only [hf, World.source] at h
  rw [((SeisComP.add_origin_file w.query (some w.cache) w.eventParameters w.inventory w.rawEvent w.rawPhase (Catalog.init, [])).2 text rows
    hrows).2 hcol] at h
  set origins := (rows.filterMap (fun row => row.find? "origin".toList)).filterMap
    (fun id => originOf (some w.cache) w.eventParameters (String.ofList id)) with ho
  have hlen : origins.length ≤ rows.length := (List.length_filterMap_le _ _).trans (List.length_filterMap_le _ _)
  have hsi : Catalog.Sound (Catalog.init : Catalog Num) := ⟨Catalog.WF.init, by simp [Catalog.init], by simp [Catalog.init]⟩
  have hmax : (Catalog.init : Catalog Num).maxKey = 0 := rfl
  cases hadd : SeisComP.addToCatalog (SeisComP.DataSource.ofAll w.query (some w.cache) w.eventParameters) w.inventory w.rawEvent w.rawPhase
      origins (Catalog.init, []) with
  | throws => rw [hadd] at h; cases h; cases hne
  | ub => rw [hadd] at h; cases h
  | ok res =>
    rw [hadd] at h
    cases h
    obtain ⟨h1, ids, h2, h3, h4, h5, h6⟩ := SeisComP.add_origins origins hsi (by rw [hmax]; omega) hadd
    refine ⟨h1.sound, ids, h2, fun k => ⟨fun hk => (h4 k hk).resolve_left (by simp [Catalog.init]), fun hk => ?_⟩, h6⟩
    obtain ⟨i, hi, rfl⟩ := List.getElem_of_mem hk
    rw [List.forall₂_iff_get] at h6
    obtain ⟨e, he, -⟩ := (h6.2 i hi (by rw [← h6.1]; exact hi)).2.event
    rw [List.get_eq_getElem] at he
    rw [he]; rfl

/-- **C92d** A catalog given as three files has no source origins; a file that does not exist is refused, and so is a number of
files other than one or three. -/
theorem catalog_of_files {w : World} {rnd : ℚ → ℚ} {files : Str → Option Str} {names : List Str} (hne : names ≠ [])
    (hi : ∀ x ∈ names, Item x) :
    (∀ a b c cat station event phase, names = [a, b, c] → files a = some station → files b = some event → files c = some phase →
      CatalogFile.read rnd false w.rawEvent w.rawPhase { station, event, phase } = .ok cat →
      getCatalog w rnd files (commaSeparated names) = .ok (cat, [])) ∧
    (∀ x ∈ names, files x = none → getCatalog w rnd files (commaSeparated names) = .ok (Catalog.init, [])) ∧
    (names.length ≠ 1 → names.length ≠ 3 → getCatalog w rnd files (commaSeparated names) = .ok (Catalog.init, [])) := by
  unfold getCatalog
  rw [tokens_commaSeparated hne hi]
  refine ⟨?_, ?_, ?_⟩
  · intro a b c cat station event phase hn ha hb hc hr
    rw [hn]
    simp only [CatalogFile.readNamed, ha, hb, hc, hr, Outcome.bind_ok]
  · intro x hx hf
    match names, hx with
    | [a], hx =>
      rw [List.mem_singleton] at hx
      subst hx
      simp only [hf, SeisComP.addIdFile]
    | [_, _], _ => rfl
    | [a, b, c], hx =>
      have : CatalogFile.readNamed rnd false w.rawEvent w.rawPhase files a b c = .throws := by
        unfold CatalogFile.readNamed
        simp only [List.mem_cons, List.not_mem_nil, or_false] at hx
        rcases hx with rfl | rfl | rfl
        · rw [hf]
        · rw [hf]; cases files a <;> rfl
        · rw [hf]; cases files a <;> cases files b <;> rfl
      simp only [this]
      rfl
    | _ :: _ :: _ :: _ :: _, _ => rfl
  · intro h1 h3
    match names, h1, h3 with
    | [], _, _ => rfl
    | [_], h, _ => exact absurd rfl h
    | [_, _], _, _ => rfl
    | [_, _, _], _, h => exact absurd rfl h
    | _ :: _ :: _ :: _ :: _, _, _ => rfl

/-! ## what does not hold -/

theorem event_unused (cfg : Config) {w : World} (horder : ∀ l, (w.order l).Perm l) (p : Profile) (idmap : AMap Nat SeisComP.Origin)
    {r : Catalog Num} (hr : Catalog.Sound r) {fresh : Nat → String} (hid : Ids (some w.cache) w.eventParameters fresh) {k : Nat}
    {e : Event Num} (he : r.events.find? k = some e) (hu : ∀ ph ∈ r.phasesOf k, ph.isRelocated = false) :
    eventToOrigin cfg w p idmap r fresh e = .ub := by
  have hek := (hr.eventKey _ _ he).1
  obtain ⟨c, h1, h2, h3, h4, h5⟩ := extract_one hr he
  have hperm : (w.order (c.phasesOf e.id)).Perm (c.phasesOf e.id) := horder _
  unfold eventToOrigin
  rw [h1]
  simp only [Outcome.bind_ok, World.source]
  exact SeisComP.no_used_phase_ub (q := w.query) hid h2 h3 hperm
    (fun ph hp => hu ph (by rw [← hek, ← h4]; exact hperm.mem_iff.1 hp)) _ _ _ _ _ _ _ _

/-- A relocated catalog with an event none of whose phases was used, for example one without neighbours, cannot be written as XML:
the nearest of no stations is read. -/
theorem unused_event_ub {cfg : Config} {w : World} (horder : ∀ l, (w.order l).Perm l) {rnd : ℚ → ℚ} {files : Str → Option Str}
    {profiles : List Profile} {relocate : Profile → Catalog Num → Option (Catalog Num)} {fresh : Nat → Nat → String}
    (hid : ∀ i, Ids (some w.cache) w.eventParameters (fresh i)) {o : Options} (hx : o.xmlout = true)
    {cat : Catalog Num} {idmap : AMap Nat SeisComP.Origin} (hcat : getCatalog w rnd files o.relocateCatalog = .ok (cat, idmap))
    (hne : isEmpty cat = false) {p : Profile} (hp : chosen cfg profiles p) {r : Catalog Num} (hrel : relocate p cat = some r)
    (hr : Catalog.Sound r) (hd : ∀ k, (r.phasesOf k).Pairwise Different)
    (hu : ∃ k, (r.events.find? k).isSome ∧ ∀ ph ∈ r.phasesOf k, ph.isRelocated = false) :
    relocateCatalog cfg w rnd files profiles relocate fresh o = .ub := by
  obtain ⟨f1, f2, f3, f4⟩ := Catalog.eventsSorted_facts hr.toWF
  have key : ∀ (kvs : List (Nat × Event Num)) (i : Nat), (∀ kv ∈ kvs, r.events.find? kv.1 = some kv.2) →
      (∃ kv ∈ kvs, ∀ ph ∈ r.phasesOf kv.1, ph.isRelocated = false) → eventsToOrigins cfg w p idmap r fresh i kvs = .ub := by
    intro kvs
    induction kvs with
    | nil => rintro i - ⟨kv, hkv, -⟩; cases hkv
    | cons kv kvs ih =>
      intro i h1 h2
      unfold eventsToOrigins
      by_cases hc : ∃ ph ∈ r.phasesOf kv.1, ph.isRelocated = true
      · obtain ⟨x, g1, -⟩ := event_converted cfg horder p idmap hr (hid i) (h1 kv (by simp)) ⟨hd kv.1, hc⟩
        rw [g1]
        simp only [Outcome.bind_ok]
        rw [ih (i + 1) (fun a ha => h1 a (by simp [ha]))]
        · rfl
        · obtain ⟨kv', hk, hf⟩ := h2
          rcases List.mem_cons.1 hk with rfl | hk
          · obtain ⟨ph, g2, g3⟩ := hc
            rw [hf ph g2] at g3; cases g3
          · exact ⟨kv', hk, hf⟩
      · rw [event_unused cfg horder p idmap hr (hid i) (h1 kv (by simp))
          (fun ph hph => by cases hb : ph.isRelocated with | false => rfl | true => exact absurd ⟨ph, hph, hb⟩ hc)]
        rfl
  unfold relocateCatalog
  rw [hcat]
  simp only [Outcome.bind_ok]
  rw [if_neg hp.1, hp.2]
  obtain ⟨k, hk, hf⟩ := hu
  obtain ⟨e, he⟩ := Option.isSome_iff_exists.1 hk
  simp only [hne, hrel, hx, key r.eventsSorted 0 f2 ⟨(k, e), f3 k e he, hf⟩, Bool.false_eq_true, if_false, if_true]
  rfl

namespace CatalogExample
open Verif.Daemon.Example (cfg world south all moved xcorr)
open SeisComP.Example (org cch fresh ids)

/-- the origin `o1` is known -/
def here : World := { world with cache := { cch with origins := fun id => if id = "o1" then some org else none } }

theorem here_ids : ∀ _ : Nat, Ids (some here.cache) here.eventParameters fresh := fun _ => ⟨ids.publicID, ids.new, ids.injective⟩

/-- an origin that is found and one that is not -/
def files (name : Str) : Option Str := if name = "ids.csv".toList then some "origin,x\no1,1\no2,2".toList else none

def options : Options := { relocateCatalog := "ids.csv".toList, xmlout := true }

def withProfile : Config := { cfg with forceProfile := "all" }

def cat : Outcome (Catalog Num × AMap Nat SeisComP.Origin) := getCatalog here id files options.relocateCatalog

/-- the relocation that uses all phases -/
def works (_ : Profile) (c : Catalog Num) : Option (Catalog Num) := some (moved 7 c xcorr)

/-- what is written: one origin with two arrivals that comes from `o1` -/
example : (relocateCatalog withProfile here id files [south, all] works (fun _ => fresh) options >>= fun xs =>
      .ok (xs.map (·.map (fun x => (x.1.depth, x.1.sourceOrigin, x.1.arrivals.length))))) =
    Outcome.ok (some [(.num 7, some "o1", 2)]) := by decide +kernel

/-- if nothing was relocated the program goes wrong -/
example : relocateCatalog withProfile here id files [south, all] (fun _ c => some c) (fun _ => fresh) options = .ub := by
  have h : (relocateCatalog withProfile here id files [south, all] (fun _ c => some c) (fun _ => fresh) options >>= fun _ => .ok ()) = .ub := by
    decide +kernel
  cases hr : relocateCatalog withProfile here id files [south, all] (fun _ c => some c) (fun _ => fresh) options with
  | ub => rfl
  | ok _ => rw [hr] at h; cases h
  | throws => rw [hr] at h; cases h

/-- the hypotheses of `relocated_catalog_xml` are met -/
example : ∃ c m r, getCatalog here id files options.relocateCatalog = .ok (c, m) ∧ isEmpty c = false ∧ chosen withProfile [south, all] all ∧
    works all c = some r ∧ Catalog.Sound r ∧ (∀ k, (r.events.find? k).isSome → Convertible r k) ∧ r.events.length = 1 ∧
    (∀ l, (here.order l).Perm l) ∧ Item options.relocateCatalog := by
  have hch : chosen withProfile [south, all] all := ⟨by decide +kernel, rfl⟩
  cases hc : cat with
  | throws =>
    have : (cat >>= fun r => .ok r.2.keys) = Outcome.ok [1] := by decide +kernel
    rw [hc] at this; cases this
  | ub =>
    have : (cat >>= fun r => .ok r.2.keys) = Outcome.ok [1] := by decide +kernel
    rw [hc] at this; cases this
  | ok x =>
    have hk : (cat >>= fun r => .ok (isEmpty r.1, MergeExample.check (moved 7 r.1 xcorr), (moved 7 r.1 xcorr).events.keys,
        decide (((moved 7 r.1 xcorr).phasesOf 1).Pairwise Different))) = Outcome.ok (false, true, [1], true) := by decide +kernel
    have hu : (cat >>= fun r => .ok (((moved 7 r.1 xcorr).phasesOf 1).any (·.isRelocated))) = Outcome.ok true := by decide +kernel
    rw [hc] at hk hu
    simp only [Outcome.bind_ok, Outcome.ok.injEq, Prod.mk.injEq, decide_eq_true_eq, List.any_eq_true] at hk hu
    obtain ⟨k1, k2, k3, k4⟩ := hk
    refine ⟨x.1, x.2, moved 7 x.1 xcorr, hc, k1, hch, rfl, MergeExample.sound_of_check k2, ?_, ?_, fun l => List.Perm.refl l,
      by decide +kernel, by decide +kernel⟩
    · intro k hk
      rw [AMap.find?_isSome, k3, List.mem_singleton] at hk
      subst hk
      exact ⟨k4, hu⟩
    · rw [← List.length_map (f := Prod.fst)]
      exact congrArg List.length k3

/-- the hypotheses of `catalog_of_ids` are met -/
example : ∃ rows, Csv.readWithHeader "origin,x\no1,1\no2,2".toList = .ok rows ∧ rows.length < uintMod ∧
    ∀ row ∈ rows, (row.find? "origin".toList).isSome = true := by
  refine ⟨[[("x".toList, "1".toList), ("origin".toList, "o1".toList)], [("x".toList, "2".toList), ("origin".toList, "o2".toList)]], ?_, ?_, ?_⟩ <;>
    decide +kernel

end CatalogExample

end Verif.CommandLine
