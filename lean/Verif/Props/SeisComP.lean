import Verif.Spec.SeisComP
import Verif.Spec.Catalog
import Verif.Proofs.Catalog

/-!
# C76: origins added to a catalog
-/

set_option linter.unusedSimpArgs false

namespace Verif.SeisComP
open Verif.Catalog Verif.Catalog.Catalog Spec

theorem getPick_ofAll (q : Option Query) (c : Option ObjCache) (e : Option EventParameters) (id : String) :
    (DataSource.ofAll q c e).getPick id = .ok (pickOf c e id) := by
  unfold DataSource.getPick DataSource.getObject DataSource.ofAll pickOf
  cases c <;> cases e <;> simp only [Ptr.ofOption, Ptr.get, Outcome.bind_ok, Option.bind_none, Option.bind_some] <;>
    first | rfl | (rename_i a; cases a.picks id <;> rfl) | (rename_i a b; cases b.picks id <;> rfl)

theorem loadArrivals_ofAll (q : Option Query) (c : Option ObjCache) (e : Option EventParameters) (org : Origin) :
    (DataSource.ofAll q c e).loadArrivals org = .ok (loaded q org) := by
  unfold DataSource.loadArrivals DataSource.ofAll loaded
  cases q with
  | none => rfl
  | some q =>
    show Outcome.ok (if org.arrivals.length = 0 then _ else _) = _
    by_cases h : org.arrivals = []
    · simp [h]
    · simp [h]

/-- the magnitude the adapter looks up -/
theorem magnitude_ofAll (q : Option Query) (c : Option ObjCache) (e : Option EventParameters) (org : Origin) :
    ((DataSource.ofAll q c e).getParentEvent org.publicID >>= preferredMagnitude (DataSource.ofAll q c e)) =
      .ok (magnitudeOf q c e org) := by
  have h1 : (DataSource.ofAll q c e).getParentEvent org.publicID = .ok
      ((e.bind (fun ep => ep.events.find? (fun ev => org.publicID ∈ ev.originReferences))).or
        (q.bind (fun q => q.event org.publicID))) := by
    have hp : ∀ ep : EventParameters, ep.events.find? (fun ev => ev.originReferences.any (fun ref => ref = org.publicID)) =
        ep.events.find? (fun ev => org.publicID ∈ ev.originReferences) := by
      intro ep
      congr 1
      funext ev
      rw [Bool.eq_iff_iff]
      simp
    unfold DataSource.getParentEvent DataSource.ofAll
    cases q <;> cases e <;> simp only [Ptr.ofOption, Ptr.get, Outcome.bind_ok, Option.bind_none, Option.bind_some, hp] <;>
      first | rfl | (
        congr 1
        rename_i ep
        cases ep.events.find? (fun ev => org.publicID ∈ ev.originReferences) <;> rfl)
  have h2 : ∀ id, (DataSource.ofAll q c e).getMagnitude id = .ok (c.bind (·.magnitudes id)) := by
    intro id
    unfold DataSource.getMagnitude DataSource.getObject DataSource.ofAll
    cases c <;> cases e <;> rfl
  rw [h1]
  simp only [Outcome.bind_ok]
  unfold magnitudeOf
  generalize ((e.bind (fun ep => ep.events.find? (fun ev => org.publicID ∈ ev.originReferences))).or
        (q.bind (fun q => q.event org.publicID))) = o
  cases o with
  | none => rfl
  | some ev => exact h2 _

theorem discarded_iff (pick : Pick) (arr : Arrival) : discarded pick arr = true ↔ Unused arr pick := by
  unfold discarded Unused
  cases pick.manual with
  | none => simp
  | some m =>
    cases m with
    | true => simp
    | false =>
      cases hw : arr.weight with
      | none => simp
      | some w =>
        by_cases h0 : w = .num 0
        · simp [h0]
        · cases arr.timeUsed with
          | none => simp [h0]
          | some b => cases b <;> simp [h0]

theorem phaseFrom_spec (v : Phase Num) (id : Nat) (pick : Pick) (arr : Arrival) :
    PhaseFrom id (arr, pick) (phaseFrom v id (stationIdOf pick.networkCode pick.stationCode pick.locationCode) pick arr) where
  eventId := rfl
  stationId := rfl
  time := rfl
  type := rfl
  codes := ⟨rfl, rfl, rfl, rfl⟩
  symmetric := by intro u h; simp only at h; simp [phaseFrom, getPickUncertainty, h]
  asymmetric := by intro l u h h1 h2; simp only at h h1 h2; simp [phaseFrom, getPickUncertainty, h, h1, h2]
  unknown := by intro h h1 h2; simp only at h h1 h2; simp [phaseFrom, getPickUncertainty, h, h1, h2]
  isRelocated := rfl

/-- the station of a pick, when it becomes known -/
theorem withStation_spec {inv : Inventory} {cat : Catalog Num} (h : WF cat) {pick : Pick} {o : Option (Catalog Num)}
    (ho : withStation inv cat pick = .ok o) :
    (o = none → cat.stations.find? (stationIdOf pick.networkCode pick.stationCode pick.locationCode) = none ∧
      inv pick.networkCode pick.stationCode pick.locationCode pick.time = none) ∧
    ∀ c, o = some c → WF c ∧ c.events = cat.events ∧ c.phases = cat.phases ∧
      (∃ s, c.stations.find? (stationIdOf pick.networkCode pick.stationCode pick.locationCode) = some s ∧
        s.id = stationIdOf pick.networkCode pick.stationCode pick.locationCode) ∧
      (∀ k s, cat.stations.find? k = some s → c.stations.find? k = some s) ∧
      (∀ k s, c.stations.find? k = some s → cat.stations.find? k = some s ∨ FromInventory inv s) := by
  unfold withStation at ho
  cases hf : cat.stations.find? (stationIdOf pick.networkCode pick.stationCode pick.locationCode) with
  | some s =>
    rw [hf] at ho
    simp only [Outcome.ok.injEq] at ho
    subst ho
    refine ⟨fun h => (by cases h), ?_⟩
    rintro c hc
    cases hc
    exact ⟨h, rfl, rfl, ⟨s, hf, (h.stationKey _ _ hf).1⟩, fun _ _ h => h, fun _ _ h => .inl h⟩
  | none =>
    rw [hf] at ho
    simp only at ho
    cases hi : inv pick.networkCode pick.stationCode pick.locationCode pick.time with
    | none =>
      rw [hi] at ho
      simp only [Outcome.ok.injEq] at ho
      subst ho
      exact ⟨fun _ => ⟨rfl, rfl⟩, fun c hc => (by cases hc)⟩
    | some loc =>
      rw [hi] at ho
      simp only at ho
      obtain ⟨la, lo, el⟩ := loc
      cases la with
      | none => simp [Outcome.ofOption] at ho
      | some la =>
        cases lo with
        | none => simp [Outcome.ofOption] at ho
        | some lo =>
          cases el with
          | none => simp [Outcome.ofOption] at ho
          | some el =>
            simp only [Outcome.ofOption, Outcome.bind_ok, Outcome.ok.injEq] at ho
            subst ho
            refine ⟨fun h => (by cases h), ?_⟩
            rintro c hc
            cases hc
            refine ⟨h.addStation _, by simp, by simp, ?_, ?_, ?_⟩
            · exact ⟨_, by rw [addStation_find, hf, if_pos rfl]; rfl, rfl⟩
            · intro k s hk
              rw [addStation_find, hk]; rfl
            · intro k s hk
              rw [addStation_find] at hk
              cases hc : cat.stations.find? k with
              | some s' => rw [hc] at hk; exact .inl hk
              | none =>
                rw [hc] at hk
                simp only [Option.none_or] at hk
                split at hk
                · cases hk
                  exact .inr ⟨pick.time, _, hi, rfl, rfl, rfl⟩
                · cases hk

/-- the effect of a list of arrivals -/
theorem addArrivals_spec {q : Option Query} {cch : Option ObjCache} {ep : Option EventParameters} {inv : Inventory} {v : Phase Num}
    {id : Nat} : ∀ (arrs : List Arrival) {cat cat' : Catalog Num}, WF cat →
    addArrivals (DataSource.ofAll q cch ep) inv v id arrs cat = .ok cat' →
    WF cat' ∧ cat'.events = cat.events ∧
      (∀ k s, cat.stations.find? k = some s → cat'.stations.find? k = some s) ∧
      (∀ k s, cat'.stations.find? k = some s → cat.stations.find? k = some s ∨ FromInventory inv s) ∧
      ∃ l phs, l.Sublist (picked (pickOf cch ep) arrs) ∧ cat'.phases = cat.phases ++ phs.map (fun p => (id, p)) ∧
        List.Forall₂ (PhaseFrom id) l phs ∧
        (∀ x ∈ l, ¬ Unused x.1 x.2) ∧
        (∀ p ∈ phs, (cat'.stations.find? p.stationId).isSome) ∧
        (∀ x ∈ picked (pickOf cch ep) arrs, ¬ Unused x.1 x.2 →
          ((cat.stations.find? (stationIdOf x.2.networkCode x.2.stationCode x.2.locationCode)).isSome ∨
            (inv x.2.networkCode x.2.stationCode x.2.locationCode x.2.time).isSome) → x ∈ l)
  | [], cat, cat', hw, h => by
    simp only [addArrivals, Outcome.ok.injEq] at h
    subst h
    exact ⟨hw, rfl, fun _ _ h => h, fun _ _ h => .inl h, [], [], List.Sublist.refl _, by simp, .nil, by simp, by simp,
      by simp [picked]⟩
  | arr :: arrs, cat, cat', hw, h => by
    simp only [addArrivals, addArrival, getPick_ofAll, Outcome.bind_ok] at h
    cases hp : pickOf cch ep arr.pickID with
    | none =>
      rw [hp] at h
      simp only [Outcome.bind_ok] at h
      obtain ⟨h1, h2, h3, h4, l, phs, h5⟩ := addArrivals_spec arrs hw h
      have e : picked (pickOf cch ep) (arr :: arrs) = picked (pickOf cch ep) arrs := by simp [picked, hp]
      rw [e]
      exact ⟨h1, h2, h3, h4, l, phs, h5⟩
    | some pick =>
      rw [hp] at h
      simp only at h
      have e : picked (pickOf cch ep) (arr :: arrs) = (arr, pick) :: picked (pickOf cch ep) arrs := by simp [picked, hp]
      rw [e]
      by_cases hd : discarded pick arr = true
      · rw [if_pos hd] at h
        simp only [Outcome.bind_ok] at h
        obtain ⟨h1, h2, h3, h4, l, phs, h5, h6, h7, h8, h9, h10⟩ := addArrivals_spec arrs hw h
        refine ⟨h1, h2, h3, h4, l, phs, h5.cons _, h6, h7, h8, h9, ?_⟩
        intro x hx hu hk
        rcases List.mem_cons.1 hx with rfl | hx
        · exact absurd ((discarded_iff pick arr).1 hd) hu
        · exact h10 x hx hu hk
      · rw [if_neg hd] at h
        cases hs : withStation inv cat pick with
        | throws => rw [hs] at h; cases h
        | ub => rw [hs] at h; cases h
        | ok o =>
          rw [hs] at h
          simp only [Outcome.bind_ok] at h
          obtain ⟨w1, w2⟩ := withStation_spec hw hs
          cases o with
          | none =>
            simp only [Outcome.bind_ok] at h
            obtain ⟨h1, h2, h3, h4, l, phs, h5, h6, h7, h8, h9, h10⟩ := addArrivals_spec arrs hw h
            refine ⟨h1, h2, h3, h4, l, phs, h5.cons _, h6, h7, h8, h9, ?_⟩
            intro x hx hu hk
            rcases List.mem_cons.1 hx with rfl | hx
            · obtain ⟨a, b⟩ := w1 rfl
              rw [a, b] at hk
              simp at hk
            · exact h10 x hx hu hk
          | some c =>
            obtain ⟨c1, c2, c3, ⟨s, c4, c5⟩, c6, c7⟩ := w2 c rfl
            simp only [c4, Outcome.bind_ok] at h
            obtain ⟨h1, h2, h3, h4, l, phs, h5, h6, h7, h8, h9, h10⟩ := addArrivals_spec arrs (c1.addPhase _) h
            refine ⟨h1, by rw [h2]; exact c2, fun k s hk => h3 k s (c6 k s hk), ?_, (arr, pick) :: l,
              phaseFrom v id s.id pick arr :: phs, h5.cons_cons _, ?_, ?_, ?_, ?_, ?_⟩
            · intro k s hk
              rcases h4 k s hk with h | h
              · exact c7 k s h
              · exact .inr h
            · rw [h6]
              show (c.phases ++ [(id, phaseFrom v id s.id pick arr)]) ++ _ = _
              rw [c3]; simp
            · refine .cons ?_ h7
              rw [c5]; exact phaseFrom_spec v id pick arr
            · intro x hx
              rcases List.mem_cons.1 hx with rfl | hx
              · exact fun hu => hd ((discarded_iff pick arr).2 hu)
              · exact h8 x hx
            · intro p hp
              rcases List.mem_cons.1 hp with rfl | hp
              · show (cat'.stations.find? s.id).isSome = true
                rw [c5, h3 _ s c4]; rfl
              · exact h9 p hp
            · intro x hx hu hk
              rcases List.mem_cons.1 hx with rfl | hx
              · simp
              · refine List.mem_cons.2 (.inr (h10 x hx hu ?_))
                rcases hk with hk | hk
                · obtain ⟨s', hs'⟩ := Option.isSome_iff_exists.1 hk
                  exact .inl (by show (c.stations.find? _).isSome = true; rw [c6 _ _ hs']; rfl)
                · exact .inr hk

/-- what one origin adds to a catalog -/
structure OriginAdded (q : Option Query) (cch : Option ObjCache) (ep : Option EventParameters) (inv : Inventory)
    (known : AMap String (Station Num)) (org : Origin) (id : Nat) (cat' : Catalog Num) : Prop where
  event : ∃ e, cat'.events.find? id = some e ∧ EventFrom (magnitudeOf q cch ep org) org e
  phases : ∃ l, l.Sublist (picked (pickOf cch ep) org.arrivals) ∧
    List.Forall₂ (PhaseFrom id) l (cat'.phasesOf id) ∧ (∀ x ∈ l, ¬ Unused x.1 x.2) ∧
    ∀ x ∈ picked (pickOf cch ep) org.arrivals, ¬ Unused x.1 x.2 →
      ((known.find? (stationIdOf x.2.networkCode x.2.stationCode x.2.locationCode)).isSome ∨
        (inv x.2.networkCode x.2.stationCode x.2.locationCode x.2.time).isSome) → x ∈ l

/-- what stays in the catalog -/
structure Keeps (inv : Inventory) (cat cat' : Catalog Num) : Prop where
  sound : Sound cat'
  events : ∀ k e, cat.events.find? k = some e → cat'.events.find? k = some e ∧ cat'.phasesOf k = cat.phasesOf k
  stations : ∀ k s, cat.stations.find? k = some s → cat'.stations.find? k = some s
  newStations : ∀ k s, cat'.stations.find? k = some s → cat.stations.find? k = some s ∨ FromInventory inv s

theorem addOrigin_spec {q : Option Query} {cch : Option ObjCache} {ep : Option EventParameters} {inv : Inventory} {u : Event Num}
    {v : Phase Num} {org : Origin} {cat cat' : Catalog Num} {m m' : AMap Nat Origin} (hs : Sound cat) (hroom : cat.maxKey + 1 < uintMod)
    (h : addOrigin (DataSource.ofAll q cch ep) inv u v org (cat, m) = .ok (cat', m')) :
    ((loaded q org).arrivals = [] → cat' = cat ∧ m' = m) ∧
    ((loaded q org).arrivals ≠ [] → m' = m.set (cat.maxKey + 1) (loaded q org) ∧ Keeps inv cat cat' ∧
      cat.events.find? (cat.maxKey + 1) = none ∧ cat'.maxKey ≤ cat.maxKey + 1 ∧
      (∀ k, (cat'.events.find? k).isSome → (cat.events.find? k).isSome ∨ k = cat.maxKey + 1) ∧
      OriginAdded q cch ep inv cat.stations (loaded q org) (cat.maxKey + 1) cat') := by
  unfold addOrigin at h
  rw [loadArrivals_ofAll] at h
  simp only [Outcome.bind_ok] at h
  by_cases hl : (loaded q org).arrivals.length = 0
  · rw [if_pos hl] at h
    simp only [Outcome.ok.injEq, Prod.mk.injEq] at h
    exact ⟨fun _ => ⟨h.1.symm, h.2.symm⟩, fun hn => absurd (List.length_eq_zero_iff.1 hl) hn⟩
  · rw [if_neg hl] at h
    refine ⟨fun hn => absurd (by rw [hn]; rfl) hl, fun _ => ?_⟩
    cases hd : (loaded q org).depth with
    | none => rw [hd] at h; cases h
    | some depth =>
      rw [hd] at h
      simp only [Outcome.ofOption, Outcome.bind_ok] at h
      have hm := magnitude_ofAll q cch ep (loaded q org)
      cases hp : (DataSource.ofAll q cch ep).getParentEvent (loaded q org).publicID with
      | throws => rw [hp] at h; cases h
      | ub => rw [hp] at h; cases h
      | ok parent =>
        rw [hp] at h hm
        simp only [Outcome.bind_ok] at h hm
        rw [hm] at h
        simp only [Outcome.bind_ok] at h
        obtain ⟨a1, a2⟩ := addEvent_false cat { u with id := 0, time := (loaded q org).time, latitude := (loaded q org).latitude, longitude := (loaded q org).longitude, depth := depth, magnitude := (magnitudeOf q cch ep (loaded q org)).getD .nan, isRelocated := false } hroom
        rw [a1] at h
        simp only [Outcome.bind_ok] at h
        generalize hev : ({ u with id := cat.maxKey + 1, time := (loaded q org).time, latitude := (loaded q org).latitude, longitude := (loaded q org).longitude, depth := depth, magnitude := (magnitudeOf q cch ep (loaded q org)).getD .nan, isRelocated := false } : Event Num) = ev at h
        have hw : WF ({ cat with events := cat.events.set (cat.maxKey + 1) ev } : Catalog Num) := by
          have := hs.toWF.setEvent ev (by subst hev; exact hroom)
          subst hev; exact this
        cases hadd : addArrivals (DataSource.ofAll q cch ep) inv v (cat.maxKey + 1) (loaded q org).arrivals
            { cat with events := cat.events.set (cat.maxKey + 1) ev } with
        | throws => rw [hadd] at h; cases h
        | ub => rw [hadd] at h; cases h
        | ok c =>
          rw [hadd] at h
          simp only [Outcome.bind_ok, Outcome.ok.injEq, Prod.mk.injEq] at h
          obtain ⟨rfl, rfl⟩ := h
          obtain ⟨w1, w2, w3, w4, l, phs, w5, w6, w7, w8, w9, w10⟩ := addArrivals_spec _ hw hadd
          have hno : ∀ kp ∈ cat.phases, kp.1 ≠ cat.maxKey + 1 := by
            intro kp hk he
            have := hs.phaseEvent kp hk
            rw [he, a2] at this; cases this
          have hevs : ∀ k, c.events.find? k = if k = cat.maxKey + 1 then some ev else cat.events.find? k := by
            intro k; rw [w2]; exact AMap.find?_set _ _ _ _
          refine ⟨rfl, ⟨⟨w1, ?_, ?_⟩, ?_, w3, w4⟩, a2, ?_, ?_, ⟨ev, ?_, ?_⟩, l, w5, ?_, w8, w10⟩
          · intro kp hk
            rw [w6, List.mem_append] at hk
            rw [hevs]
            rcases hk with hk | hk
            · rw [if_neg (hno kp hk)]; exact hs.phaseEvent kp hk
            · obtain ⟨p, -, rfl⟩ := List.mem_map.1 hk
              simp
          · intro kp hk
            rw [w6, List.mem_append] at hk
            rcases hk with hk | hk
            · obtain ⟨s, hs'⟩ := Option.isSome_iff_exists.1 (hs.phaseStation kp hk)
              rw [w3 _ _ hs']; rfl
            · obtain ⟨p, hp, rfl⟩ := List.mem_map.1 hk
              exact w9 p hp
          · intro k e hk
            have hne : k ≠ cat.maxKey + 1 := by rintro rfl; rw [a2] at hk; cases hk
            refine ⟨by rw [hevs, if_neg hne]; exact hk, ?_⟩
            unfold phasesOf
            rw [w6, List.filter_append]
            have : ((phs.map (fun p => (cat.maxKey + 1, p))).filter (fun kp => decide (kp.1 = k))) = [] := by
              rw [List.filter_eq_nil_iff]
              intro kp hkp
              obtain ⟨p, -, rfl⟩ := List.mem_map.1 hkp
              simp [Ne.symm hne]
            rw [this, List.append_nil]
          · show c.events.keys.foldl max 0 ≤ _
            apply foldl_max_le
            · omega
            · intro k hk
              rw [← AMap.find?_isSome, hevs] at hk
              by_cases hkk : k = cat.maxKey + 1
              · omega
              · rw [if_neg hkk] at hk
                obtain ⟨e, he⟩ := Option.isSome_iff_exists.1 hk
                have := le_maxKey he
                omega
          · intro k hk
            rw [hevs] at hk
            by_cases hkk : k = cat.maxKey + 1
            · exact .inr hkk
            · rw [if_neg hkk] at hk; exact .inl hk
          · rw [hevs, if_pos rfl]
          · subst hev
            exact ⟨rfl, rfl, rfl, hd, rfl, rfl⟩
          · have : c.phasesOf (cat.maxKey + 1) = phs := by
              unfold phasesOf
              rw [w6, List.filter_append]
              have e1 : cat.phases.filter (fun kp => decide (kp.1 = cat.maxKey + 1)) = [] := by
                rw [List.filter_eq_nil_iff]
                intro kp hk
                simpa using hno kp hk
              have e2 : (phs.map (fun p => (cat.maxKey + 1, p))).filter (fun kp => decide (kp.1 = cat.maxKey + 1)) =
                  phs.map (fun p => (cat.maxKey + 1, p)) := by
                rw [List.filter_eq_self]
                intro kp hk
                obtain ⟨p, -, rfl⟩ := List.mem_map.1 hk
                simp
              rw [e1, e2]
              simp [List.map_map]
            rw [this]
            exact w7

theorem Keeps.refl {inv : Inventory} {cat : Catalog Num} (h : Sound cat) : Keeps inv cat cat :=
  ⟨h, fun _ _ h => ⟨h, rfl⟩, fun _ _ h => h, fun _ _ h => .inl h⟩

theorem Keeps.trans {inv : Inventory} {a b c : Catalog Num} (h : Keeps inv a b) (h' : Keeps inv b c) : Keeps inv a c := by
  refine ⟨h'.sound, ?_, fun k s hk => h'.stations k s (h.stations k s hk), ?_⟩
  · intro k e hk
    obtain ⟨h1, h2⟩ := h.events k e hk
    obtain ⟨h3, h4⟩ := h'.events k e h1
    exact ⟨h3, h4.trans h2⟩
  · intro k s hk
    rcases h'.newStations k s hk with h1 | h1
    · exact h.newStations k s h1
    · exact .inr h1

theorem OriginAdded.mono {q : Option Query} {cch : Option ObjCache} {ep : Option EventParameters} {inv : Inventory}
    {known known' : AMap String (Station Num)} {org : Origin} {id : Nat} {cat cat' : Catalog Num}
    (h : OriginAdded q cch ep inv known org id cat) (hk : ∀ k s, known'.find? k = some s → known.find? k = some s)
    (h' : Keeps inv cat cat') : OriginAdded q cch ep inv known' org id cat' := by
  obtain ⟨⟨e, h1, h2⟩, l, h3, h4, h5, h6⟩ := h
  obtain ⟨h7, h8⟩ := h'.events id e h1
  refine ⟨⟨e, h7, h2⟩, l, h3, by rw [h8]; exact h4, h5, ?_⟩
  intro x hx hu hkn
  refine h6 x hx hu ?_
  rcases hkn with hkn | hkn
  · obtain ⟨s, hs⟩ := Option.isSome_iff_exists.1 hkn
    exact .inl (by rw [hk _ _ hs]; rfl)
  · exact .inr hkn

/-- **C76** Adding origins to a consistent catalog, when it succeeds, gives every origin that has arrivals a new event of
its own, with the time, the location and the preferred magnitude of the origin, and phases for its arrivals: only for
picks that can be found and were not left out of the location, in their order, and for all those whose station is in the
catalog or in the inventory.  Each new id is mapped to its origin.  All other events, phases and stations stay as they
are, new stations have the coordinates of the inventory, and the catalog stays consistent. -/
theorem add_origins {q : Option Query} {cch : Option ObjCache} {ep : Option EventParameters} {inv : Inventory} {u : Event Num}
    {v : Phase Num} (origins : List Origin) {cat cat' : Catalog Num} {m m' : AMap Nat Origin} (hs : Sound cat)
    (hroom : cat.maxKey + origins.length < uintMod)
    (h : addToCatalog (DataSource.ofAll q cch ep) inv u v origins (cat, m) = .ok (cat', m')) :
    Keeps inv cat cat' ∧ ∃ ids : List Nat, ids.Nodup ∧ (∀ id ∈ ids, cat.events.find? id = none) ∧
      (∀ k, (cat'.events.find? k).isSome → (cat.events.find? k).isSome ∨ k ∈ ids) ∧
      (∀ k, k ∉ ids → m'.find? k = m.find? k) ∧
      List.Forall₂ (fun id org => m'.find? id = some org ∧ OriginAdded q cch ep inv cat.stations org id cat') ids
        ((origins.map (loaded q)).filter (fun org => org.arrivals ≠ [])) := by
  induction origins generalizing cat m with
  | nil =>
    simp only [addToCatalog, Outcome.ok.injEq, Prod.mk.injEq] at h
    obtain ⟨rfl, rfl⟩ := h
    exact ⟨.refl hs, [], List.nodup_nil, by simp, fun k h => .inl h, fun _ _ => rfl, .nil⟩
  | cons org origins ih =>
    simp only [List.length_cons] at hroom
    unfold addToCatalog at h
    cases ho : addOrigin (DataSource.ofAll q cch ep) inv u v org (cat, m) with
    | throws => rw [ho] at h; cases h
    | ub => rw [ho] at h; cases h
    | ok s =>
      obtain ⟨c1, m1⟩ := s
      rw [ho] at h
      simp only [Outcome.bind_ok] at h
      obtain ⟨p1, p2⟩ := addOrigin_spec hs (by omega) ho
      by_cases he : (loaded q org).arrivals = []
      · obtain ⟨rfl, rfl⟩ := p1 he
        obtain ⟨k1, ids, k2⟩ := ih hs (by omega) h
        refine ⟨k1, ids, ?_⟩
        have : ((org :: origins).map (loaded q)).filter (fun org => org.arrivals ≠ []) =
            (origins.map (loaded q)).filter (fun org => org.arrivals ≠ []) := by simp [he]
        rw [this]
        exact k2
      · obtain ⟨rfl, p3, p4, p5, p6, p7⟩ := p2 he
        obtain ⟨k1, ids, k2, k3, k4, k5, k6⟩ := ih p3.sound (by omega) h
        have hnew : cat.maxKey + 1 ∉ ids := by
          intro hin
          have := k3 _ hin
          obtain ⟨e, he, -⟩ := p7.event
          rw [he] at this; cases this
        refine ⟨p3.trans k1, (cat.maxKey + 1) :: ids, List.nodup_cons.2 ⟨hnew, k2⟩, ?_, ?_, ?_, ?_⟩
        · intro id hid
          rcases List.mem_cons.1 hid with rfl | hid
          · exact p4
          · cases hf : cat.events.find? id with
            | none => rfl
            | some e =>
              have := k3 id hid
              rw [(p3.events id e hf).1] at this; cases this
        · intro k hk
          rcases k4 k hk with h | h
          · rcases p6 k h with h | h
            · exact .inl h
            · exact .inr (by simp [h])
          · exact .inr (by simp [h])
        · intro k hk
          rw [List.mem_cons, not_or] at hk
          rw [k5 k hk.2, AMap.find?_set, if_neg hk.1]
        · have : ((org :: origins).map (loaded q)).filter (fun org => org.arrivals ≠ []) =
            loaded q org :: (origins.map (loaded q)).filter (fun org => org.arrivals ≠ []) := by simp [he]
          rw [this]
          refine .cons ⟨by rw [k5 _ hnew, AMap.find?_set, if_pos rfl], p7.mono (fun _ _ h => h) k1⟩ ?_
          refine k6.imp ?_
          rintro id o ⟨h1, h2⟩
          exact ⟨h1, h2.mono (fun k s hk => p3.stations k s hk) (.refl k1.sound)⟩

theorem withStation_total {inv : Inventory} {pick : Pick} (cat : Catalog Num)
    (h : ∀ loc, inv pick.networkCode pick.stationCode pick.locationCode pick.time = some loc →
      loc.latitude.isSome ∧ loc.longitude.isSome ∧ loc.elevation.isSome) :
    ∃ o, withStation inv cat pick = .ok o := by
  unfold withStation
  cases cat.stations.find? (stationIdOf pick.networkCode pick.stationCode pick.locationCode) with
  | some s => exact ⟨_, rfl⟩
  | none =>
    cases hi : inv pick.networkCode pick.stationCode pick.locationCode pick.time with
    | none => exact ⟨_, rfl⟩
    | some loc =>
      obtain ⟨h1, h2, h3⟩ := h loc hi
      obtain ⟨la, h1⟩ := Option.isSome_iff_exists.1 h1
      obtain ⟨lo, h2⟩ := Option.isSome_iff_exists.1 h2
      obtain ⟨el, h3⟩ := Option.isSome_iff_exists.1 h3
      simp only [h1, h2, h3, Outcome.ofOption, Outcome.bind_ok]
      exact ⟨_, rfl⟩

theorem addArrivals_total {q : Option Query} {cch : Option ObjCache} {ep : Option EventParameters} {inv : Inventory} {v : Phase Num}
    {id : Nat} (hinv : ∀ n s l t loc, inv n s l t = some loc → loc.latitude.isSome ∧ loc.longitude.isSome ∧ loc.elevation.isSome) :
    ∀ (arrs : List Arrival) {cat : Catalog Num}, WF cat →
      ∃ c, addArrivals (DataSource.ofAll q cch ep) inv v id arrs cat = .ok c
  | [], cat, _ => ⟨cat, rfl⟩
  | arr :: arrs, cat, hw => by
    simp only [addArrivals, addArrival, getPick_ofAll, Outcome.bind_ok]
    cases pickOf cch ep arr.pickID with
    | none => exact addArrivals_total hinv arrs hw
    | some pick =>
      simp only
      by_cases hd : discarded pick arr = true
      · rw [if_pos hd]; exact addArrivals_total hinv arrs hw
      · rw [if_neg hd]
        obtain ⟨o, ho⟩ := withStation_total cat (pick := pick) (fun loc => hinv _ _ _ _ loc)
        rw [ho]
        simp only [Outcome.bind_ok]
        cases o with
        | none => exact addArrivals_total hinv arrs hw
        | some c =>
          obtain ⟨c1, c2, c3, ⟨s, c4, c5⟩, c6, c7⟩ := (withStation_spec hw ho).2 c rfl
          simp only [c4, Outcome.bind_ok]
          exact addArrivals_total hinv arrs (c1.addPhase _)

/-- **C76b** Adding origins to a consistent catalog always succeeds when every origin has a depth, the inventory has the
coordinates of its sensors, and the ids do not run out. -/
theorem add_origins_succeeds {q : Option Query} {cch : Option ObjCache} {ep : Option EventParameters} {inv : Inventory} {u : Event Num}
    {v : Phase Num} (hinv : ∀ n s l t loc, inv n s l t = some loc → loc.latitude.isSome ∧ loc.longitude.isSome ∧ loc.elevation.isSome)
    (origins : List Origin) (hdepth : ∀ org ∈ origins, org.depth.isSome) {cat : Catalog Num} {m : AMap Nat Origin} (hs : Sound cat)
    (hroom : cat.maxKey + origins.length < uintMod) :
    ∃ r, addToCatalog (DataSource.ofAll q cch ep) inv u v origins (cat, m) = .ok r := by
  induction origins generalizing cat m with
  | nil => exact ⟨_, rfl⟩
  | cons org origins ih =>
    simp only [List.length_cons] at hroom
    have hone : ∃ c1 m1, addOrigin (DataSource.ofAll q cch ep) inv u v org (cat, m) = .ok (c1, m1) := by
      unfold addOrigin
      rw [loadArrivals_ofAll]
      simp only [Outcome.bind_ok]
      by_cases hl : (loaded q org).arrivals.length = 0
      · rw [if_pos hl]; exact ⟨_, _, rfl⟩
      · rw [if_neg hl]
        have hd : (loaded q org).depth = org.depth := by
          unfold loaded
          cases q with
          | none => rfl
          | some q => simp only; split <;> rfl
        obtain ⟨depth, hdd⟩ := Option.isSome_iff_exists.1 (hdepth org (by simp))
        rw [hd, hdd]
        simp only [Outcome.ofOption, Outcome.bind_ok]
        have hm := magnitude_ofAll q cch ep (loaded q org)
        cases hp : (DataSource.ofAll q cch ep).getParentEvent (loaded q org).publicID with
        | throws => rw [hp] at hm; cases hm
        | ub => rw [hp] at hm; cases hm
        | ok parent =>
          rw [hp] at hm
          simp only [Outcome.bind_ok] at hm ⊢
          rw [hm]
          simp only [Outcome.bind_ok]
          obtain ⟨a1, a2⟩ := addEvent_false cat { u with id := 0, time := (loaded q org).time, latitude := (loaded q org).latitude, longitude := (loaded q org).longitude, depth := depth, magnitude := (magnitudeOf q cch ep (loaded q org)).getD .nan, isRelocated := false } (by omega)
          rw [a1]
          simp only [Outcome.bind_ok]
          have hw := hs.toWF.setEvent ({ u with id := cat.maxKey + 1, time := (loaded q org).time, latitude := (loaded q org).latitude, longitude := (loaded q org).longitude, depth := depth, magnitude := (magnitudeOf q cch ep (loaded q org)).getD .nan, isRelocated := false } : Event Num) (by show cat.maxKey + 1 < uintMod; omega)
          obtain ⟨c, hc⟩ := addArrivals_total (q := q) (cch := cch) (ep := ep) (v := v) (id := cat.maxKey + 1) hinv (loaded q org).arrivals hw
          simp only at hc
          rw [hc]
          exact ⟨_, _, rfl⟩
    obtain ⟨c1, m1, h1⟩ := hone
    obtain ⟨p1, p2⟩ := addOrigin_spec hs (by omega) h1
    unfold addToCatalog
    rw [h1]
    simp only [Outcome.bind_ok]
    by_cases he : (loaded q org).arrivals = []
    · obtain ⟨rfl, rfl⟩ := p1 he
      exact ih (fun o ho => hdepth o (List.mem_cons_of_mem _ ho)) hs (by omega)
    · obtain ⟨rfl, p3, p4, p5, -, -⟩ := p2 he
      exact ih (fun o ho => hdepth o (List.mem_cons_of_mem _ ho)) p3.sound (by omega)

/-! ## examples and findings -/

theorem getOrigin_ofAll (q : Option Query) (c : Option ObjCache) (e : Option EventParameters) (id : String) :
    (DataSource.ofAll q c e).getOrigin id = .ok (originOf c e id) := by
  unfold DataSource.getOrigin DataSource.getObject DataSource.ofAll originOf
  cases c <;> cases e <;> simp only [Ptr.ofOption, Ptr.get, Outcome.bind_ok, Option.bind_none, Option.bind_some] <;>
    first | rfl | (rename_i a; cases a.origins id <;> rfl) | (rename_i a b; cases b.origins id <;> rfl)

/-- **C76c** Adding origins by their ids adds the origins that can be found, in the order of the ids; ids that are not found
are skipped. -/
theorem add_origin_ids (q : Option Query) (c : Option ObjCache) (e : Option EventParameters) (inv : Inventory) (u : Event Num)
    (v : Phase Num) (ids : List String) (s : Catalog Num × AMap Nat Origin) :
    addIds (DataSource.ofAll q c e) inv u v ids s =
      addToCatalog (DataSource.ofAll q c e) inv u v (ids.filterMap (originOf c e)) s := by
  have key : originsOf (DataSource.ofAll q c e) ids = .ok (ids.filterMap (originOf c e)) := by
    induction ids with
    | nil => rfl
    | cons id ids ih =>
      unfold originsOf
      rw [getOrigin_ofAll, ih]
      simp only [Outcome.bind_ok]
      cases h : originOf c e id with
      | none => rw [List.filterMap_cons_none h]
      | some o => rw [List.filterMap_cons_some h]
  unfold addIds
  rw [key]
  rfl

/-- **C76d** A file of origin ids: if there is none, or a row has no column `origin`, the call is rejected; otherwise the
origins named in this column that can be found are added, in the order of the rows. -/
theorem add_origin_file (q : Option Query) (c : Option ObjCache) (e : Option EventParameters) (inv : Inventory) (u : Event Num)
    (v : Phase Num) (s : Catalog Num × AMap Nat Origin) :
    addIdFile (DataSource.ofAll q c e) inv u v none s = .throws ∧
    ∀ text rows, Csv.readWithHeader text = .ok rows →
      ((∃ row ∈ rows, row.find? "origin".toList = none) → addIdFile (DataSource.ofAll q c e) inv u v (some text) s = .throws) ∧
      ((∀ row ∈ rows, (row.find? "origin".toList).isSome = true) → addIdFile (DataSource.ofAll q c e) inv u v (some text) s =
        addToCatalog (DataSource.ofAll q c e) inv u v
          ((rows.filterMap (fun row => row.find? "origin".toList)).filterMap (fun id => originOf c e (String.ofList id))) s) := by
  refine ⟨rfl, fun text rows hr => ⟨fun h => ?_, fun h => ?_⟩⟩
  · have key : idsOf rows = .throws := by
      clear hr
      induction rows with
      | nil => obtain ⟨_, h, -⟩ := h; cases h
      | cons row rows ih =>
        unfold idsOf
        cases hf : row.find? "origin".toList with
        | none => rfl
        | some id =>
          obtain ⟨r, hm, hn⟩ := h
          rcases List.mem_cons.1 hm with rfl | hm
          · rw [hf] at hn; cases hn
          · simp only
            rw [ih ⟨r, hm, hn⟩]
            rfl
    unfold addIdFile
    simp only [hr, Outcome.bind_ok, key]
    rfl
  · have key : idsOf rows = .ok ((rows.filterMap (fun row => row.find? "origin".toList)).map String.ofList) := by
      clear hr
      induction rows with
      | nil => rfl
      | cons row rows ih =>
        unfold idsOf
        cases hf : row.find? "origin".toList with
        | none =>
          have := h row (by simp)
          rw [hf] at this; cases this
        | some id =>
          simp only
          rw [ih fun r hm => h r (by simp [hm]), List.filterMap_cons_some (f := fun row : AMap Csv.Str Csv.Str => row.find? "origin".toList) hf]
          rfl
    unfold addIdFile
    simp only [hr, Outcome.bind_ok, key]
    rw [add_origin_ids, List.filterMap_map]
    rfl

namespace Example

def u : Event Num := ⟨0, 0, .num 0, .num 0, .num 0, .num 0, false, .nan, .nan⟩
def v : Phase Num :=
  { eventId := 0, stationId := "", time := 0, lowerUncertainty := .nan, upperUncertainty := .nan, type := "", networkCode := "",
    stationCode := "", locationCode := "", channelCode := "", isRelocated := false, startResidual := .nan, finalResidual := .nan,
    weight := .nan, procType := .P, classWeight := .nan, source := .catalog }

/-- a manual pick with symmetric and one with asymmetric uncertainty, two automatic picks and one of an unknown station -/
def pick (id station : String) (manual : Bool) : Pick :=
  ⟨id, 1000000, "CH", station, "", "HHZ", some manual, none, some (.num (1 / 10)), some (.num (2 / 10)), none⟩

def picks : String → Option Pick := fun id =>
  if id = "m" then some (pick id "AAA" true)
  else if id = "unused" then some (pick id "AAA" false)
  else if id = "noweight" then some (pick id "BBB" false)
  else if id = "elsewhere" then some (pick id "CCC" true)
  else none

def arrival (id : String) (weight : Option Num) (timeUsed : Option Bool) : Arrival := ⟨id, "P", weight, timeUsed, none, none, none⟩

def inv : Inventory := fun _ s _ _ =>
  if s = "CCC" then none else some ⟨some (.num 46), some (.num 8), some (.num 500)⟩

def org : Origin :=
  ⟨"o1", 0, .num 47, .num 9, some (.num 5),
    [arrival "m" none none, arrival "unused" (some (.num 0)) none, arrival "noweight" none (some false), arrival "elsewhere" none none,
     arrival "missing" none none]⟩

def ep : EventParameters := ⟨picks, fun _ => none, [⟨["o1"], "mag"⟩]⟩

/-- a cache with the magnitude of the event -/
def cch : ObjCache := ⟨fun _ => none, fun _ => none, fun id => if id = "mag" then some (.num 3) else none⟩

/-- a catalog that already has an event -/
def cat : Catalog Num := ⟨[("CH.AAA.", ⟨"CH.AAA.", .num 46, .num 8, .num 0, "CH", "AAA", ""⟩)], [(7, { u with id := 7 })], []⟩

def res := addToCatalog (DataSource.ofAll none (some cch) (some ep)) inv u v [{ org with publicID := "empty", arrivals := [] }, org] (cat, [])

theorem cat_sound : Sound cat :=
  ⟨((WF.init (D := Num)).setEvent { u with id := 7 } (by decide)).addStation
    ⟨"CH.AAA.", .num 46, .num 8, .num 0, "CH", "AAA", ""⟩, by simp [cat], by simp [cat]⟩

/-- the hypotheses of `add_origins` and of `add_origins_succeeds` are met; of the five arrivals, two are added -/
example : (res >>= fun r => .ok r.1.events.keys) = Outcome.ok [8, 7] ∧
    (res >>= fun r => .ok r.1.stations.keys) = Outcome.ok ["CH.BBB.", "CH.AAA."] ∧
    (res >>= fun r => .ok ((r.1.phasesOf 8).map (·.stationId))) = Outcome.ok ["CH.AAA.", "CH.BBB."] ∧
    (res >>= fun r => .ok ((r.1.phasesOf 8).map (·.upperUncertainty))) = Outcome.ok [.num (2 / 10), .num (2 / 10)] ∧
    (res >>= fun r => .ok ((r.1.events.find? 8).map (·.magnitude))) = Outcome.ok (some (.num 3)) ∧
    (res >>= fun r => .ok r.2.keys) = Outcome.ok [8] := by decide +kernel

example : ∃ r, res = .ok r :=
  add_origins_succeeds (by intro n s l t loc h; unfold inv at h; split at h <;> cases h; exact ⟨rfl, rfl, rfl⟩) _
    (by intro o ho; simp at ho; rcases ho with rfl | rfl <;> rfl) cat_sound (by decide)

/-- a file with two ids, of which one is known -/
example : Csv.readWithHeader "time,origin\n1,o2\n2,o1".toList =
      .ok [[("origin".toList, "o2".toList), ("time".toList, "1".toList)], [("origin".toList, "o1".toList), ("time".toList, "2".toList)]] ∧
    (addIdFile (DataSource.ofAll none (some { cch with origins := fun id => if id = "o1" then some org else none }) (some ep)) inv u v
      (some "time,origin\n1,o2\n2,o1".toList) (cat, []) >>= fun r => .ok r.1.events.keys) = Outcome.ok [8, 7] := by
  refine ⟨by decide +kernel, by decide +kernel⟩

/-- the two shorter constructors leave a pointer uninitialised, and adding an origin through them reads it -/
theorem short_constructors_ub (q : Option Query) (c : Option ObjCache) (e : Option EventParameters) :
    addToCatalog (DataSource.ofDatabase q c) inv u v [org] (cat, []) = .ub ∧
    addToCatalog (DataSource.ofEventParameters e) inv u v [org] (cat, []) = .ub := by
  constructor
  · unfold addToCatalog addOrigin DataSource.loadArrivals DataSource.ofDatabase DataSource.getParentEvent
    cases q with
    | none => rfl
    | some q => rfl
  · rfl

/-- a magnitude that is in the event parameters is not found: without a cache the event has none -/
theorem magnitude_not_found (q : Option Query) (e : Option EventParameters) (o : Origin) : magnitudeOf q none e o = none := by
  unfold magnitudeOf
  cases ((e.bind (fun ep => ep.events.find? (fun ev => o.publicID ∈ ev.originReferences))).or
    (q.bind (fun q => q.event o.publicID))) <;> rfl

/-- an automatic pick that the origin does not use is kept when its arrival has no weight -/
theorem unused_arrival_kept : ∃ r, res = .ok r ∧ "CH.BBB." ∈ (r.1.phasesOf 8).map (·.stationId) ∧
    arrival "noweight" none (some false) ∈ org.arrivals := by
  have h : (res >>= fun r => .ok <| decide ("CH.BBB." ∈ (r.1.phasesOf 8).map (·.stationId))) = Outcome.ok true := by decide +kernel
  cases hr : res with
  | throws => rw [hr] at h; cases h
  | ub => rw [hr] at h; cases h
  | ok r =>
    rw [hr] at h
    simp only [Outcome.bind_ok, Outcome.ok.injEq, decide_eq_true_eq] at h
    exact ⟨r, rfl, h, by simp [org]⟩

/-- one origin without depth makes the whole call fail -/
theorem origin_without_depth_throws (q : Option Query) (c : Option ObjCache) (e : Option EventParameters) (inv : Inventory) (o : Origin)
    (s : Catalog Num × AMap Nat Origin) (hd : o.depth = none) (ha : o.arrivals ≠ []) :
    addToCatalog (DataSource.ofAll q c e) inv u v [o] s = .throws := by
  have hl : loaded q o = o := by
    unfold loaded
    cases q with
    | none => rfl
    | some q => simp [ha]
  unfold addToCatalog addOrigin
  rw [loadArrivals_ofAll, hl]
  simp only [Outcome.bind_ok]
  rw [if_neg (by simpa using ha), hd]
  rfl

end Example

end Verif.SeisComP
