import Verif.Proofs.Catalog

/-!
# C11–C14: the catalog

Specification: `Verif.Spec.Catalog` (`WF`, `Sound`, `Reachable`).
-/

set_option linter.unusedSectionVars false

namespace Verif.Catalog.Catalog
variable {D : Type}

/-! ## C11 -/

/-- **C11a.** Whatever sequence of operations produced the catalog (throwing ones included), every
event, station and phase is stored under its own id and ids are unique. -/
theorem catalog_integrity {c : Catalog D} (h : Reachable c) : WF c := h.wf

/-- **C11b.** An event added with its id is stored under it if the id is free and the call throws,
changing nothing, otherwise; all other events are untouched. -/
theorem catalog_addEvent_keep (c : Catalog D) (e : Event D) :
    ((c.events.find? e.id).isSome → c.addEvent e true = (c, .throws)) ∧
    (c.events.find? e.id = none → ∃ c', c.addEvent e true = (c', .ok e.id) ∧
      c'.events.find? e.id = some e ∧ (∀ k ≠ e.id, c'.events.find? k = c.events.find? k) ∧
      c'.stations = c.stations ∧ c'.phases = c.phases) := by
  constructor
  · intro h
    obtain ⟨x, hx⟩ := Option.isSome_iff_exists.1 h
    unfold addEvent; simp [hx]
  · intro h
    exact ⟨_, addEvent_true h, by simp, fun k hk => AMap.find?_set_ne _ _ hk, rfl, rfl⟩

/-- **C11c.** An event added without keeping its id gets an id that is not in use, and no other
event changes — unless the largest `unsigned` is already an event id. -/
theorem catalog_addEvent_new_partial {c : Catalog D} (h : Reachable c) (e : Event D)
    (hmax : c.events.find? (uintMod - 1) = none) :
    ∃ c' n, c.addEvent e false = (c', .ok n) ∧ n < uintMod ∧ c.events.find? n = none ∧
      c'.events.find? n = some { e with id := n } ∧
      (∀ k ≠ n, c'.events.find? k = c.events.find? k) ∧
      c'.stations = c.stations ∧ c'.phases = c.phases := by
  have hlt : c.maxKey + 1 < uintMod := by
    have h1 : c.maxKey ≤ uintMod - 2 := by
      apply foldl_max_le
      · omega
      · intro x hx
        rw [← AMap.find?_isSome, Option.isSome_iff_exists] at hx
        obtain ⟨e, he⟩ := hx
        have := (h.wf.eventKey x e he).2
        have : x ≠ uintMod - 1 := by rintro rfl; rw [hmax] at he; cases he
        omega
    unfold uintMod at *; omega
  obtain ⟨h1, h2⟩ := addEvent_false c e hlt
  exact ⟨_, _, h1, hlt, h2, by simp, fun k hk => AMap.find?_set_ne _ _ hk, rfl, rfl⟩

/-- **C11 as stated is false at the top of the id range**: with an event whose id is 2³²-1 in the
catalog, the next added event gets id 0 and replaces the event with id 0. -/
theorem catalog_addEvent_wraps (e : Event D) :
    let e₀ : Event D := { e with id := 0, time := 1 }
    let top : Event D := { e with id := uintMod - 1 }
    let c : Catalog D := ((init.addEvent e₀ true).1.addEvent top true).1
    c.events.find? 0 = some e₀ ∧
    ∃ c', c.addEvent { e with time := 2 } false = (c', .ok 0) ∧
      c'.events.find? 0 = some { e with id := 0, time := 2 } := by
  intro e₀ top c
  have hc : c.events = [(uintMod - 1, top), (0, e₀)] := by
    show ((init.addEvent e₀ true).1.addEvent top true).1.events = _
    rw [addEvent_true (c := init) (e := e₀) rfl]
    rw [addEvent_true]
    · simp [init, AMap.set, AMap.erase, e₀, top, uintMod]
    · simp [init, AMap.set, AMap.erase, AMap.find?, e₀, top, uintMod]
  refine ⟨by rw [hc]; simp [AMap.find?, uintMod], ?_⟩
  have hm : c.maxKey = uintMod - 1 := by
    unfold maxKey; rw [hc]; simp [AMap.keys, uintMod]
  have h0 : (uintMod - 1 + 1) % uintMod = 0 := by decide
  refine ⟨{ c with events := c.events.set 0 { e with id := 0, time := 2 } }, ?_, by simp⟩
  unfold addEvent
  simp only [hm, Bool.false_eq_true, if_false, h0]

/-! ## C12 -/

/-- **C12a.** `removeEvent` removes the event and all its phases and nothing else. -/
theorem catalog_removeEvent (c : Catalog D) (id : Nat) :
    (c.removeEvent id).events.find? id = none ∧ (c.removeEvent id).phasesOf id = [] ∧
    (∀ k ≠ id, (c.removeEvent id).events.find? k = c.events.find? k ∧
      (c.removeEvent id).phasesOf k = c.phasesOf k) ∧
    (c.removeEvent id).stations = c.stations := by
  refine ⟨by simp [removeEvent], ?_, ?_, rfl⟩
  · simp [phasesOf, removeEvent, List.filter_filter]
  · intro k hk
    refine ⟨AMap.find?_erase_ne _ hk, ?_⟩
    unfold phasesOf removeEvent
    simp only [List.filter_filter]
    congr 1
    apply List.filter_congr
    intro x _
    by_cases h : x.1 = k <;> simp [h, hk]

theorem extractEvent_of_addFrom {c x : Catalog D} {id n : Nat} {keep : Bool}
    (hs : (c.events.find? id).isSome)
    (h : init.addFrom id c keep = (x, .ok n)) : c.extractEvent id keep = .ok x := by
  obtain ⟨e, he⟩ := Option.isSome_iff_exists.1 hs
  unfold extractEvent
  unfold addFrom at h
  simp only [he] at h ⊢
  generalize hr : (init : Catalog D).addEvent e keep = r at h ⊢
  obtain ⟨c', oc⟩ := r
  cases oc with
  | throws => simp at h
  | ub => simp at h
  | ok m =>
    simp only at h ⊢
    generalize copyPhases c.stations m c' (c.phasesOf e.id) = r2 at h ⊢
    obtain ⟨c2, oc2⟩ := r2
    cases oc2 <;> simp_all

theorem removeEvent_sound {c : Catalog D} (h : Sound c) (id : Nat) : Sound (c.removeEvent id) := by
  refine ⟨h.toWF.removeEvent id, ?_, ?_⟩
  · intro kp hkp
    simp [removeEvent] at hkp
    have := h.phaseEvent kp hkp.1
    simp only [removeEvent]
    rw [AMap.find?_erase_ne _ hkp.2]; exact this
  · intro kp hkp
    simp [removeEvent] at hkp
    exact h.phaseStation kp hkp.1

/-- **C12b.** `extractEvent` throws exactly when the event is missing; otherwise it returns exactly
the event (renumbered 1 unless its id is kept), its phases and the stations they refer to. -/
theorem catalog_extractEvent {c : Catalog D} (h : Sound c) (id : Nat) (keep : Bool) :
    (c.events.find? id = none → c.extractEvent id keep = .throws) ∧
    (∀ e, c.events.find? id = some e → ∃ x n, c.extractEvent id keep = .ok x ∧
      n = (if keep then id else 1) ∧
      (∀ k, x.events.find? k = if k = n then some { e with id := n } else none) ∧
      (∀ k, x.phasesOf k = if k = n then (c.phasesOf id).map (fun p => { p with eventId := n })
        else []) ∧
      (∀ s, x.stations.find? s = if s ∈ (c.phasesOf id).map (·.stationId) then
        c.stations.find? s else none) ∧ Sound x) := by
  constructor
  · intro hn; unfold extractEvent; rw [hn]
  · intro e he
    have hid := (h.eventKey _ _ he).1
    have key : ∃ x n, c.extractEvent id keep = .ok x ∧ n = (if keep then id else 1) ∧
        Copied init c e n x ∧ n < uintMod := by
      cases keep with
      | true =>
        have hadd : (init : Catalog D).addEvent e true = _ := addEvent_true (c := init) (e := e) rfl
        obtain ⟨x, h1, h2⟩ := addFrom_ok (c := init) h.toWF h.phaseStation he hadd rfl
        refine ⟨x, e.id, ?_, by simp [hid], h2, by rw [hid]; exact (h.eventKey _ _ he).2⟩
        exact extractEvent_of_addFrom (by rw [he]; rfl) h1
      | false =>
        have hadd := (addEvent_false (init : Catalog D) e (by unfold uintMod maxKey init; simp)).1
        have h1' : (init : Catalog D).maxKey + 1 = 1 := by simp [maxKey, init]
        rw [h1'] at hadd
        obtain ⟨x, h1, h2⟩ := addFrom_ok (c := init) h.toWF h.phaseStation he hadd rfl
        refine ⟨x, 1, ?_, by simp, h2, by unfold uintMod; omega⟩
        exact extractEvent_of_addFrom (by rw [he]; rfl) h1
    obtain ⟨x, n, h1, h2, h3, hlt⟩ := key
    refine ⟨x, n, h1, h2, ?_, ?_, ?_, ?_⟩
    · intro k; rw [h3.events, AMap.find?_set]; rfl
    · intro k; rw [h3.phases, hid]; simp [init, phasesOf]; rfl
    · intro s; rw [h3.stations, hid]; simp [init]
    · refine ⟨h.toWF.extractEvent h1, ?_, ?_⟩
      · intro kp hkp
        rw [h3.allPhases] at hkp
        simp [init] at hkp
        obtain ⟨p, _, rfl⟩ := hkp
        rw [h3.events]; simp
      · intro kp hkp
        rw [h3.allPhases] at hkp
        simp [init] at hkp
        obtain ⟨p, hp, rfl⟩ := hkp
        rw [h3.stations]
        have : (relabel n p).stationId ∈ (c.phasesOf e.id).map (·.stationId) :=
          List.mem_map.2 ⟨p, hp, rfl⟩
        rw [if_pos this]
        simp [init, relabel]
        exact h.phaseStation _ (mem_phasesOf.1 hp)

/-- **C12c.** Extracting an event with its id, removing it from the catalog and adding the extract
back restores every event and all phases; no station is lost or changed. -/
theorem catalog_extract_readd {c : Catalog D} (h : Sound c) {id : Nat} {e : Event D}
    (he : c.events.find? id = some e) :
    ∃ x c', c.extractEvent id true = .ok x ∧
      (c.removeEvent id).addFrom id x true = (c', .ok id) ∧
      (∀ k, c'.events.find? k = c.events.find? k) ∧ (∀ k, c'.phasesOf k = c.phasesOf k) ∧
      (∀ s, c'.stations.find? s = c.stations.find? s) := by
  have hid := (h.eventKey _ _ he).1
  obtain ⟨x, n, h1, h2, h3, h4, h5, h6⟩ := (catalog_extractEvent h id true).2 e he
  simp at h2
  subst h2
  have hxe : x.events.find? n = some e := by rw [h3]; simp; cases e; simp at hid ⊢; exact hid.symm
  have hrem := catalog_removeEvent c n
  have hnone : (c.removeEvent n).events.find? e.id = none := by rw [hid]; exact hrem.1
  have hadd := addEvent_true hnone
  obtain ⟨c', k1, k2⟩ := addFrom_ok h6.toWF h6.phaseStation hxe hadd (by simp)
  have hmap : (c.phasesOf n).map (fun p => ({ p with eventId := n } : Phase D)) = c.phasesOf n := by
    conv_rhs => rw [← List.map_id (c.phasesOf n)]
    apply List.map_congr_left
    intro p hp
    have := h.phaseKey _ (mem_phasesOf.1 hp)
    cases p; simp at this ⊢; exact this.symm
  rw [hid] at k1 k2
  have hxp : x.phasesOf n = c.phasesOf n := by rw [h4]; simp [hmap]
  refine ⟨x, c', h1, k1, ?_, ?_, ?_⟩
  · intro k
    rw [k2.events, AMap.find?_set]
    by_cases hk : k = n
    · subst hk; rw [if_pos rfl, he]; cases e; simp at hid ⊢; exact hid.symm
    · rw [if_neg hk]; exact (hrem.2.2.1 k hk).1
  · intro k
    rw [k2.phases, hid, hxp]
    by_cases hk : k = n
    · subst hk; rw [if_pos rfl, hrem.2.1, List.nil_append]; exact hmap
    · rw [if_neg hk, (hrem.2.2.1 k hk).2]; simp
  · intro s
    rw [k2.stations, hid, hxp, hrem.2.2.2]
    cases hs : c.stations.find? s with
    | some y => rfl
    | none => rw [h5, hs]; simp

/-! ## C13 -/

theorem Sound.placed {c : Catalog D} (h : Sound c) : Placed c := ⟨h.toWF, h.phaseStation⟩

theorem Copied.sound {c o c' : Catalog D} {e : Event D} {n : Nat} (hc : Sound c) (ho : Placed o)
    (hn : n < uintMod) (h : Copied c o e n c') (hw : WF c') : Sound c' := by
  refine ⟨hw, ?_, ?_⟩
  · intro kp hkp
    rw [h.allPhases, List.mem_append] at hkp
    rw [h.events, AMap.find?_set]
    rcases hkp with hkp | hkp
    · split
      · rfl
      · exact hc.phaseEvent kp hkp
    · simp at hkp; obtain ⟨p, _, rfl⟩ := hkp; simp
  · intro kp hkp
    rw [h.allPhases, List.mem_append] at hkp
    rw [h.stations]
    rcases hkp with hkp | hkp
    · obtain ⟨s, hs⟩ := Option.isSome_iff_exists.1 (hc.phaseStation kp hkp)
      rw [hs]; rfl
    · simp at hkp
      obtain ⟨p, hp, rfl⟩ := hkp
      have : (relabel n p).stationId ∈ (o.phasesOf e.id).map (·.stationId) :=
        List.mem_map.2 ⟨p, hp, rfl⟩
      rw [if_pos this]
      have hso := ho.phaseStation _ (mem_phasesOf.1 hp)
      simp only [relabel] at *
      cases c.stations.find? p.stationId with
      | some y => rfl
      | none => simpa using hso

theorem phasesOf_of_no_event {c : Catalog D} (h : Sound c) {k : Nat}
    (hk : c.events.find? k = none) : c.phasesOf k = [] := by
  rw [List.eq_nil_iff_forall_not_mem]
  intro p hp
  have := h.phaseEvent _ (mem_phasesOf.1 hp)
  simp only at this
  rw [hk] at this; cases this

theorem addAllLoop_new (o : Catalog D) (ho : Placed o) (kvs : List (Nat × Event D))
    (hnd : (kvs.map (·.1)).Nodup) (hin : ∀ kv ∈ kvs, o.events.find? kv.1 = some kv.2)
    (c : Catalog D) (hc : Sound c) (hroom : c.maxKey + kvs.length < uintMod) :
    ∃ c', ∃ ren : Nat → Nat, addAllLoop o false c kvs = (c', .ok ()) ∧ Sound c' ∧
      (∀ kv ∈ kvs, c.events.find? (ren kv.1) = none) ∧
      (∀ kv ∈ kvs, ∀ kv' ∈ kvs, ren kv.1 = ren kv'.1 → kv.1 = kv'.1) ∧
      (∀ k, (c.events.find? k).isSome → c'.events.find? k = c.events.find? k ∧
        c'.phasesOf k = c.phasesOf k) ∧
      (∀ kv ∈ kvs, c'.events.find? (ren kv.1) = some { kv.2 with id := ren kv.1 } ∧
        c'.phasesOf (ren kv.1) = (o.phasesOf kv.1).map (relabel (ren kv.1))) ∧
      (∀ k, (c'.events.find? k).isSome → (c.events.find? k).isSome ∨ ∃ kv ∈ kvs, k = ren kv.1) ∧
      (∀ s, c'.stations.find? s = (c.stations.find? s).or
        (if ∃ kv ∈ kvs, s ∈ (o.phasesOf kv.1).map (·.stationId) then o.stations.find? s
         else none)) ∧ c'.maxKey = c.maxKey + kvs.length := by
  induction kvs generalizing c with
  | nil =>
    exact ⟨c, id, rfl, hc, by simp, by simp, fun _ _ => ⟨rfl, rfl⟩, by simp,
      fun k hk => .inl hk, by simp, rfl⟩
  | cons kv kvs ih =>
    obtain ⟨k, e⟩ := kv
    have hek := hin (k, e) (by simp)
    simp only at hek
    have hid := (ho.eventKey _ _ hek).1
    simp only [List.length_cons] at hroom
    obtain ⟨hadd, hfree⟩ := addEvent_false c e (by omega)
    obtain ⟨c₁, hadd1, hcop⟩ := addFrom_ok ho.toWF ho.phaseStation hek hadd rfl
    have hw1 : WF c₁ := by
      have := hc.toWF.addFrom ho.toWF k false
      rw [hadd1] at this; exact this
    have hs1 : Sound c₁ := hcop.sound hc ho (by omega) hw1
    have hmk : c₁.maxKey = c.maxKey + 1 := maxKey_set_le c c₁ _ _ hcop.events (by omega)
    simp only [List.map_cons, List.nodup_cons] at hnd
    obtain ⟨c', ren', g1, g2, g3, g4, g5, g6, g7, g8, g9⟩ := ih hnd.2
      (fun kv hkv => hin kv (by simp [hkv])) c₁ hs1 (by omega)
    have hne : ∀ kv ∈ kvs, kv.1 ≠ k := by
      intro kv hkv he
      exact hnd.1 (by rw [← he]; exact List.mem_map.2 ⟨kv, hkv, rfl⟩)
    refine ⟨c', fun x => if x = k then c.maxKey + 1 else ren' x, ?_, g2, ?_, ?_, ?_, ?_, ?_, ?_, by rw [g9, hmk, List.length_cons]; omega⟩
    · unfold addAllLoop
      simp only [Bool.false_eq_true, false_and, if_false]
      rw [hid, hadd1]
      exact g1
    · intro kv hkv
      rcases List.mem_cons.1 hkv with rfl | hkv
      · simp [hfree]
      · simp only [if_neg (hne kv hkv)]
        have := g3 kv hkv
        rw [hcop.events, AMap.find?_set] at this
        split at this
        · cases this
        · exact this
    · intro kv hkv kv' hkv' heq
      have aux : ∀ kv ∈ kvs, ren' kv.1 ≠ c.maxKey + 1 := by
        intro kv hkv he
        have := g3 kv hkv
        rw [he, hcop.events] at this
        simp at this
      rcases List.mem_cons.1 hkv with rfl | hkv
      · rcases List.mem_cons.1 hkv' with rfl | hkv'
        · rfl
        · simp only [if_neg (hne kv' hkv'), if_true] at heq
          exact absurd heq.symm (aux kv' hkv')
      · rcases List.mem_cons.1 hkv' with rfl | hkv'
        · simp only [if_neg (hne kv hkv), if_true] at heq
          exact absurd heq (aux kv hkv)
        · simp only [if_neg (hne kv hkv), if_neg (hne kv' hkv')] at heq
          exact g4 kv hkv kv' hkv' heq
    · intro j hj
      have hjn : j ≠ c.maxKey + 1 := by
        rintro rfl; rw [hfree] at hj; cases hj
      have e1 : c₁.events.find? j = c.events.find? j := by
        rw [hcop.events, AMap.find?_set_ne _ _ hjn]
      have e2 : c₁.phasesOf j = c.phasesOf j := by rw [hcop.phases, if_neg hjn]; simp
      have := g5 j (by rw [e1]; exact hj)
      rw [this.1, this.2, e1, e2]; exact ⟨rfl, rfl⟩
    · intro kv hkv
      rcases List.mem_cons.1 hkv with rfl | hkv
      · simp only [if_true]
        have e1 : c₁.events.find? (c.maxKey + 1) = some { e with id := c.maxKey + 1 } := by
          rw [hcop.events]; simp
        have := g5 (c.maxKey + 1) (by rw [e1]; rfl)
        rw [this.1, this.2, e1]
        refine ⟨rfl, ?_⟩
        rw [hcop.phases, if_pos rfl, phasesOf_of_no_event hc hfree, hid]; simp
      · simp only [if_neg (hne kv hkv)]
        exact g6 kv hkv
    · intro j hj
      rcases g7 j hj with h | ⟨kv, hkv, rfl⟩
      · rw [hcop.events, AMap.find?_set] at h
        split at h
        · rename_i he; right; exact ⟨(k, e), by simp, by simp [he]⟩
        · exact .inl h
      · right; exact ⟨kv, by simp [hkv], by simp [hne kv hkv]⟩
    · intro s
      rw [g8, hcop.stations, hid]
      cases hcs : c.stations.find? s with
      | some y => rfl
      | none =>
        simp only [Option.none_or]
        by_cases h1 : s ∈ (o.phasesOf k).map (·.stationId)
        · have hx : ∃ kv ∈ (k, e) :: kvs, s ∈ (o.phasesOf kv.1).map (·.stationId) :=
            ⟨(k, e), List.mem_cons_self, h1⟩
          rw [if_pos h1, if_pos hx]
          cases o.stations.find? s <;> (try split) <;> rfl
        · rw [if_neg h1]
          simp only [Option.none_or]
          congr 1
          simp only [List.mem_cons, exists_eq_or_imp, h1, false_or]

/-- the events of a well formed catalog, sorted, with their ids -/
theorem eventsSorted_facts {o : Catalog D} (ho : WF o) :
    (o.eventsSorted.map (·.1)).Nodup ∧ (∀ kv ∈ o.eventsSorted, o.events.find? kv.1 = some kv.2) ∧
    (∀ k e, o.events.find? k = some e → (k, e) ∈ o.eventsSorted) ∧
    o.eventsSorted.length = o.events.length := by
  have hp := eventsSorted_perm o
  refine ⟨?_, ?_, ?_, hp.length_eq⟩
  · have := (hp.map (·.1)).nodup_iff.2
    exact this ho.eventsUnique
  · intro kv hkv
    exact AMap.find?_of_mem ho.eventsUnique (hp.mem_iff.1 hkv)
  · intro k e h
    exact hp.mem_iff.2 (AMap.mem_of_find? h)

/-- **C13a.** Merging `b` into `a` with new ids (there must be room below 2³² for the new ids).
`ren` is the renumbering.  Nothing of `a` changes, every event of `b` is present under a fresh id of
its own with its own phases, nothing else is added; stations of `a` are kept and the stations the
phases of `b` need are copied; the new ids follow the largest one of `a`.  Phases of `b` without event are left out.  The result is again well formed, so the statement applies to every
chain of merges. -/
theorem catalog_merge_new_ids {a b : Catalog D} (ha : Sound a) (hb : Placed b)
    (hroom : ∀ k, (a.events.find? k).isSome → k + b.events.length < uintMod)
    (hroom' : b.events.length < uintMod) :
    ∃ r, ∃ ren : Nat → Nat, a.addAll b false = (r, .ok ()) ∧ Sound r ∧
      (∀ k, (b.events.find? k).isSome → a.events.find? (ren k) = none) ∧
      (∀ k k', (b.events.find? k).isSome → (b.events.find? k').isSome → ren k = ren k' → k = k') ∧
      (∀ k e, a.events.find? k = some e → r.events.find? k = some e ∧ r.phasesOf k = a.phasesOf k) ∧
      (∀ k e, b.events.find? k = some e → r.events.find? (ren k) = some { e with id := ren k } ∧
        r.phasesOf (ren k) = (b.phasesOf k).map (fun p => { p with eventId := ren k })) ∧
      (∀ n, (r.events.find? n).isSome → (a.events.find? n).isSome ∨
        ∃ k, (b.events.find? k).isSome ∧ n = ren k) ∧
      (∀ s st, a.stations.find? s = some st → r.stations.find? s = some st) ∧
      (∀ s, a.stations.find? s = none → r.stations.find? s =
        if ∃ kp ∈ b.phases, (b.events.find? kp.1).isSome ∧ kp.2.stationId = s then b.stations.find? s else none) ∧
      (∀ N, (∀ k, (a.events.find? k).isSome → k ≤ N) → ∀ k, (r.events.find? k).isSome → k ≤ N + b.events.length) := by
  obtain ⟨f1, f2, f3, f4⟩ := eventsSorted_facts hb.toWF
  have hmk : a.maxKey + b.eventsSorted.length < uintMod := by
    rw [f4]
    have : a.maxKey ≤ uintMod - 1 - b.events.length := by
      apply foldl_max_le
      · omega
      · intro x hx
        have := hroom x (AMap.find?_isSome.2 hx)
        omega
    omega
  obtain ⟨c', ren, g1, g2, g3, g4, g5, g6, g7, g8, g9⟩ := addAllLoop_new b hb b.eventsSorted f1 f2 a ha hmk
  have toKv : ∀ k, (b.events.find? k).isSome → ∃ e, (k, e) ∈ b.eventsSorted := by
    intro k hk
    obtain ⟨e, he⟩ := Option.isSome_iff_exists.1 hk
    exact ⟨e, f3 k e he⟩
  refine ⟨c', ren, g1, g2, ?_, ?_, ?_, ?_, ?_, ?_, ?_, ?_⟩
  · intro k hk; obtain ⟨e, he⟩ := toKv k hk; exact g3 _ he
  · intro k k' hk hk' h
    obtain ⟨e, he⟩ := toKv k hk
    obtain ⟨e', he'⟩ := toKv k' hk'
    exact g4 _ he _ he' h
  · intro k e he
    have := g5 k (by rw [he]; rfl)
    rw [this.1, this.2]; exact ⟨he, rfl⟩
  · intro k e he; exact g6 (k, e) (f3 k e he)
  · intro n hn
    rcases g7 n hn with h | ⟨kv, hkv, h⟩
    · exact .inl h
    · exact .inr ⟨kv.1, by rw [f2 kv hkv]; rfl, h⟩
  · intro s st hs; rw [g8, hs]; rfl
  · intro s hs
    rw [g8, hs, Option.none_or]
    congr 1
    apply propext
    constructor
    · rintro ⟨kv, hkv, h⟩
      rw [List.mem_map] at h
      obtain ⟨p, hp, rfl⟩ := h
      exact ⟨_, mem_phasesOf.1 hp, by simp only; rw [f2 kv hkv]; rfl, rfl⟩
    · rintro ⟨kp, hkp, hev, rfl⟩
      obtain ⟨e, he⟩ := Option.isSome_iff_exists.1 hev
      exact ⟨(kp.1, e), f3 _ _ he, List.mem_map.2 ⟨kp.2, mem_phasesOf.2 hkp, rfl⟩⟩
  · intro N hN k hk
    obtain ⟨e, he⟩ := Option.isSome_iff_exists.1 hk
    have h1 := le_maxKey he
    have h2 : a.maxKey ≤ N := by
      apply foldl_max_le
      · omega
      · intro x hx
        exact hN x (AMap.find?_isSome.2 hx)
    omega

theorem addAllLoop_keep (o : Catalog D) (ho : Placed o) (kvs : List (Nat × Event D))
    (hnd : (kvs.map (·.1)).Nodup) (hin : ∀ kv ∈ kvs, o.events.find? kv.1 = some kv.2)
    (c : Catalog D) (hc : Sound c) :
    ∃ c', addAllLoop o true c kvs = (c', .ok ()) ∧ Sound c' ∧
      (∀ k, c'.events.find? k = (c.events.find? k).or
        (if k ∈ kvs.map (·.1) then o.events.find? k else none)) ∧
      (∀ k, c'.phasesOf k = if (c.events.find? k).isSome then c.phasesOf k
        else if k ∈ kvs.map (·.1) then o.phasesOf k else []) ∧
      (∀ s, c'.stations.find? s = (c.stations.find? s).or
        (if ∃ kv ∈ kvs, c.events.find? kv.1 = none ∧ s ∈ (o.phasesOf kv.1).map (·.stationId)
         then o.stations.find? s else none)) := by
  induction kvs generalizing c with
  | nil =>
    refine ⟨c, rfl, hc, by simp, ?_, by simp⟩
    intro k
    split
    · rfl
    · rename_i h
      simp at h
      simpa using phasesOf_of_no_event hc h
  | cons kv kvs ih =>
    obtain ⟨k, e⟩ := kv
    have hek := hin (k, e) (by simp)
    simp only at hek
    have hid := (ho.eventKey _ _ hek).1
    simp only [List.map_cons, List.nodup_cons] at hnd
    have hin' : ∀ kv ∈ kvs, o.events.find? kv.1 = some kv.2 := fun kv hkv => hin kv (by simp [hkv])
    cases hck : c.events.find? k with
    | some y =>
      obtain ⟨c', g1, g2, g3, g4, g5⟩ := ih hnd.2 hin' c hc
      refine ⟨c', ?_, g2, ?_, ?_, ?_⟩
      · unfold addAllLoop
        rw [if_pos]
        · exact g1
        · exact ⟨rfl, by simp only; rw [hid, hck]; rfl⟩
      · intro j
        rw [g3]
        by_cases hj : j = k
        · subst hj; rw [hck]; rfl
        · simp [hj, -List.mem_map]
      · intro j
        rw [g4]
        by_cases hj : j = k
        · subst hj; rw [hck]; rfl
        · simp [hj, -List.mem_map]
      · intro s
        rw [g5]
        simp only [List.mem_cons, exists_eq_or_imp, hck, reduceCtorEq, false_and, false_or]
    | none =>
      have hadd := addEvent_true (c := c) (e := e) (by rw [hid]; exact hck)
      obtain ⟨c₁, hadd1, hcop⟩ := addFrom_ok ho.toWF ho.phaseStation hek hadd (by simp)
      have hw1 : WF c₁ := by
        have := hc.toWF.addFrom ho.toWF k true
        rw [hadd1] at this; exact this
      have hlt : k < uintMod := (ho.eventKey _ _ hek).2
      have hs1 : Sound c₁ := hcop.sound hc ho (by rw [hid]; exact hlt) hw1
      have hev : ∀ j, c₁.events.find? j = if j = k then some e else c.events.find? j := by
        intro j
        rw [hcop.events, AMap.find?_set, hid]
        cases e; simp at hid ⊢; rw [hid]
      have hph : ∀ j, c₁.phasesOf j = if j = k then o.phasesOf k else c.phasesOf j := by
        intro j
        rw [hcop.phases, hid]
        by_cases hj : j = k
        · subst hj
          rw [if_pos rfl, if_pos rfl, phasesOf_of_no_event hc hck, List.nil_append]
          conv_rhs => rw [← List.map_id (o.phasesOf j)]
          apply List.map_congr_left
          intro p hp
          have := ho.phaseKey _ (mem_phasesOf.1 hp)
          cases p; simp [relabel] at this ⊢; exact this.symm
        · rw [if_neg hj, if_neg hj]; simp
      obtain ⟨c', g1, g2, g3, g4, g5⟩ := ih hnd.2 hin' c₁ hs1
      refine ⟨c', ?_, g2, ?_, ?_, ?_⟩
      · unfold addAllLoop
        rw [if_neg (by simp only; rw [hid, hck]; simp)]
        rw [hid, hadd1]
        exact g1
      · intro j
        rw [g3, hev]
        by_cases hj : j = k
        · subst hj; simp [hck, hek, -List.mem_map]
        · simp [hj, -List.mem_map]
      · intro j
        rw [g4, hev, hph]
        by_cases hj : j = k
        · subst hj; simp [hck, -List.mem_map]
        · simp [hj, -List.mem_map]
      · intro s
        rw [g5, hcop.stations, hid]
        cases hcs : c.stations.find? s with
        | some y => rfl
        | none =>
          simp only [Option.none_or]
          have hne : ∀ kv ∈ kvs, kv.1 ≠ k := by
            intro kv hkv he
            exact hnd.1 (by rw [← he]; exact List.mem_map.2 ⟨kv, hkv, rfl⟩)
          by_cases h1 : s ∈ (o.phasesOf k).map (·.stationId)
          · have hx : ∃ kv ∈ (k, e) :: kvs, c.events.find? kv.1 = none ∧
                s ∈ (o.phasesOf kv.1).map (·.stationId) := ⟨(k, e), List.mem_cons_self, hck, h1⟩
            rw [if_pos h1, if_pos hx]
            cases o.stations.find? s <;> (try split) <;> rfl
          · rw [if_neg h1, Option.none_or]
            congr 1
            apply propext
            constructor
            · rintro ⟨kv, hkv, h2, h3⟩
              rw [hev, if_neg (hne kv hkv)] at h2
              exact ⟨kv, by simp [hkv], h2, h3⟩
            · rintro ⟨kv, hkv, h2, h3⟩
              rcases List.mem_cons.1 hkv with rfl | hkv
              · exact absurd h3 h1
              · exact ⟨kv, hkv, by rw [hev, if_neg (hne kv hkv)]; exact h2, h3⟩

/-- **C13b.** Merging `b` into `a` keeping ids: events of `a` and their phases are unchanged, events
of `b` whose id is in `a` are skipped and all others are copied with their phases and stations.  Phases of `b` without event are
left out. -/
theorem catalog_merge_keep_ids {a b : Catalog D} (ha : Sound a) (hb : Placed b) :
    ∃ r, a.addAll b true = (r, .ok ()) ∧ Sound r ∧
      (∀ k, r.events.find? k = (a.events.find? k).or (b.events.find? k)) ∧
      (∀ k, r.phasesOf k = if (a.events.find? k).isSome then a.phasesOf k else if (b.events.find? k).isSome then b.phasesOf k else []) ∧
      (∀ s st, a.stations.find? s = some st → r.stations.find? s = some st) ∧
      (∀ s, a.stations.find? s = none → r.stations.find? s =
        if ∃ kp ∈ b.phases, a.events.find? kp.1 = none ∧ (b.events.find? kp.1).isSome ∧ kp.2.stationId = s then b.stations.find? s else none) := by
  obtain ⟨f1, f2, f3, f4⟩ := eventsSorted_facts hb.toWF
  obtain ⟨c', g1, g2, g3, g4, g5⟩ := addAllLoop_keep b hb b.eventsSorted f1 f2 a ha
  have hmem : ∀ k, k ∈ b.eventsSorted.map (·.1) ↔ (b.events.find? k).isSome := by
    intro k
    rw [List.mem_map, Option.isSome_iff_exists]
    constructor
    · rintro ⟨kv, hkv, rfl⟩; exact ⟨_, f2 kv hkv⟩
    · rintro ⟨e, he⟩; exact ⟨_, f3 k e he, rfl⟩
  refine ⟨c', g1, g2, ?_, ?_, ?_, ?_⟩
  · intro k
    rw [g3]
    congr 1
    by_cases h : (b.events.find? k).isSome
    · rw [if_pos ((hmem k).2 h)]
    · rw [if_neg (fun h' => h ((hmem k).1 h'))]
      simp at h; exact h.symm
  · intro k
    rw [g4]
    split
    · rfl
    · by_cases h : (b.events.find? k).isSome
      · rw [if_pos ((hmem k).2 h), if_pos h]
      · rw [if_neg (fun h' => h ((hmem k).1 h')), if_neg h]
  · intro s st hs; rw [g5, hs]; rfl
  · intro s hs
    rw [g5, hs, Option.none_or]
    congr 1
    apply propext
    constructor
    · rintro ⟨kv, hkv, hn, h⟩
      obtain ⟨p, hp, rfl⟩ := List.mem_map.1 h
      exact ⟨_, mem_phasesOf.1 hp, hn, by simp only; rw [f2 kv hkv]; rfl, rfl⟩
    · rintro ⟨kp, hkp, hn, hev, rfl⟩
      obtain ⟨e, he⟩ := Option.isSome_iff_exists.1 hev
      exact ⟨(kp.1, e), f3 _ _ he, hn, List.mem_map.2 ⟨kp.2, mem_phasesOf.2 hkp, rfl⟩⟩

/-! ### concrete catalogs meeting the hypotheses, and why "every phase has its event" is needed -/

section Examples

def exSta : Station Unit := ⟨"N.A.", (), (), (), "N", "A", ""⟩
def exEv (id : Nat) (t : Int) : Event Unit := ⟨id, t, (), (), (), (), false, (), ()⟩
def exPh (ev : Nat) (type : String) : Phase Unit :=
  ⟨ev, "N.A.", 0, (), (), type, "N", "A", "", "HHZ", .NO, (), .catalog, false, (), (), ()⟩

/-- one station, one event with two phases -/
def exCat (id : Nat) (t : Int) : Catalog Unit :=
  ⟨[("N.A.", exSta)], [(id, exEv id t)], [(id, exPh id "P"), (id, exPh id "S")]⟩

theorem exCat_sound (id : Nat) (h : id < uintMod) (t : Int) : Sound (exCat id t) := by
  refine ⟨⟨by simp [exCat, AMap.NodupKeys, AMap.keys], ?_, by simp [exCat, AMap.NodupKeys, AMap.keys],
    ?_, ?_⟩, ?_, ?_⟩
  · intro k s hs
    simp only [exCat, AMap.find?_cons] at hs
    split at hs
    · rename_i hk; simp at hs; subst hs; subst hk; decide
    · simp at hs
  · intro k s hs
    simp only [exCat, AMap.find?_cons] at hs
    split at hs
    · rename_i hk; simp at hs; subst hs; subst hk; exact ⟨rfl, h⟩
    · simp at hs
  · intro kp hkp; simp [exCat] at hkp; rcases hkp with rfl | rfl <;> rfl
  · intro kp hkp; simp [exCat] at hkp; rcases hkp with rfl | rfl <;> simp [exCat, AMap.find?_cons]
  · intro kp hkp; simp [exCat] at hkp
    rcases hkp with rfl | rfl <;> simp [exCat, AMap.find?_cons, exPh]

/-- the hypotheses of C12 and C13 are met by non-trivial catalogs -/
example : Sound (exCat 1 10) ∧ Sound (exCat 5 20) ∧
    (∀ k, ((exCat 1 10).events.find? k).isSome → k + (exCat 5 20).events.length < uintMod) ∧
    ((exCat 1 10).addAll (exCat 5 20) false).1.events.keys = [2, 1] ∧
    ((exCat 1 10).addAll (exCat 5 20) true).1.events.keys = [5, 1] := by
  refine ⟨exCat_sound _ (by decide) _, exCat_sound _ (by decide) _, ?_, ?_, ?_⟩
  · intro k hk
    simp only [exCat, AMap.find?_cons] at hk
    split at hk
    · rename_i h; subst h; decide
    · simp at hk
  · simp [addAll, addAllLoop, eventsSorted, exCat, addFrom, AMap.find?_cons, addEvent, maxKey,
      AMap.keys, uintMod, exEv, AMap.set, AMap.erase, phasesOf, copyPhases, copyPhase, exPh,
      addStation, addPhase, stationIdOf, exSta]
  · simp [addAll, addAllLoop, eventsSorted, exCat, addFrom, AMap.find?_cons, addEvent, maxKey,
      AMap.keys, uintMod, exEv, AMap.set, AMap.erase, phasesOf, copyPhases, copyPhase, exPh,
      addStation, addPhase, stationIdOf, exSta]

/-- **C13 needs "every phase has its event".**  Reading files keeps a phase whose event id is not in
the event file; merging with new ids can then give that orphan phase to an unrelated event: here the
merged event gets three phases instead of two. -/
theorem catalog_merge_adopts_orphan_phase :
    ∃ a : Catalog Unit, Reachable a ∧ (a.addAll (exCat 5 20) false).2 = .ok () ∧
      (a.addAll (exCat 5 20) false).1.events.find? 2 = some (exEv 2 20) ∧
      ((a.addAll (exCat 5 20) false).1.phasesOf 2).length = 3 ∧
      ((exCat 5 20).phasesOf 5).length = 2 := by
  refine ⟨⟨[("N.A.", exSta)], [(1, exEv 1 10)], [(2, exPh 2 "P")]⟩, ?_, ?_⟩
  · refine Reachable.ofRows (ss := [exSta]) (es := [exEv 1 10]) (ps := [exPh 2 "P"]) ?_ ?_
    · intro e he; simp at he; subst he; decide
    · simp [ofRows, AMap.set, AMap.erase, AMap.find?_cons, exSta, exPh, stationIdOf, exEv]
  · simp [addAll, addAllLoop, eventsSorted, exCat, addFrom, AMap.find?_cons, addEvent, maxKey,
      AMap.keys, uintMod, exEv, AMap.set, AMap.erase, phasesOf, copyPhases, copyPhase, exPh,
      addStation, addPhase, stationIdOf, exSta, List.filter]

end Examples

/-! ## C14 -/

/-- **C14a.** Classification: P iff in the P list; S iff in the S list and not in the P list;
otherwise ignored. -/
theorem phase_classification (validP validS : List String) (type : String) :
    (classify validP validS type = .P ↔ type ∈ validP) ∧
    (classify validP validS type = .S ↔ type ∈ validS ∧ type ∉ validP) ∧
    (classify validP validS type = .NO ↔ type ∉ validP ∧ type ∉ validS) := by
  unfold classify
  by_cases h1 : type ∈ validP <;> by_cases h2 : type ∈ validS <;> simp [h1, h2]

/-- **C14b.** `fillProcessingInfo` leaves events and stations alone and relabels every phase of
every event: no phase of an event is lost, duplicated or given to another event, and only the
processing attributes change. -/
theorem fillProcessingInfo_phases {c : Catalog D} (h : WF c) (src : Source) (vp vs : List String)
    (w : Phase D → D) :
    (c.fillProcessingInfo src vp vs w).events = c.events ∧
    (c.fillProcessingInfo src vp vs w).stations = c.stations ∧
    ∀ k, (c.fillProcessingInfo src vp vs w).phasesOf k =
      if (c.events.find? k).isSome then (c.phasesOf k).map fun p =>
        { p with classWeight := w p, source := src, procType := classify vp vs p.type }
      else [] := by
  refine ⟨rfl, rfl, ?_⟩
  intro k
  obtain ⟨f1, f2, f3, _⟩ := eventsSorted_facts h
  have aux : ∀ kvs : List (Nat × Event D), (kvs.map (·.1)).Nodup →
      (∀ kv ∈ kvs, c.events.find? kv.1 = some kv.2) →
      ((kvs.flatMap fun kv => (c.phasesOf kv.2.id).map fun p =>
        (({ p with classWeight := w p, source := src, procType := classify vp vs p.type }
          : Phase D).eventId,
         { p with classWeight := w p, source := src, procType := classify vp vs p.type })).filter
          (fun kp => kp.1 = k)).map (·.2) =
      if k ∈ kvs.map (·.1) then (c.phasesOf k).map fun p =>
        { p with classWeight := w p, source := src, procType := classify vp vs p.type }
      else [] := by
    intro kvs hnd hin
    induction kvs with
    | nil => simp
    | cons kv kvs ih =>
      simp only [List.map_cons, List.nodup_cons] at hnd
      rw [List.flatMap_cons, List.filter_append, List.map_append,
        ih hnd.2 (fun kv hkv => hin kv (by simp [hkv]))]
      have hid := (h.eventKey _ _ (hin kv (by simp))).1
      rw [hid]
      have hpk : ∀ p ∈ c.phasesOf kv.1, p.eventId = kv.1 :=
        fun p hp => h.phaseKey _ (mem_phasesOf.1 hp)
      by_cases hk : k = kv.1
      · subst hk
        rw [if_neg hnd.1, if_pos (by simp), List.append_nil]
        rw [List.filter_eq_self.2]
        · simp
        · intro a ha
          simp at ha
          obtain ⟨p, hp, rfl⟩ := ha
          simpa using hpk p hp
      · rw [List.filter_eq_nil_iff.2]
        · simp [hk, -List.mem_map]
        · intro a ha
          simp at ha
          obtain ⟨p, hp, rfl⟩ := ha
          simp [hpk p hp]; exact fun h => hk h.symm
  have := aux c.eventsSorted f1 f2
  have hmem : k ∈ c.eventsSorted.map (·.1) ↔ (c.events.find? k).isSome := by
    rw [List.mem_map, Option.isSome_iff_exists]
    constructor
    · rintro ⟨kv, hkv, rfl⟩; exact ⟨_, f2 kv hkv⟩
    · rintro ⟨e, he⟩; exact ⟨_, f3 k e he, rfl⟩
  simp only [hmem] at this
  exact this

theorem classLoop_bound (u : ℚ) (l : List ℚ) (curr j : Nat) (h : classLoop u curr l = some j) :
    curr ≤ j ∧ j + 1 < curr + l.length := by
  induction l generalizing curr with
  | nil => simp [classLoop] at h
  | cons a l ih =>
    cases l with
    | nil => simp [classLoop] at h
    | cons b l =>
      unfold classLoop at h
      split at h
      · simp at h; subst h; simp
      · have := ih (curr + 1) h
        simp only [List.length_cons] at *
        omega

/-- **C14c.** Every weight is `1/2^k` with `k` a class index, hence positive and at most 1. -/
theorem pick_weight_range (u : Option ℚ) (classes : List ℚ) :
    ∃ k : Nat, (k = 0 ∨ k < classes.length) ∧ computePickWeight u classes = 1 / 2 ^ k := by
  unfold computePickWeight
  split
  · exact ⟨0, .inl rfl, by simp⟩
  · rename_i hlen
    simp only
    refine ⟨_, ?_, rfl⟩
    right
    cases u with
    | none => simp only; omega
    | some u =>
      simp only
      split
      · cases hcl : classLoop u 0 classes with
        | none => simp; omega
        | some j =>
          have := classLoop_bound u classes 0 j hcl
          simp; omega
      · omega

/-- a larger `u` is never found in an earlier class interval -/
theorem classLoop_mono {u v : ℚ} (huv : u ≤ v) (l : List ℚ) (hl : l.Pairwise (· ≤ ·)) (curr j : Nat)
    (hu : ∀ a ∈ l.head?, a ≤ u) (h : classLoop v curr l = some j) :
    ∃ i ≤ j, classLoop u curr l = some i := by
  induction l generalizing curr with
  | nil => simp [classLoop] at h
  | cons a l ih =>
    cases l with
    | nil => simp [classLoop] at h
    | cons b l =>
      have ha : a ≤ u := hu a (by simp)
      unfold classLoop at h ⊢
      by_cases hub : u ≤ b
      · rw [if_pos ⟨ha, hub⟩]
        refine ⟨curr, ?_, rfl⟩
        split at h
        · simp at h; omega
        · have := classLoop_bound v (b :: l) (curr + 1) j h; omega
      · rw [if_neg (by intro h; exact hub h.2)]
        rw [if_neg (by rintro ⟨_, hvb⟩; exact hub (le_trans huv hvb))] at h
        exact ih (List.Pairwise.of_cons hl) (curr + 1) (by simp; exact le_of_lt (not_le.1 hub)) h

theorem classLoop_total {u : ℚ} (l : List ℚ) (curr : Nat) (hu : ∀ a ∈ l.head?, a ≤ u)
    (hlast : ∀ z ∈ l.getLast?, u < z) (hlen : 2 ≤ l.length) :
    (classLoop u curr l).isSome := by
  induction l generalizing curr with
  | nil => simp at hlen
  | cons a l ih =>
    cases l with
    | nil => simp at hlen
    | cons b l =>
      unfold classLoop
      by_cases hub : u ≤ b
      · rw [if_pos ⟨hu a (by simp), hub⟩]; rfl
      · rw [if_neg (by intro h; exact hub h.2)]
        cases l with
        | nil =>
          have := hlast b (by simp)
          exact absurd (le_of_lt this) hub
        | cons c l =>
          apply ih
          · simp; exact le_of_lt (not_le.1 hub)
          · intro z hz; exact hlast z (by simpa using hz)
          · simp

/-- **C14d.** When the class list is increasing and its first limit is not above 0 (as in the
default 0, 0.025, …), a larger uncertainty never gets a larger weight, and a missing uncertainty
never gets a larger weight than any known one. -/
theorem pick_weight_antitone_partial (classes : List ℚ) (hinc : classes.Pairwise (· ≤ ·))
    (h0 : ∀ a ∈ classes.head?, a ≤ 0) {u v : ℚ} (hu : 0 ≤ u) (huv : u ≤ v) :
    computePickWeight (some v) classes ≤ computePickWeight (some u) classes ∧
    computePickWeight none classes ≤ computePickWeight (some u) classes := by
  unfold computePickWeight
  by_cases hlen : classes.length < 2
  · simp [hlen]
  · simp only [if_neg hlen]
    have hv : 0 ≤ v := le_trans hu huv
    have hle : ∀ {i j : Nat}, i ≤ j → (1 : ℚ) / 2 ^ j ≤ 1 / 2 ^ i := by
      intro i j hij
      apply one_div_le_one_div_of_le (by positivity)
      exact pow_le_pow_right₀ (by norm_num) hij
    have hlast : ∀ {w : ℚ}, w < classes.getLast?.getD 0 → ∀ z ∈ classes.getLast?, w < z := by
      intro w hw z hz; rw [Option.mem_def.1 hz] at hw; simpa using hw
    have hidx : ∀ {w : ℚ}, (classLoop w 0 classes).getD (classes.length - 1) ≤ classes.length - 1 := by
      intro w
      cases hc : classLoop w 0 classes with
      | none => simp
      | some i => have := classLoop_bound w classes 0 i hc; simp; omega
    constructor
    · apply hle
      by_cases hvl : v < classes.getLast?.getD 0
      · rw [if_pos ⟨hu, lt_of_le_of_lt huv hvl⟩, if_pos ⟨hv, hvl⟩]
        have hsome := classLoop_total (u := v) classes 0
          (fun a ha => le_trans (h0 a ha) hv) (hlast hvl) (by omega)
        obtain ⟨j, hj⟩ := Option.isSome_iff_exists.1 hsome
        obtain ⟨i, hij, hi⟩ := classLoop_mono huv classes hinc 0 j
          (fun a ha => le_trans (h0 a ha) hu) hj
        rw [hi, hj]; simpa using hij
      · rw [if_neg (c := 0 ≤ v ∧ v < classes.getLast?.getD 0) (fun h => hvl h.2)]
        split
        · exact hidx
        · exact le_rfl
    · apply hle
      split
      · exact hidx
      · exact le_rfl

example : ([0, 1/40, 1/20, 1/10] : List ℚ).Pairwise (· ≤ ·) ∧
    (∀ a ∈ ([0, 1/40, 1/20, 1/10] : List ℚ).head?, a ≤ 0) ∧
    computePickWeight (some (3/100)) [0, 1/40, 1/20, 1/10] = 1/2 := by
  refine ⟨by norm_num, by norm_num, ?_⟩
  norm_num [computePickWeight, classLoop]

/-- **C14 as stated is false when the first class limit is positive**: an uncertainty below it gets
the lowest weight of all. -/
theorem pick_weight_best_pick_lowest :
    computePickWeight (some (1/100)) [1/40, 1/20, 1/10] = 1/4 ∧
    computePickWeight (some (3/100)) [1/40, 1/20, 1/10] = 1 := by
  constructor <;> norm_num [computePickWeight, classLoop]

end Verif.Catalog.Catalog
