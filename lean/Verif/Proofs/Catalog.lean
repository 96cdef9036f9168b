import Verif.Spec.Catalog
import Mathlib.Tactic.Common
import Mathlib.Tactic.Ring
import Mathlib.Tactic.Linarith

/-! Helper lemmas for C11–C13. -/

set_option linter.unusedSectionVars false
set_option linter.unusedSimpArgs false

namespace Verif.Catalog.Catalog
variable {D : Type}

/-! ### stations -/

@[simp] theorem addStation_events (c : Catalog D) (s : Station D) :
    (c.addStation s).events = c.events := by unfold addStation; simp only; split <;> rfl

@[simp] theorem addStation_phases (c : Catalog D) (s : Station D) :
    (c.addStation s).phases = c.phases := by unfold addStation; simp only; split <;> rfl

theorem addStation_find (c : Catalog D) (s : Station D) (k : String) :
    (c.addStation s).stations.find? k = (c.stations.find? k).or
      (if k = stationIdOf s.networkCode s.stationCode s.locationCode then some { s with id := k }
       else none) := by
  unfold addStation; simp only
  split
  · rename_i x hx
    by_cases hk : k = stationIdOf s.networkCode s.stationCode s.locationCode
    · subst hk; rw [hx]; rfl
    · rw [if_neg hk]; simp
  · rename_i hx
    simp only [AMap.find?_set]
    by_cases hk : k = stationIdOf s.networkCode s.stationCode s.locationCode
    · subst hk; simp [hx]
    · simp [hk]

theorem WF.addStation {c : Catalog D} (h : WF c) (s : Station D) : WF (c.addStation s) := by
  refine ⟨?_, ?_, by simpa using h.eventsUnique, by simpa using h.eventKey, by simpa using h.phaseKey⟩
  · unfold Catalog.addStation; simp only; split
    · exact h.stationsUnique
    · exact AMap.nodupKeys_set h.stationsUnique _ _
  · intro id x hx
    rw [addStation_find] at hx
    cases hf : c.stations.find? id with
    | some y => rw [hf] at hx; simp at hx; subst hx; exact h.stationKey _ _ hf
    | none =>
      rw [hf] at hx
      by_cases hk : id = stationIdOf s.networkCode s.stationCode s.locationCode
      · rw [if_pos hk] at hx; simp at hx; subst hx; exact ⟨rfl, hk.symm⟩
      · rw [if_neg hk] at hx; simp at hx

/-! ### events -/

theorem le_foldl_max (l : List Nat) (a : Nat) : a ≤ l.foldl max a ∧ ∀ x ∈ l, x ≤ l.foldl max a := by
  induction l generalizing a with
  | nil => simp
  | cons y l ih =>
    obtain ⟨h1, h2⟩ := ih (max a y)
    simp only [List.foldl_cons]
    refine ⟨by omega, ?_⟩
    intro x hx
    rcases List.mem_cons.1 hx with rfl | hx
    · omega
    · exact h2 x hx

theorem foldl_max_le (l : List Nat) (a b : Nat) (ha : a ≤ b) (h : ∀ x ∈ l, x ≤ b) :
    l.foldl max a ≤ b := by
  induction l generalizing a with
  | nil => simpa
  | cons y l ih =>
    simp only [List.foldl_cons]
    exact ih _ (by have := h y (by simp); omega) (fun x hx => h x (by simp [hx]))

theorem le_maxKey {c : Catalog D} {k : Nat} {e : Event D} (h : c.events.find? k = some e) :
    k ≤ c.maxKey := (le_foldl_max _ 0).2 k (AMap.mem_keys_of_find? h)

theorem maxKey_lt {c : Catalog D} (h : WF c) : c.maxKey < uintMod := by
  have : c.maxKey ≤ uintMod - 1 := by
    apply foldl_max_le
    · omega
    · intro x hx
      rw [← AMap.find?_isSome, Option.isSome_iff_exists] at hx
      obtain ⟨e, he⟩ := hx
      have := (h.eventKey x e he).2
      omega
  unfold uintMod at *; omega

theorem addEvent_false (c : Catalog D) (e : Event D) (h : c.maxKey + 1 < uintMod) :
    c.addEvent e false = ({ c with events := c.events.set (c.maxKey + 1) { e with id := c.maxKey + 1 } },
      .ok (c.maxKey + 1)) ∧ c.events.find? (c.maxKey + 1) = none := by
  constructor
  · unfold addEvent; simp [Nat.mod_eq_of_lt h]
  · cases hf : c.events.find? (c.maxKey + 1) with
    | none => rfl
    | some e => have := le_maxKey hf; omega

theorem addEvent_true {c : Catalog D} {e : Event D} (h : c.events.find? e.id = none) :
    c.addEvent e true = ({ c with events := c.events.set e.id e }, .ok e.id) := by
  unfold addEvent; simp [h]

@[simp] theorem addEvent_stations (c : Catalog D) (e : Event D) (k : Bool) :
    (c.addEvent e k).1.stations = c.stations := by
  unfold addEvent; split
  · split <;> rfl
  · rfl

@[simp] theorem addEvent_phases (c : Catalog D) (e : Event D) (k : Bool) :
    (c.addEvent e k).1.phases = c.phases := by
  unfold addEvent; split
  · split <;> rfl
  · rfl

theorem WF.setEvent {c : Catalog D} (h : WF c) (e : Event D) (hid : e.id < uintMod) :
    WF { c with events := c.events.set e.id e } := by
  refine ⟨h.stationsUnique, h.stationKey, AMap.nodupKeys_set h.eventsUnique _ _, ?_, h.phaseKey⟩
  intro k x hx
  simp only [AMap.find?_set] at hx
  by_cases hk : k = e.id
  · rw [if_pos hk] at hx; simp at hx; subst hx; exact ⟨hk.symm, hk ▸ hid⟩
  · rw [if_neg hk] at hx; exact h.eventKey k x hx

theorem WF.addEvent {c : Catalog D} (h : WF c) (e : Event D) (k : Bool) (hid : e.id < uintMod) :
    WF (c.addEvent e k).1 := by
  unfold Catalog.addEvent
  split
  · split
    · exact h
    · exact h.setEvent e hid
  · exact h.setEvent { e with id := (c.maxKey + 1) % uintMod } (Nat.mod_lt _ (by unfold uintMod; omega))

/-! ### phases -/

theorem WF.addPhase {c : Catalog D} (h : WF c) (p : Phase D) : WF (c.addPhase p) := by
  refine ⟨h.stationsUnique, h.stationKey, h.eventsUnique, h.eventKey, ?_⟩
  intro kp hkp
  rcases List.mem_append.1 hkp with hkp | hkp
  · exact h.phaseKey kp hkp
  · simp at hkp; subst hkp; rfl

theorem WF.copyPhases {c : Catalog D} (h : WF c) (sts : AMap String (Station D)) (n : Nat)
    (ps : List (Phase D)) : WF (copyPhases sts n c ps).1 := by
  induction ps generalizing c with
  | nil => exact h
  | cons p ps ih =>
    unfold Catalog.copyPhases copyPhase
    cases hf : sts.find? p.stationId with
    | none => simpa
    | some s => simpa using ih ((h.addStation s).addPhase _)

@[simp] theorem copyPhases_events (c : Catalog D) (sts : AMap String (Station D)) (n : Nat)
    (ps : List (Phase D)) : (copyPhases sts n c ps).1.events = c.events := by
  induction ps generalizing c with
  | nil => rfl
  | cons p ps ih =>
    unfold copyPhases copyPhase
    cases hf : sts.find? p.stationId with
    | none => rfl
    | some s => simp only; rw [ih]; simp [addPhase]

/-- re-labelling of a copied phase -/
def relabel (n : Nat) (p : Phase D) : Phase D := { p with eventId := n }

/-- effect of the copy loop when all stations are known -/
theorem copyPhases_ok (sts : AMap String (Station D))
    (hsts : ∀ id s, sts.find? id = some s →
      s.id = id ∧ stationIdOf s.networkCode s.stationCode s.locationCode = id)
    (n : Nat) (ps : List (Phase D)) (hps : ∀ p ∈ ps, (sts.find? p.stationId).isSome)
    (c : Catalog D) :
    ∃ c', copyPhases sts n c ps = (c', .ok ()) ∧ c'.events = c.events ∧
      c'.phases = c.phases ++ ps.map (fun p => (n, relabel n p)) ∧
      ∀ k, c'.stations.find? k = (c.stations.find? k).or
        (if k ∈ ps.map (·.stationId) then sts.find? k else none) := by
  induction ps generalizing c with
  | nil => exact ⟨c, rfl, rfl, by simp, by simp⟩
  | cons p ps ih =>
    obtain ⟨s, hs⟩ := Option.isSome_iff_exists.1 (hps p (by simp))
    have hk := hsts _ _ hs
    obtain ⟨c', h1, h2, h3, h4⟩ := ih (fun q hq => hps q (by simp [hq]))
      ((c.addStation s).addPhase (relabel n p))
    refine ⟨c', ?_, ?_, ?_, ?_⟩
    · unfold copyPhases copyPhase; rw [hs]; exact h1
    · rw [h2]; simp [addPhase]
    · rw [h3]; simp [addPhase, relabel]
    · intro k
      rw [h4]
      have : ((c.addStation s).addPhase (relabel n p)).stations = (c.addStation s).stations := rfl
      rw [this, addStation_find, hk.2]
      by_cases e : k = p.stationId
      · subst e
        have es : ({ s with id := p.stationId } : Station D) = s := by
          cases s; simp at hk ⊢; exact hk.1.symm
        simp [hs, es]
      · rw [if_neg e]
        simp [e]

theorem mem_phasesOf {c : Catalog D} {id : Nat} {p : Phase D} :
    p ∈ c.phasesOf id ↔ (id, p) ∈ c.phases := by
  unfold phasesOf
  simp [List.mem_map, List.mem_filter]

theorem WF.addFrom {c : Catalog D} (h : WF c) {o : Catalog D} (ho : WF o) (id : Nat) (k : Bool) :
    WF (c.addFrom id o k).1 := by
  unfold Catalog.addFrom
  cases hf : o.events.find? id with
  | none => exact h
  | some e =>
    simp only
    have hw := h.addEvent e k (by rw [(ho.eventKey _ _ hf).1]; exact (ho.eventKey _ _ hf).2)
    generalize hae : c.addEvent e k = r at hw
    obtain ⟨c', oc⟩ := r
    cases oc with
    | throws => exact hw
    | ub => exact hw
    | ok n =>
      simp only
      have hw2 := hw.copyPhases o.stations n (o.phasesOf e.id)
      simp only at hw2
      generalize hcp : Catalog.copyPhases o.stations n c' (o.phasesOf e.id) = r at hw2
      obtain ⟨c'', oc⟩ := r
      cases oc <;> exact hw2

theorem WF.addAllLoop {c : Catalog D} (h : WF c) {o : Catalog D} (ho : WF o) (k : Bool)
    (kvs : List (Nat × Event D)) : WF (addAllLoop o k c kvs).1 := by
  induction kvs generalizing c with
  | nil => exact h
  | cons kv kvs ih =>
    unfold Catalog.addAllLoop
    split
    · exact ih h
    · have hw := h.addFrom ho kv.2.id k
      generalize c.addFrom kv.2.id o k = r at hw
      obtain ⟨c', oc⟩ := r
      cases oc with
      | ok n => exact ih hw
      | throws => exact hw
      | ub => exact hw

theorem WF.init : WF (Catalog.init : Catalog D) :=
  ⟨List.nodup_nil, (fun _ _ h => by cases h), List.nodup_nil, (fun _ _ h => by cases h),
    (fun _ h => by cases h)⟩

theorem WF.extractEvent {c x : Catalog D} (h : WF c) {id : Nat} {k : Bool}
    (hx : c.extractEvent id k = .ok x) : WF x := by
  unfold Catalog.extractEvent at hx
  cases hf : c.events.find? id with
  | none => rw [hf] at hx; cases hx
  | some e =>
    rw [hf] at hx; simp only at hx
    have hw := (WF.init (D := D)).addEvent e k
      (by rw [(h.eventKey _ _ hf).1]; exact (h.eventKey _ _ hf).2)
    generalize hae : Catalog.init.addEvent e k = r at hw hx
    obtain ⟨c', oc⟩ := r
    cases oc with
    | throws => cases hx
    | ub => cases hx
    | ok n =>
      simp only at hx
      have hw2 := hw.copyPhases c.stations n (c.phasesOf e.id)
      simp only at hw2
      generalize Catalog.copyPhases c.stations n c' (c.phasesOf e.id) = r at hw2 hx
      obtain ⟨c'', oc⟩ := r
      cases oc with
      | ok _ => simp at hx; subst hx; exact hw2
      | throws => cases hx
      | ub => cases hx

theorem WF.removeEvent {c : Catalog D} (h : WF c) (id : Nat) : WF (c.removeEvent id) := by
  refine ⟨h.stationsUnique, h.stationKey, AMap.nodupKeys_erase h.eventsUnique _, ?_, ?_⟩
  · intro k e hk
    simp only [Catalog.removeEvent, AMap.find?_erase] at hk
    split at hk
    · cases hk
    · exact h.eventKey k e hk
  · intro kp hkp
    simp [Catalog.removeEvent] at hkp
    exact h.phaseKey kp hkp.1

theorem WF.updateStation {c : Catalog D} (h : WF c) (s : Station D) (a : Bool)
    (hs : s.id = stationIdOf s.networkCode s.stationCode s.locationCode) :
    WF (c.updateStation s a).1 := by
  unfold Catalog.updateStation
  split
  · refine ⟨AMap.nodupKeys_set h.stationsUnique _ _, ?_, h.eventsUnique, h.eventKey, h.phaseKey⟩
    intro k x hx
    simp only [AMap.find?_set] at hx
    split at hx
    · rename_i e; simp at hx; subst hx; exact ⟨e.symm, by rw [e, hs]⟩
    · exact h.stationKey k x hx
  · simp only; split
    · exact h.addStation s
    · exact h

theorem WF.updateEvent {c : Catalog D} (h : WF c) (e : Event D) (a k : Bool) (hid : e.id < uintMod) :
    WF (c.updateEvent e a k).1 := by
  unfold Catalog.updateEvent
  split
  · exact h.setEvent e hid
  · split
    · have hw := h.addEvent e k hid
      generalize c.addEvent e k = r at hw
      obtain ⟨c', oc⟩ := r
      cases oc <;> exact hw
    · exact h

theorem WF.foldl_addStation {c : Catalog D} (h : WF c) (ss : List (Station D)) :
    WF (ss.foldl Catalog.addStation c) := by
  induction ss generalizing c with
  | nil => exact h
  | cons s ss ih => exact ih (h.addStation s)

theorem WF.foldl_addPhase {c : Catalog D} (h : WF c) (ps : List (Phase D)) :
    WF (ps.foldl Catalog.addPhase c) := by
  induction ps generalizing c with
  | nil => exact h
  | cons s ss ih => exact ih (h.addPhase s)

theorem WF.addEvents {c : Catalog D} (h : WF c) (es : List (Event D)) (hid : ∀ e ∈ es, e.id < uintMod) :
    WF (c.addEvents es).1 := by
  induction es generalizing c with
  | nil => exact h
  | cons e es ih =>
    unfold Catalog.addEvents
    have hw := h.addEvent e true (hid e (by simp))
    generalize c.addEvent e true = r at hw
    obtain ⟨c', oc⟩ := r
    cases oc with
    | ok n => exact ih hw (fun x hx => hid x (by simp [hx]))
    | throws => exact hw
    | ub => exact hw

theorem ofRows_stations (ss : List (Station D)) (m : AMap String (Station D))
    (hn : m.NodupKeys) (hk : ∀ id s, m.find? id = some s →
      s.id = id ∧ stationIdOf s.networkCode s.stationCode s.locationCode = id) :
    let r := ss.foldl (fun (m : AMap String (Station D)) s =>
      let id := stationIdOf s.networkCode s.stationCode s.locationCode
      m.set id { s with id := id }) m
    r.NodupKeys ∧ ∀ id s, r.find? id = some s →
      s.id = id ∧ stationIdOf s.networkCode s.stationCode s.locationCode = id := by
  induction ss generalizing m with
  | nil => exact ⟨hn, hk⟩
  | cons s ss ih =>
    apply ih
    · exact AMap.nodupKeys_set hn _ _
    · intro id x hx
      simp only [AMap.find?_set] at hx
      split at hx
      · rename_i e; simp at hx; subst hx; exact ⟨e.symm, e.symm⟩
      · exact hk id x hx

theorem ofRows_events (es : List (Event D)) (hid : ∀ e ∈ es, e.id < uintMod)
    (m : AMap Nat (Event D))
    (hn : m.NodupKeys) (hk : ∀ id e, m.find? id = some e → e.id = id ∧ id < uintMod) :
    let r := es.foldl (fun (m : AMap Nat (Event D)) e => m.set e.id e) m
    r.NodupKeys ∧ ∀ id e, r.find? id = some e → e.id = id ∧ id < uintMod := by
  induction es generalizing m with
  | nil => exact ⟨hn, hk⟩
  | cons e es ih =>
    apply ih (fun x hx => hid x (by simp [hx]))
    · exact AMap.nodupKeys_set hn _ _
    · intro id x hx
      simp only [AMap.find?_set] at hx
      split at hx
      · rename_i h; simp at hx; subst hx; exact ⟨h.symm, h ▸ hid e (by simp)⟩
      · exact hk id x hx

theorem WF.ofRows {ss : List (Station D)} {es : List (Event D)} {ps : List (Phase D)} {c : Catalog D}
    (hid : ∀ e ∈ es, e.id < uintMod) (h : ofRows ss es ps = .ok c) :
    WF c ∧ ∀ kp ∈ c.phases, (c.stations.find? kp.2.stationId).isSome := by
  unfold Catalog.ofRows at h
  simp only at h
  split at h
  · rename_i hall
    simp at h
    subst h
    have h1 := ofRows_stations ss [] AMap.nodupKeys_nil (by intro _ _ h; cases h)
    have h2 := ofRows_events es hid [] AMap.nodupKeys_nil (by intro _ _ h; cases h)
    refine ⟨⟨h1.1, h1.2, h2.1, h2.2, ?_⟩, ?_⟩
    · intro kp hkp
      simp at hkp
      obtain ⟨p, _, rfl⟩ := hkp
      rfl
    · intro kp hkp
      simp at hkp hall
      obtain ⟨p, hp, rfl⟩ := hkp
      exact hall p hp
  · cases h

theorem eventsSorted_perm (c : Catalog D) : c.eventsSorted.Perm c.events := List.perm_insertionSort _ _

theorem WF.fillProcessingInfo {c : Catalog D} (h : WF c) (src : Source) (vp vs : List String)
    (w : Phase D → D) : WF (c.fillProcessingInfo src vp vs w) := by
  refine ⟨h.stationsUnique, h.stationKey, h.eventsUnique, h.eventKey, ?_⟩
  intro kp hkp
  simp only [Catalog.fillProcessingInfo, List.mem_flatMap, List.mem_map] at hkp
  obtain ⟨kv, _, p, _, rfl⟩ := hkp
  rfl

theorem Reachable.wf {c : Catalog D} (h : Reachable c) : WF c := by
  induction h with
  | init => exact WF.init
  | @ofLists ss es ps c hid h =>
    unfold Catalog.ofLists at h
    have hw := ((WF.init (D := D)).foldl_addStation ss).addEvents es hid
    generalize (List.foldl Catalog.addStation Catalog.init ss).addEvents es = r at hw h
    obtain ⟨c', oc⟩ := r
    cases oc with
    | ok _ => simp at h; subst h; exact hw.foldl_addPhase ps
    | throws => cases h
    | ub => cases h
  | ofRows hid h => exact (WF.ofRows hid h).1
  | addStation s _ ih => exact ih.addStation s
  | addEvent e k hid _ ih => exact ih.addEvent e k hid
  | addPhase p _ ih => exact ih.addPhase p
  | addFrom id k _ _ ih ih' => exact ih.addFrom ih' id k
  | addAll k _ _ ih ih' => exact ih.addAllLoop ih' k _
  | extractEvent id k _ hx ih => exact ih.extractEvent hx
  | removeEvent id _ ih => exact ih.removeEvent id
  | removePhase id s t _ ih =>
    refine ⟨ih.stationsUnique, ih.stationKey, ih.eventsUnique, ih.eventKey, ?_⟩
    intro kp hkp
    exact ih.phaseKey kp (List.mem_of_mem_eraseP hkp)
  | updateStation s a hs _ ih => exact ih.updateStation s a hs
  | updateEvent e a k hid _ ih => exact ih.updateEvent e a k hid
  | fillProcessingInfo src vp vs w _ ih => exact ih.fillProcessingInfo src vp vs w

/-! ### copying one event -/

theorem phasesOf_append (c c' : Catalog D) (l : List (Nat × Phase D))
    (h : c'.phases = c.phases ++ l) (k : Nat) :
    c'.phasesOf k = c.phasesOf k ++ (l.filter (fun kp => kp.1 = k)).map (·.2) := by
  unfold phasesOf; rw [h, List.filter_append, List.map_append]

theorem phasesOf_copied (c c' : Catalog D) (n : Nat) (ps : List (Phase D))
    (h : c'.phases = c.phases ++ ps.map (fun p => (n, relabel n p))) (k : Nat) :
    c'.phasesOf k = c.phasesOf k ++ if k = n then ps.map (relabel n) else [] := by
  rw [phasesOf_append c c' _ h]
  congr 1
  by_cases hk : k = n
  · subst hk
    rw [if_pos rfl]
    rw [List.filter_eq_self.2 (by intro a ha; simp at ha; obtain ⟨p, _, rfl⟩ := ha; simp)]
    simp
  · rw [if_neg hk]
    simp
    intro a _ ha
    exact absurd ha.symm hk

/-- All effects of a successful `add(evId, cat, keep)`: event stored under `n`, copied phases
appended, missing stations copied. -/
structure Copied (c : Catalog D) (o : Catalog D) (e : Event D) (n : Nat) (c' : Catalog D) : Prop where
  events : c'.events = c.events.set n { e with id := n }
  phases : ∀ k, c'.phasesOf k = c.phasesOf k ++
    if k = n then (o.phasesOf e.id).map (relabel n) else []
  allPhases : c'.phases = c.phases ++ (o.phasesOf e.id).map (fun p => (n, relabel n p))
  stations : ∀ k, c'.stations.find? k = (c.stations.find? k).or
    (if k ∈ (o.phasesOf e.id).map (·.stationId) then o.stations.find? k else none)

theorem addFrom_ok {c o : Catalog D} (ho : WF o)
    (hst : ∀ kp ∈ o.phases, (o.stations.find? kp.2.stationId).isSome)
    {id : Nat} {e : Event D} (he : o.events.find? id = some e) {keep : Bool}
    {n : Nat} {c₁ : Catalog D}
    (hadd : c.addEvent e keep = (c₁, .ok n)) (hset : c₁.events = c.events.set n { e with id := n }) :
    ∃ c', c.addFrom id o keep = (c', .ok n) ∧ Copied c o e n c' := by
  have hp : c₁.phases = c.phases := by rw [← addEvent_phases c e keep, hadd]
  have hs : c₁.stations = c.stations := by rw [← addEvent_stations c e keep, hadd]
  obtain ⟨c', h1, h2, h3, h4⟩ := copyPhases_ok o.stations ho.stationKey n (o.phasesOf e.id)
    (by intro p hp; exact hst (e.id, p) (mem_phasesOf.1 hp)) c₁
  refine ⟨c', ?_, ?_, ?_, ?_, ?_⟩
  · unfold addFrom; rw [he]; simp only; rw [hadd]; simp only; rw [h1]
  · rw [h2, hset]
  · intro k
    have := phasesOf_copied c₁ c' n _ h3 k
    rw [this]; unfold phasesOf; rw [hp]
  · rw [h3, hp]
  · intro k; rw [h4, hs]

theorem maxKey_set_le (c : Catalog D) (c' : Catalog D) (n : Nat) (e : Event D)
    (h : c'.events = c.events.set n e) (hn : c.maxKey ≤ n) : c'.maxKey = n := by
  unfold maxKey at *
  rw [h]
  have hmem : n ∈ (c.events.set n e).keys := AMap.mem_keys_set.2 (Or.inl rfl)
  refine le_antisymm ?_ ((le_foldl_max _ 0).2 n hmem)
  apply foldl_max_le _ _ _ (by omega)
  intro x hx
  rw [AMap.mem_keys_set] at hx
  rcases hx with rfl | hx
  · exact le_rfl
  · have := (le_foldl_max c.events.keys 0).2 x hx; omega

end Verif.Catalog.Catalog
