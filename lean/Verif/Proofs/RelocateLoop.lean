import Verif.Proofs.Relocate
import Verif.Props.Catalog
import Verif.Proofs.SolverPrepare

/-! Helper lemmas for C47, C49, C50: what each part of an iteration does to the catalog. -/

set_option linter.unusedSectionVars false
set_option linter.unusedSimpArgs false

namespace Verif.Relocate
open Verif.Catalog Verif.Solver

variable {K : Type} [Field K] [LinearOrder K]

/-- Same catalog, seen through lookups. -/
structure Same (c c' : Catalog K) (ids : Nat → Prop) : Prop where
  stations : ∀ s, c'.stations.find? s = c.stations.find? s
  events : ∀ k, ids k → c'.events.find? k = c.events.find? k
  phases : ∀ k, ids k → c'.phasesOf k = c.phasesOf k

theorem restore_spec {cur prev : Catalog K} (hc : cur.Sound) (hp : prev.Sound)
    (hst : ∀ s, prev.stations.find? s = cur.stations.find? s) {id : Nat} {e : Event K}
    (he : prev.events.find? id = some e) :
    ∃ c', (cur.removeEvent id).addFrom id prev true = (c', .ok id) ∧ c'.Sound ∧
      Same cur c' (· ≠ id) ∧ c'.events.find? id = some e ∧ c'.phasesOf id = prev.phasesOf id := by
  have hid := (hp.eventKey _ _ he).1
  have hlt := (hp.eventKey _ _ he).2
  obtain ⟨r1, r2, r3, r4⟩ := Catalog.catalog_removeEvent cur id
  have hnone : (cur.removeEvent id).events.find? e.id = none := by rw [hid]; exact r1
  have hadd := Catalog.addEvent_true hnone
  obtain ⟨c', k1, k2⟩ := Catalog.addFrom_ok hp.toWF hp.phaseStation he hadd (by simp)
  rw [hid] at k1 k2
  have hw' : c'.WF := by
    have := (hc.toWF.removeEvent id).addFrom hp.toWF id true
    rw [k1] at this; exact this
  have hmap : (prev.phasesOf id).map (Catalog.relabel id) = prev.phasesOf id := by
    conv_rhs => rw [← List.map_id (prev.phasesOf id)]
    apply List.map_congr_left
    intro p hpm
    have := hp.phaseKey _ (Catalog.mem_phasesOf.1 hpm)
    cases p; simp [Catalog.relabel] at this ⊢; exact this.symm
  refine ⟨c', k1, Catalog.Copied.sound (Catalog.removeEvent_sound hc id) hp.placed hlt k2 hw', ⟨?_, ?_, ?_⟩, ?_, ?_⟩
  · intro s
    rw [k2.stations, r4]
    cases h : cur.stations.find? s with
    | some x => rfl
    | none => rw [hst, h]; simp
  · intro k hk
    rw [k2.events, AMap.find?_set, if_neg hk]
    exact (r3 k hk).1
  · intro k hk
    rw [k2.phases, if_neg hk, (r3 k hk).2]; simp
  · rw [k2.events, AMap.find?_set, if_pos rfl]
    cases e; simp at hid ⊢; exact hid.symm
  · rw [k2.phases, if_pos rfl, r2, hid, hmap]; rfl

/-- a pick, with its status, without residuals -/
def pickOf (p : Phase K) : Phase K := { p with weight := 0, startResidual := 0, finalResidual := 0 }

/-- only residuals differ -/
structure Residuals (c c' : Catalog K) : Prop where
  sound : c'.Sound
  stations : ∀ s, c'.stations.find? s = c.stations.find? s
  events : ∀ k, (c'.events.find? k).map place = (c.events.find? k).map place
  phases : ∀ k, (c'.phasesOf k).map pickOf = (c.phasesOf k).map pickOf

theorem Residuals.refl {c : Catalog K} (h : c.Sound) : Residuals c c :=
  ⟨h, fun _ => rfl, fun _ => rfl, fun _ => rfl⟩

theorem Residuals.trans {a b c : Catalog K} (h : Residuals a b) (h' : Residuals b c) : Residuals a c :=
  ⟨h'.sound, fun s => (h'.stations s).trans (h.stations s), fun k => (h'.events k).trans (h.events k),
    fun k => (h'.phases k).trans (h.phases k)⟩

/-- changing the phases of one event -/
theorem phasesOf_mapKey (l : List (Nat × Phase K)) (id k : Nat) (g : Phase K → Phase K) :
    (((l.map (fun kp => if kp.1 = id then (kp.1, g kp.2) else kp)).filter (fun kp => kp.1 = k)).map (·.2)) =
    ((l.filter (fun kp => kp.1 = k)).map (·.2)).map (if k = id then g else fun p => p) := by
  induction l with
  | nil => rfl
  | cons x l ih =>
    obtain ⟨a, p⟩ := x
    simp only [List.map_cons]
    by_cases ha : a = id
    · subst ha
      simp only [if_true]
      by_cases hk : a = k
      · subst hk
        simp only [List.filter_cons, decide_true, if_true, List.map_cons]
        rw [ih]; simp
      · have hk' : ¬ k = a := fun h => hk h.symm
        simp only [List.filter_cons, hk, decide_false, Bool.false_eq_true, if_false]
        rw [ih]
    · simp only [ha, if_false]
      by_cases hk : a = k
      · subst hk
        simp only [List.filter_cons, decide_true, if_true, List.map_cons]
        rw [ih]; simp [ha]
      · simp only [List.filter_cons, hk, decide_false, Bool.false_eq_true, if_false]
        rw [ih]

/-- an event replaced and its phases mapped: soundness and lookups -/
theorem setEvent_spec {c : Catalog K} (hc : c.Sound) {id : Nat} {e e' : Event K} {g : Phase K → Phase K}
    (he : c.events.find? id = some e) (hid : e'.id = id)
    (hg : ∀ p, (g p).eventId = p.eventId ∧ (g p).stationId = p.stationId) {c' : Catalog K}
    (h : c' = { c with events := c.events.set id e'
                       phases := c.phases.map (fun kp => if kp.1 = id then (kp.1, g kp.2) else kp) }) :
    c'.Sound ∧ Same c c' (· ≠ id) ∧ c'.events.find? id = some e' ∧
      c'.phasesOf id = (c.phasesOf id).map g := by
  subst h
  have hmem : ∀ kp' ∈ c.phases.map (fun kp => if kp.1 = id then (kp.1, g kp.2) else kp),
      ∃ kp ∈ c.phases, kp'.1 = kp.1 ∧ kp'.2.eventId = kp.2.eventId ∧ kp'.2.stationId = kp.2.stationId := by
    intro kp' hkp'
    rw [List.mem_map] at hkp'
    obtain ⟨kp, h1, rfl⟩ := hkp'
    refine ⟨kp, h1, ?_⟩
    split
    · exact ⟨rfl, (hg kp.2).1, (hg kp.2).2⟩
    · exact ⟨rfl, rfl, rfl⟩
  refine ⟨⟨⟨hc.stationsUnique, hc.stationKey, AMap.nodupKeys_set hc.eventsUnique _ _, ?_, ?_⟩, ?_, ?_⟩,
    ⟨fun _ => rfl, ?_, ?_⟩, ?_, ?_⟩
  · intro k x hx
    simp only [AMap.find?_set] at hx
    by_cases hk : k = id
    · subst hk
      simp only [if_true, Option.some.injEq] at hx
      subst hx
      exact ⟨hid, (hc.eventKey _ _ he).2⟩
    · rw [if_neg hk] at hx; exact hc.eventKey _ _ hx
  · intro kp hkp
    obtain ⟨kp0, h1, h2, h3, _⟩ := hmem kp hkp
    rw [h2, h3]; exact hc.phaseKey _ h1
  · intro kp hkp
    obtain ⟨kp0, h1, h2, _, _⟩ := hmem kp hkp
    simp only [AMap.find?_set]
    split
    · rfl
    · rw [h2]; exact hc.phaseEvent _ h1
  · intro kp hkp
    obtain ⟨kp0, h1, _, _, h4⟩ := hmem kp hkp
    rw [h4]; exact hc.phaseStation _ h1
  · intro k hk
    simp only [AMap.find?_set, if_neg hk]
  · intro k hk
    unfold Catalog.phasesOf
    rw [phasesOf_mapKey, if_neg hk]
    simp
  · simp
  · unfold Catalog.phasesOf
    rw [phasesOf_mapKey, if_pos rfl]

theorem residualsStep_spec {env : Env K} {u first : Bool} {ops : List (SolverOp K)} {c c' : Catalog K}
    (hc : c.Sound) {kv : Nat × Neighbours} (h : residualsStep env u first ops c kv = .ok c') :
    Residuals c c' ∧ Same c c' (· ≠ kv.2.refId) := by
  unfold residualsStep at h
  rw [Outcome.bind_eq_ok] at h
  obtain ⟨ev, h1, h⟩ := h
  rw [Outcome.ofOption_eq_ok] at h1
  rw [Outcome.bind_eq_ok] at h
  obtain ⟨_, _, h⟩ := h
  simp only [Outcome.ok.injEq] at h
  have hid := (hc.eventKey _ _ h1).1
  rw [hid] at h
  obtain ⟨s1, s2, s3, s4⟩ := setEvent_spec
    (g := fun p => residualPhase u first (residualOf ops c kv.2.refId p) p) hc h1
    (e' := { ev with
        startRms := if first then rmsOf env u ops c kv.2.refId else ev.startRms
        finalRms := if first then 0 else rmsOf env u ops c kv.2.refId }) hid
    (fun p => ⟨rfl, rfl⟩) (c' := c') (by rw [← h]; simp [hid])
  refine ⟨⟨s1, s2.stations, ?_, ?_⟩, s2⟩
  · intro k
    by_cases hk : k = kv.2.refId
    · subst hk; rw [s3, h1]; rfl
    · rw [s2.events k hk]
  · intro k
    by_cases hk : k = kv.2.refId
    · subst hk
      rw [s4, List.map_map]
      rfl
    · rw [s2.phases k hk]

/-- what the residuals step does to the event concerned -/
theorem residualsStep_exact {env : Env K} {u first : Bool} {ops : List (SolverOp K)} {c c' : Catalog K}
    (hc : c.Sound) {kv : Nat × Neighbours} (h : residualsStep env u first ops c kv = .ok c') :
    ∃ ev, c.events.find? kv.2.refId = some ev ∧
      c'.events.find? kv.2.refId = some { ev with
        startRms := if first then rmsOf env u ops c kv.2.refId else ev.startRms
        finalRms := if first then 0 else rmsOf env u ops c kv.2.refId } ∧
      c'.phasesOf kv.2.refId = (c.phasesOf kv.2.refId).map
        (fun p => residualPhase u first (residualOf ops c kv.2.refId p) p) := by
  unfold residualsStep at h
  rw [Outcome.bind_eq_ok] at h
  obtain ⟨ev, h1, h⟩ := h
  rw [Outcome.ofOption_eq_ok] at h1
  rw [Outcome.bind_eq_ok] at h
  obtain ⟨_, _, h⟩ := h
  simp only [Outcome.ok.injEq] at h
  have hid := (hc.eventKey _ _ h1).1
  rw [hid] at h
  obtain ⟨s1, s2, s3, s4⟩ := setEvent_spec
    (g := fun p => residualPhase u first (residualOf ops c kv.2.refId p) p) hc h1
    (e' := { ev with
        startRms := if first then rmsOf env u ops c kv.2.refId else ev.startRms
        finalRms := if first then 0 else rmsOf env u ops c kv.2.refId }) hid
    (fun p => ⟨rfl, rfl⟩) (c' := c') (by rw [← h]; simp [hid])
  exact ⟨ev, h1, s3, s4⟩

theorem residualOf_congr {ops : List (SolverOp K)} {c c' : Catalog K} (h : ∀ s, c'.stations.find? s = c.stations.find? s)
    (id : Nat) : residualOf ops c' id = residualOf ops c id := by
  funext p
  unfold residualOf
  rw [h]

theorem rmsOf_congr {env : Env K} {u : Bool} {ops : List (SolverOp K)} {c c' : Catalog K}
    (h : ∀ s, c'.stations.find? s = c.stations.find? s) {id : Nat} (hp : c'.phasesOf id = c.phasesOf id) :
    rmsOf env u ops c' id = rmsOf env u ops c id := by
  unfold rmsOf
  rw [residualOf_congr h, hp]

theorem computeEventResiduals_spec {env : Env K} {u first : Bool} {ops : List (SolverOp K)}
    {cluster : Cluster} {c c' : Catalog K} (hc : c.Sound)
    (h : computeEventResiduals env u first ops cluster c = .ok c') :
    Residuals c c' ∧ Same c c' (fun k => ∀ kv ∈ cluster, k ≠ kv.2.refId) := by
  unfold computeEventResiduals at h
  have := foldlM_inv _ (fun _ t => Residuals c t ∧ Same c t (fun k => ∀ kv ∈ cluster, k ≠ kv.2.refId)) cluster
    ⟨Residuals.refl hc, fun _ => rfl, fun _ _ => rfl, fun _ _ => rfl⟩ ?_ h
  · exact this
  · intro done kv t t' hkv ⟨hr, hs⟩ hstep
    obtain ⟨a, b⟩ := residualsStep_spec hr.sound hstep
    refine ⟨hr.trans a, fun s => (b.stations s).trans (hs.stations s), ?_, ?_⟩
    · intro k hk; rw [b.events k (hk kv hkv), hs.events k hk]
    · intro k hk; rw [b.phases k (hk kv hkv), hs.phases k hk]

/-- what `computeEventResiduals` does to each event of the cluster -/
theorem computeEventResiduals_exact {env : Env K} {u first : Bool} {ops : List (SolverOp K)}
    {cluster : Cluster} {c c' : Catalog K} (hc : c.Sound) (hn : (cluster.map (·.2.refId)).Nodup)
    (h : computeEventResiduals env u first ops cluster c = .ok c') :
    ∀ k ∈ cluster.map (·.2.refId), ∃ ev, c.events.find? k = some ev ∧
      c'.events.find? k = some { ev with
        startRms := if first then rmsOf env u ops c k else ev.startRms
        finalRms := if first then 0 else rmsOf env u ops c k } ∧
      c'.phasesOf k = (c.phasesOf k).map (fun p => residualPhase u first (residualOf ops c k p) p) := by
  unfold computeEventResiduals at h
  induction cluster generalizing c with
  | nil => simp
  | cons kv rest ih =>
    rw [List.foldlM_cons, Outcome.bind_eq_ok] at h
    obtain ⟨t, h1, h2⟩ := h
    obtain ⟨a, b⟩ := residualsStep_spec hc h1
    rw [List.map_cons, List.nodup_cons] at hn
    obtain ⟨_, r2⟩ := computeEventResiduals_spec (cluster := rest) a.sound h2
    intro k hk
    rw [List.map_cons, List.mem_cons] at hk
    rcases hk with rfl | hk
    · have hout : ∀ kv' ∈ rest, kv.2.refId ≠ kv'.2.refId := by
        intro kv' hkv' he
        exact hn.1 (he ▸ List.mem_map_of_mem hkv')
      obtain ⟨ev, e1, e2, e3⟩ := residualsStep_exact hc h1
      exact ⟨ev, e1, by rw [r2.events _ hout, e2], by rw [r2.phases _ hout, e3]⟩
    · have hne : k ≠ kv.2.refId := fun he => hn.1 (he ▸ hk)
      obtain ⟨ev, e1, e2, e3⟩ := ih a.sound hn.2 h2 k hk
      refine ⟨ev, by rw [← b.events k hne]; exact e1, ?_, ?_⟩
      · rw [e2, rmsOf_congr b.stations (b.phases k hne)]
      · rw [e3, b.phases k hne, residualOf_congr b.stations]

/-- the status of an event -/
def flag (c : Catalog K) (k : Nat) : Bool := ((c.events.find? k).map (·.isRelocated)).getD false

/-- What an update does to one event of the cluster. -/
structure Updated (env : Env K) (first : Bool) (ans : Answer K) (c c' : Catalog K) (k : Nat) : Prop where
  event : ∀ e, c.events.find? k = some e → c'.events.find? k = some
    (match ans.changes k with
     | none => { e with isRelocated := if first then false else e.isRelocated }
     | some d => moveEvent env e d)
  exists_ : (c.events.find? k).isSome
  picks : (c'.phasesOf k).map pick0 = (c.phasesOf k).map pick0
  marks : c'.phasesOf k = (match ans.changes k with
    | none => c.phasesOf k
    | some _ => (c.phasesOf k).map (updatePhase first ans c k))

theorem updatePhase_congr {first : Bool} {ans : Answer K} {c c' : Catalog K} (k : Nat)
    (h : ∀ s, c'.stations.find? s = c.stations.find? s) : updatePhase first ans c' k = updatePhase first ans c k := by
  funext p
  unfold updatePhase
  rw [h]

theorem updateStep_spec {env : Env K} {first : Bool} {ans : Answer K} {c c' : Catalog K}
    (hc : c.Sound) {kv : Nat × Neighbours} (h : updateStep env first ans c kv = .ok c') :
    c'.Sound ∧ Same c c' (· ≠ kv.2.refId) ∧ Updated env first ans c c' kv.2.refId := by
  unfold updateStep at h
  rw [Outcome.bind_eq_ok] at h
  obtain ⟨ev, h1, h⟩ := h
  rw [Outcome.ofOption_eq_ok] at h1
  have hid := (hc.eventKey _ _ h1).1
  simp only at h
  rw [hid] at h
  cases ha : ans.changes kv.2.refId with
  | none =>
    rw [ha] at h
    simp only [Outcome.ok.injEq] at h
    obtain ⟨s1, s2, s3, s4⟩ := setEvent_spec (g := fun p => p) hc h1
      (e' := { ev with isRelocated := if first then false else ev.isRelocated }) hid
      (fun p => ⟨rfl, rfl⟩) (c' := c') (by
        rw [← h]
        simp [hid])
    refine ⟨s1, s2, ?_, by rw [h1]; rfl, by rw [s4]; simp, by rw [s4, ha]; simp⟩
    intro e he
    rw [h1] at he
    simp only [Option.some.injEq] at he
    subst he
    rw [s3, ha]
  | some d =>
    rw [ha] at h
    simp only at h
    rw [Outcome.bind_eq_ok] at h
    obtain ⟨_, _, h⟩ := h
    simp only [Outcome.ok.injEq] at h
    have hid' : (moveEvent env { ev with isRelocated := if first then false else ev.isRelocated } d).id = kv.2.refId := hid
    obtain ⟨s1, s2, s3, s4⟩ := setEvent_spec (g := updatePhase first ans c kv.2.refId) hc h1 hid'
      (fun p => ⟨rfl, rfl⟩) (c' := c') (by rw [← h]; simp [hid, moveEvent])
    refine ⟨s1, s2, ?_, by rw [h1]; rfl, ?_, by rw [s4, ha]⟩
    · intro e he
      rw [h1] at he
      simp only [Option.some.injEq] at he
      subst he
      rw [s3, ha]
      rfl
    · rw [s4, List.map_map]
      rfl

theorem updateRelocatedEvents_spec {env : Env K} {first : Bool} {ans : Answer K} {cluster : Cluster}
    {c c' : Catalog K} (hc : c.Sound) (hn : (cluster.map (·.2.refId)).Nodup)
    (h : updateRelocatedEvents env first ans cluster c = .ok c') :
    c'.Sound ∧ Same c c' (fun k => k ∉ cluster.map (·.2.refId)) ∧
      ∀ k ∈ cluster.map (·.2.refId), Updated env first ans c c' k := by
  unfold updateRelocatedEvents at h
  suffices H : ∀ (rest : Cluster) (t : Catalog K), (rest.map (·.2.refId)).Nodup → t.Sound →
      rest.foldlM (updateStep env first ans) t = .ok c' →
      c'.Sound ∧ Same t c' (fun k => k ∉ rest.map (·.2.refId)) ∧
      ∀ k ∈ rest.map (·.2.refId), Updated env first ans t c' k from H cluster c hn hc h
  intro rest
  induction rest with
  | nil =>
    intro t _ ht h
    simp only [List.foldlM_nil, Outcome.pure_eq, Outcome.ok.injEq] at h
    subst h
    exact ⟨ht, ⟨fun _ => rfl, fun _ _ => rfl, fun _ _ => rfl⟩, by simp⟩
  | cons kv rest ih =>
    intro t hnd ht h
    rw [List.foldlM_cons, Outcome.bind_eq_ok] at h
    obtain ⟨t1, h1, h2⟩ := h
    obtain ⟨a1, a2, a3⟩ := updateStep_spec ht h1
    rw [List.map_cons, List.nodup_cons] at hnd
    obtain ⟨b1, b2, b3⟩ := ih t1 hnd.2 a1 h2
    refine ⟨b1, ⟨fun s => (b2.stations s).trans (a2.stations s), ?_, ?_⟩, ?_⟩
    · intro k hk
      rw [List.map_cons, List.mem_cons, not_or] at hk
      rw [b2.events k hk.2, a2.events k hk.1]
    · intro k hk
      rw [List.map_cons, List.mem_cons, not_or] at hk
      rw [b2.phases k hk.2, a2.phases k hk.1]
    · intro k hk
      rw [List.map_cons, List.mem_cons] at hk
      by_cases hkr : k ∈ rest.map (·.2.refId)
      · have hne : k ≠ kv.2.refId := fun hc => hnd.1 (hc ▸ hkr)
        obtain ⟨u1, u2, u3, u4⟩ := b3 k hkr
        refine ⟨?_, ?_, ?_, ?_⟩
        · intro e he; apply u1; rw [a2.events k hne]; exact he
        · rw [← a2.events k hne]; exact u2
        · rw [u3, a2.phases k hne]
        · rw [u4, a2.phases k hne, updatePhase_congr k a2.stations]
      · have hke : k = kv.2.refId := by rcases hk with h | h; exact h; exact absurd h hkr
        subst hke
        obtain ⟨u1, u2, u3, u4⟩ := a3
        refine ⟨?_, u2, ?_, ?_⟩
        · intro e he; rw [b2.events _ hkr]; exact u1 e he
        · rw [b2.phases _ hkr]; exact u3
        · rw [b2.phases _ hkr]; exact u4

/-! ## Restoring events -/

theorem mem_of_fwd {T : Type} [DecidableEq T] {ids : List T} {x : T} {i : Nat}
    (hb : ids.length ≤ IdToIndex.uintMod) (h : (IdToIndex.run ids).fwd.find? x = some i) :
    x ∈ ids ∧ i = ix ids x := by
  have hb' := card_le_of_length hb
  have h2 := (IdToIndex.inv_run ids hb').fwd x
  by_cases hx : x ∈ ids
  · refine ⟨hx, ?_⟩
    have h3 := toIdx_ix hx hb
    unfold IdToIndex.toIdx at h3
    rw [h] at h3
    simpa using h3
  · rw [if_neg (fun hc => hx ((IdToIndex.mem_firstUses _ _).1 hc))] at h2
    rw [h] at h2; cases h2

theorem params_given {ops : List (SolverOp K)} (hb : Fits ops) (hs : NoSeparator ops) {id : Nat}
    {sta ph : String} (hph : '@' ∉ ph.toList)
    (h : (getObservationParams (Solver.run ops) id sta ph).isSome = true) :
    ∃ q ∈ parOf ops, q.ev = id ∧ q.sta = sta.toList ∧ q.phase = ph.toList := by
  have inv := inv_run ops hb
  unfold getObservationParams at h
  cases h1 : (Solver.run ops).evConv.fwd.find? id with
  | none => rw [h1] at h; simp at h
  | some i =>
    cases h2 : (Solver.run ops).phStaConv.fwd.find? (phStaKey ph.toList sta.toList) with
    | none => rw [h1, h2] at h; simp at h
    | some j =>
      rw [h1, h2] at h
      simp only at h
      rw [inv.evConv] at h1
      rw [inv.phConv] at h2
      obtain ⟨m1, rfl⟩ := mem_of_fwd hb.ev h1
      obtain ⟨m2, rfl⟩ := mem_of_fwd hb.ph h2
      rw [inv.par, Option.isSome_map] at h
      obtain ⟨q, hq⟩ := Option.isSome_iff_exists.1 h
      have hm := List.mem_of_find?_eq_some hq
      have hq := List.find?_some hq
      simp only [decide_eq_true_eq] at hq
      obtain ⟨a1, a2⟩ := mem_evIds_par hm
      have e1 := ix_inj a1 m1 hq.1
      have e2 := ix_inj a2 m2 hq.2
      have := (phStaKey_inj (hs.2 q hm) hph).1 e2
      exact ⟨q, hm, e1, this.2, this.1⟩

theorem goodOp_noAt {env : Env K} {o : ObsOptions K} {cat : Catalog K} (hna : NoAt cat)
    {xc : XCorr.Cache} {nb : Neighbours} {refEv : Event K} {ops0 new : List (SolverOp K)}
    (h0 : NoSeparator ops0) (hg : ∀ op ∈ new, GoodOp env o cat xc nb refEv op) :
    NoSeparator (ops0 ++ new) := by
  have hpar : ∀ {key ev free} {q : ParArg K}, ParamsOf env cat key ev free q → '@' ∉ q.phase := by
    intro key ev free q ⟨_, sp, p, st, i, h1, h2, h3, h4⟩
    simp [paramCalls] at h4
    subst h4
    exact hna _ _ h1.1
  constructor
  · intro x hx
    rw [obsOf_append, List.mem_append] at hx
    rcases hx with hx | hx
    · exact h0.1 x hx
    · unfold obsOf at hx
      rw [List.mem_filterMap] at hx
      obtain ⟨op, hop, hx⟩ := hx
      cases op <;> simp at hx
      subst hx
      obtain ⟨sp, n, ev, rp, p, mc, _, _, h1, h2, _, _, _, h3⟩ := hg _ hop
      have := (observation_ids o xc mc refEv ev sp rp p).2.2.2
      rw [h3, this, ← h1.2.2]
      exact hna _ _ h1.1
  · intro x hx
    rw [parOf_append, List.mem_append] at hx
    rcases hx with hx | hx
    · exact h0.2 x hx
    · unfold parOf at hx
      rw [List.mem_filterMap] at hx
      obtain ⟨op, hop, hx⟩ := hx
      cases op <;> simp at hx
      subst hx
      rcases hg _ hop with h | ⟨_, _, _, h⟩
      · exact hpar h
      · exact hpar h

theorem NoSeparator.prefix {a b : List (SolverOp K)} (h : NoSeparator b) (hp : a <+: b) : NoSeparator a := by
  obtain ⟨c, rfl⟩ := hp
  constructor
  · intro x hx; exact h.1 x (by rw [obsOf_append]; exact List.mem_append_left _ hx)
  · intro x hx; exact h.2 x (by rw [parOf_append]; exact List.mem_append_left _ hx)

/-- Where the parameters of an event come from. -/
def Source (env : Env K) (cat : Catalog K) (q : ParArg K) : Prop :=
  ∃ ev sp p, cat.events.find? q.ev = some ev ∧ IsPick cat ev.id sp p ∧ q.sta = sp.1.toList ∧
    q.phase = sp.2.toList ∧ Computable env cat ev p

theorem paramsOf_source {env : Env K} {cat : Catalog K} (hc : cat.WF) {key : Nat} {ev : Event K}
    {free : Bool} {q : ParArg K} (h : ParamsOf env cat key ev free q) : Source env cat q := by
  obtain ⟨h0, sp, p, st, i, h1, h2, h3, h4⟩ := h
  simp [paramCalls] at h4
  have hid := (hc.eventKey _ _ h0).1
  have hsid := (hc.stationKey _ _ h2).1
  subst h4
  exact ⟨ev, sp, p, by simp only [hid, h0], h1, by simp only [hsid, h1.2.1], by simp only [h1.2.2],
    (Computable.iff h2).2 ⟨i, h3⟩⟩

theorem goodOp_source {env : Env K} {o : ObsOptions K} {cat : Catalog K} (hc : cat.WF)
    {xc : XCorr.Cache} {nb : Neighbours} {refEv : Event K} {new : List (SolverOp K)}
    (hg : ∀ op ∈ new, GoodOp env o cat xc nb refEv op) : ∀ q ∈ parOf new, Source env cat q := by
  intro q hx
  unfold parOf at hx
  rw [List.mem_filterMap] at hx
  obtain ⟨op, hop, hx⟩ := hx
  cases op <;> simp at hx
  subst hx
  rcases hg _ hop with h | ⟨_, _, _, h⟩
  · exact paramsOf_source hc h
  · exact paramsOf_source hc h

theorem goodOp_free {env : Env K} {o : ObsOptions K} {cat : Catalog K} (hc : cat.WF)
    {xc : XCorr.Cache} {nb : Neighbours} {refEv : Event K} {new : List (SolverOp K)}
    (hg : ∀ op ∈ new, GoodOp env o cat xc nb refEv op) : ∀ q ∈ parOf new,
      (q.free = true ∧ q.ev = nb.refId) ∨ (q.free = !o.keepNeighboursFixed ∧ q.ev ∈ nb.ids) := by
  have hpar : ∀ {key ev free} {q : ParArg K}, ParamsOf env cat key ev free q → q.free = free ∧ q.ev = key := by
    intro key ev free q ⟨h0, sp, p, st, i, h1, h2, h3, h4⟩
    simp [paramCalls] at h4
    subst h4
    exact ⟨rfl, (hc.eventKey _ _ h0).1⟩
  intro q hx
  unfold parOf at hx
  rw [List.mem_filterMap] at hx
  obtain ⟨op, hop, hx⟩ := hx
  cases op <;> simp at hx
  subst hx
  rcases hg _ hop with h | ⟨n, hn, ev, h⟩
  · exact Or.inl (hpar h)
  · exact Or.inr ⟨(hpar h).1, by rw [(hpar h).2]; exact hn⟩

/-- What `addObservations` did, as needed by the loop. -/
structure Added (env : Env K) (o : ObsOptions K) (cat : Catalog K) (xc : XCorr.Cache) (nb : Neighbours)
    (ops0 ops : List (SolverOp K)) (b : Bool) (refEv : Event K) : Prop where
  ref : cat.events.find? nb.refId = some refEv
  new : ∃ new, ops = ops0 ++ new ∧ ∀ op ∈ new, GoodOp env o cat xc nb refEv op
  len : ops.length ≤ ops0.length + 7 * nb.phases.length
  ko : b = false → nb.phases ≠ [] ∧ ops = ops0 ∧
    ∀ t ∈ nb.phases, ∃ rp, IsPick cat refEv.id t.1 rp ∧ ¬ Computable env cat refEv rp
  ok : b = true → nb.phases = [] ∨ ∃ t ∈ nb.phases, ∃ rp mid, IsPick cat refEv.id t.1 rp ∧
    (Computable env cat refEv rp ∨
      (mid <+: ops ∧ (getObservationParams (Solver.run mid) refEv.id t.1.1 t.1.2).isSome = true))

theorem addObservations_added {env : Env K} {o : ObsOptions K} {cat : Catalog K} (hw : cat.WF) {xc : XCorr.Cache}
    {nb : Neighbours} {ops0 ops : List (SolverOp K)} {b : Bool}
    (h : addObservations env o cat xc nb ops0 = .ok (ops, b)) :
    ∃ refEv, Added env o cat xc nb ops0 ops b refEv := by
  obtain ⟨refEv, s, h1, rfl, h2, hi⟩ := addObservations_inv hw h
  have hl : (nb.phases.insertionSort tupleLe).length = nb.phases.length := List.length_insertionSort ..
  have hm : ∀ t, t ∈ nb.phases.insertionSort tupleLe ↔ t ∈ nb.phases := fun t => List.mem_insertionSort tupleLe
  refine ⟨refEv, h1, hi.new, by have := hi.len; rw [hl] at this; exact this, ?_, ?_⟩
  · intro hb
    rw [hb] at h2
    have h2 := of_decide_eq_false h2.symm
    push Not at h2
    have := hi.failed (by omega)
    refine ⟨?_, this.1, fun t ht => this.2.2 t ((hm t).2 ht)⟩
    intro he
    unfold addObservations at h
    rw [h1, he] at h
    simp [Outcome.ofOption, hb] at h
  · intro hb
    rw [hb] at h2
    have h2 := of_decide_eq_true h2.symm
    rcases h2 with h2 | h2
    · left
      have := hi.attempted h2
      rw [← List.length_eq_zero_iff, hl] at this
      rwa [List.length_eq_zero_iff] at this
    · right
      obtain ⟨t, ht, rest⟩ := hi.succeeded h2
      exact ⟨t, (hm t).1 ht, rest⟩

theorem Same.source {env : Env K} {c c' : Catalog K} {P : Nat → Prop} (hw : c'.WF) (h : Same c c' P) {q : ParArg K}
    (hp : P q.ev) (hs : Source env c' q) : Source env c q := by
  obtain ⟨ev, sp, p, h1, h2, h3, h4, st, i, h5, h6⟩ := hs
  have hid := (hw.eventKey _ _ h1).1
  refine ⟨ev, sp, p, by rw [← h.events _ hp]; exact h1, ⟨?_, h2.2⟩, h3, h4, st, i, by rw [← h.stations]; exact h5, h6⟩
  rw [hid, ← h.phases _ hp, ← hid]; exact h2.1

theorem Same.computable {env : Env K} {c c' : Catalog K} {P : Nat → Prop} (h : Same c c' P) {ev : Event K}
    {p : Phase K} : Computable env c' ev p ↔ Computable env c ev p := by
  unfold Computable
  constructor
  · rintro ⟨st, i, h1, h2⟩; exact ⟨st, i, by rw [← h.stations]; exact h1, h2⟩
  · rintro ⟨st, i, h1, h2⟩; exact ⟨st, i, by rw [h.stations]; exact h1, h2⟩

/-- Invariant of the loop over the cluster. -/
structure ObserveInv (env : Env K) (fixed : Bool) (prev cur0 : Catalog K) (done : Cluster) (s : ObserveState K) : Prop where
  sound : s.cur.Sound
  noAt : NoAt s.cur
  keep : Same cur0 s.cur (· ∉ s.reverted)
  sub : ∀ k ∈ s.reverted, k ∈ done.map (·.1)
  restored : ∀ k ∈ s.reverted, s.cur.events.find? k = prev.events.find? k ∧
    (prev.events.find? k).isSome = true ∧ s.cur.phasesOf k = prev.phasesOf k
  why : ∀ k ∈ s.reverted, ∃ nb ev, (k, nb) ∈ done ∧ cur0.events.find? k = some ev ∧ ev.isRelocated = true ∧
    nb.phases ≠ [] ∧ ∀ t ∈ nb.phases, ∃ rp, IsPick cur0 k t.1 rp ∧ ¬ Computable env cur0 ev rp
  whyNot : ∀ kv ∈ done, kv.1 ∉ s.reverted → isEmpty prev = true ∨
    ∃ ev, cur0.events.find? kv.1 = some ev ∧ (ev.isRelocated = false ∨ kv.2.phases = [] ∨
      ∃ t ∈ kv.2.phases, ∃ rp, IsPick cur0 kv.1 t.1 rp ∧ Computable env cur0 ev rp)
  len : s.ops.length ≤ 14 * (done.map (·.2.phases.length)).sum
  sep : NoSeparator s.ops
  src : ∀ q ∈ parOf s.ops, q.ev ∉ done.map (·.1) → Source env cur0 q
  free : ∀ q ∈ parOf s.ops, (q.free = true ∧ q.ev ∈ done.map (·.1)) ∨
    (q.free = !fixed ∧ ∃ kv ∈ done, q.ev ∈ kv.2.ids)

theorem observeStep_inv {env : Env K} {o : ObsOptions K} {xc : XCorr.Cache} {prev cur0 : Catalog K}
    (hp : prev.Sound) (hpn : NoAt prev) (hps : isEmpty prev = true ∨ ∀ s, prev.stations.find? s = cur0.stations.find? s)
    {done : Cluster} {kv : Nat × Neighbours} (hkey : kv.2.refId = kv.1) (hnd : kv.1 ∉ done.map (·.1))
    (hfit : 28 * ((done ++ [kv]).map (·.2.phases.length)).sum ≤ IdToIndex.uintMod)
    {s s' : ObserveState K} (hi : ObserveInv env o.keepNeighboursFixed prev cur0 done s)
    (h : observeStep env o xc prev s kv = .ok s') : ObserveInv env o.keepNeighboursFixed prev cur0 (done ++ [kv]) s' := by
  have hsum : ((done ++ [kv]).map (·.2.phases.length)).sum = (done.map (·.2.phases.length)).sum + kv.2.phases.length := by
    simp
  rw [hsum] at hfit
  have hnr : kv.1 ∉ s.reverted := fun hc => hnd (hi.sub _ hc)
  have hdone : ∀ {k}, k ∈ done.map (·.1) → k ∈ (done ++ [kv]).map (·.1) := by
    intro k hk; rw [List.map_append]; exact List.mem_append_left _ hk
  have hnot : ∀ {k}, k ∉ (done ++ [kv]).map (·.1) → k ∉ done.map (·.1) ∧ k ≠ kv.1 := by
    intro k hk
    refine ⟨fun hc => hk (hdone hc), ?_⟩
    rintro rfl
    exact hk (by simp)
  unfold observeStep at h
  rw [Outcome.bind_eq_ok] at h
  obtain ⟨⟨ops, b⟩, h1, h⟩ := h
  simp only at h
  obtain ⟨refEv, ha⟩ := addObservations_added hi.sound.toWF h1
  obtain ⟨new, hnew, hgood⟩ := ha.new
  have href := ha.ref
  rw [hkey] at href
  have href0 : cur0.events.find? kv.1 = some refEv := by rw [← hi.keep.events _ hnr]; exact href
  have hrid := (hi.sound.eventKey _ _ href).1
  have hpick : ∀ {sp rp}, IsPick s.cur refEv.id sp rp → IsPick cur0 kv.1 sp rp := by
    intro sp rp ⟨a, b⟩
    refine ⟨?_, b⟩
    rw [← hi.keep.phases _ hnr, ← hrid]; exact a
  have hsep : NoSeparator ops := by rw [hnew]; exact goodOp_noAt hi.noAt hi.sep hgood
  have hsrcnew : ∀ q ∈ parOf ops, q.ev ∉ done.map (·.1) → Source env cur0 q := by
    intro q hq hne
    rw [hnew, parOf_append, List.mem_append] at hq
    rcases hq with hq | hq
    · exact hi.src q hq hne
    · exact hi.keep.source hi.sound.toWF (fun hc => hne (hi.sub _ hc)) (goodOp_source hi.sound.toWF hgood q hq)
  have hlen : ops.length ≤ 14 * (done.map (·.2.phases.length)).sum + 7 * kv.2.phases.length := by
    have := ha.len; have := hi.len; omega
  have hfree : ∀ q ∈ parOf ops, (q.free = true ∧ q.ev ∈ (done ++ [kv]).map (·.1)) ∨
      (q.free = !o.keepNeighboursFixed ∧ ∃ kv' ∈ done ++ [kv], q.ev ∈ kv'.2.ids) := by
    intro q hq
    rw [hnew, parOf_append, List.mem_append] at hq
    rcases hq with hq | hq
    · rcases hi.free q hq with ⟨a, b⟩ | ⟨a, kv', b, c⟩
      · exact Or.inl ⟨a, hdone b⟩
      · exact Or.inr ⟨a, kv', List.mem_append_left _ b, c⟩
    · rcases goodOp_free hi.sound.toWF hgood q hq with ⟨a, b⟩ | ⟨a, b⟩
      · exact Or.inl ⟨a, by rw [b, hkey]; simp⟩
      · exact Or.inr ⟨a, kv, by simp, b⟩
  -- nothing restored
  have hplain : (b = false → isEmpty prev = true ∨ refEv.isRelocated = false) →
      ObserveInv env o.keepNeighboursFixed prev cur0 (done ++ [kv]) { s with ops := ops } := by
    intro hb
    refine ⟨hi.sound, hi.noAt, hi.keep, fun k hk => hdone (hi.sub k hk), hi.restored, ?_, ?_, ?_, hsep, ?_, hfree⟩
    · intro k hk
      obtain ⟨nb, ev, m, rest⟩ := hi.why k hk
      exact ⟨nb, ev, List.mem_append_left _ m, rest⟩
    · intro kv' hkv' hr
      rw [List.mem_append, List.mem_singleton] at hkv'
      rcases hkv' with hkv' | rfl
      · exact hi.whyNot kv' hkv' hr
      · cases hbb : b with
        | false =>
          rcases hb hbb with h | h
          · exact Or.inl h
          · exact Or.inr ⟨refEv, href0, Or.inl h⟩
        | true =>
          right
          refine ⟨refEv, href0, ?_⟩
          rcases ha.ok hbb with h | ⟨t, ht, rp, mid, hpk, h⟩
          · exact Or.inr (Or.inl h)
          · refine Or.inr (Or.inr ⟨t, ht, ?_⟩)
            rcases h with h | ⟨hpre, h⟩
            · exact ⟨rp, hpick hpk, hi.keep.computable.1 h⟩
            · have hfits : Fits mid := by
                have := hpre.length_le
                unfold Fits
                omega
              obtain ⟨q, hq, e1, e2, e3⟩ := params_given hfits (NoSeparator.prefix hsep hpre)
                (by rw [← hpk.2.2]; exact hi.noAt _ _ hpk.1) h
              have hq' : q ∈ parOf ops := by
                obtain ⟨z, hz⟩ := hpre
                rw [← hz, parOf_append]; exact List.mem_append_left _ hq
              obtain ⟨ev, sp, p, k1, k2, k3, k4, k5⟩ := hsrcnew q hq' (by rw [e1, hrid]; exact hnd)
              rw [e1, hrid, href0] at k1
              simp only [Option.some.injEq] at k1
              subst k1
              have : sp = t.1 := by
                apply Prod.ext
                · rw [e2] at k3; exact (String.toList_inj.1 k3).symm
                · rw [e3] at k4; exact (String.toList_inj.1 k4).symm
              rw [this, hrid] at k2
              exact ⟨p, k2, k5⟩
    · simp only [hsum]; omega
    · intro q hq hne
      exact hsrcnew q hq (hnot hne).1
  by_cases hb : (b || isEmpty prev) = true
  · rw [if_pos hb] at h
    simp only [Outcome.ok.injEq] at h
    subst h
    apply hplain
    intro hbf
    rw [hbf] at hb
    left; simpa using hb
  · rw [if_neg hb] at h
    simp only [Bool.or_eq_true, not_or, Bool.not_eq_true] at hb
    rw [Outcome.bind_eq_ok] at h
    obtain ⟨ev, h2, h⟩ := h
    rw [Outcome.ofOption_eq_ok, href] at h2
    simp only [Option.some.injEq] at h2
    subst h2
    by_cases hr : refEv.isRelocated = true
    · rw [if_pos hr] at h
      have hps' : ∀ s', prev.stations.find? s' = s.cur.stations.find? s' := by
        intro x
        rcases hps with hps | hps
        · rw [hb.2] at hps; cases hps
        · rw [hps, hi.keep.stations]
      cases hpe : prev.events.find? kv.1 with
      | none =>
        have : ((s.cur.removeEvent kv.1).addFrom kv.1 prev true).2 = .ub := by
          unfold Catalog.addFrom; rw [hpe]
        cases hx : (s.cur.removeEvent kv.1).addFrom kv.1 prev true with
        | mk c r =>
          rw [hx] at this h
          simp only at this
          subst this
          simp at h
      | some pe =>
        obtain ⟨c', r1, r2, r3, r4, r5⟩ := restore_spec hi.sound hp hps' hpe
        rw [r1] at h
        simp only at h
        rw [Outcome.bind_eq_ok] at h
        obtain ⟨⟨ops2, b2⟩, h3, h4⟩ := h
        simp only [Outcome.ok.injEq] at h4
        subst h4
        obtain ⟨refEv', ha'⟩ := addObservations_added r2.toWF h3
        obtain ⟨new', hnew', hgood'⟩ := ha'.new
        have hna' : NoAt c' := by
          intro k p hpm
          by_cases hk : k = kv.1
          · subst hk; rw [r5] at hpm; exact hpn _ _ hpm
          · rw [r3.phases _ hk] at hpm; exact hi.noAt _ _ hpm
        obtain ⟨z1, z2, z3⟩ := ha.ko hb.1
        refine ⟨r2, hna', ⟨?_, ?_, ?_⟩, ?_, ?_, ?_, ?_, ?_, ?_, ?_, ?_⟩
        · intro x; simp only [r3.stations, hi.keep.stations]
        · intro k hk
          simp only [List.mem_append, List.mem_singleton, not_or] at hk
          simp only [r3.events k hk.2, hi.keep.events k hk.1]
        · intro k hk
          simp only [List.mem_append, List.mem_singleton, not_or] at hk
          simp only [r3.phases k hk.2, hi.keep.phases k hk.1]
        · intro k hk
          simp only [List.mem_append, List.mem_singleton] at hk
          rcases hk with hk | rfl
          · exact hdone (hi.sub k hk)
          · simp
        · intro k hk
          simp only [List.mem_append, List.mem_singleton] at hk
          rcases hk with hk | rfl
          · have hne : k ≠ kv.1 := fun hc => hnr (hc ▸ hk)
            obtain ⟨w1, w2, w3⟩ := hi.restored k hk
            exact ⟨by simp only [r3.events k hne, w1], w2, by simp only [r3.phases k hne, w3]⟩
          · exact ⟨by simp only [r4, hpe], by rw [hpe]; rfl, r5⟩
        · intro k hk
          simp only [List.mem_append, List.mem_singleton] at hk
          rcases hk with hk | rfl
          · obtain ⟨nb, ev, m, rest⟩ := hi.why k hk
            exact ⟨nb, ev, List.mem_append_left _ m, rest⟩
          · refine ⟨kv.2, refEv, by simp, href0, hr, z1, ?_⟩
            intro t ht
            obtain ⟨rp, w1, w2⟩ := z3 t ht
            exact ⟨rp, hpick w1, fun hc => w2 (hi.keep.computable.2 hc)⟩
        · intro kv' hkv' hrv
          simp only [List.mem_append, List.mem_singleton, not_or] at hrv
          rw [List.mem_append, List.mem_singleton] at hkv'
          rcases hkv' with hkv' | rfl
          · exact hi.whyNot kv' hkv' hrv.1
          · exact absurd rfl hrv.2
        · have := ha'.len
          simp only [hsum]
          omega
        · simp only [hnew']; exact goodOp_noAt hna' hsep hgood'
        · intro q hq hne
          simp only [hnew', parOf_append, List.mem_append] at hq
          rcases hq with hq | hq
          · exact hsrcnew q hq (hnot hne).1
          · have hq2 := r3.source r2.toWF (hnot hne).2 (goodOp_source r2.toWF hgood' q hq)
            exact hi.keep.source hi.sound.toWF (fun hc => (hnot hne).1 (hi.sub _ hc)) hq2
        · intro q hq
          simp only [hnew', parOf_append, List.mem_append] at hq
          rcases hq with hq | hq
          · exact hfree q hq
          · rcases goodOp_free r2.toWF hgood' q hq with ⟨a, b⟩ | ⟨a, b⟩
            · exact Or.inl ⟨a, by rw [b, hkey]; simp⟩
            · exact Or.inr ⟨a, kv, by simp, b⟩
    · rw [if_neg hr] at h
      simp only [Outcome.ok.injEq] at h
      subst h
      apply hplain
      intro _
      right; simpa using hr

theorem observe_inv {env : Env K} {o : ObsOptions K} {xc : XCorr.Cache} {prev cur0 : Catalog K}
    (hc : cur0.Sound) (hcn : NoAt cur0)
    (hp : prev.Sound) (hpn : NoAt prev) (hps : isEmpty prev = true ∨ ∀ s, prev.stations.find? s = cur0.stations.find? s)
    {cluster : Cluster} (hg : GoodCluster cluster)
    (hfit : 28 * (cluster.map (·.2.phases.length)).sum ≤ IdToIndex.uintMod)
    {s : ObserveState K} (h : observe env o xc cluster prev cur0 = .ok s) :
    ObserveInv env o.keepNeighboursFixed prev cur0 cluster s := by
  unfold observe at h
  suffices H : ∀ (rest done : Cluster) (t : ObserveState K), done ++ rest = cluster →
      ObserveInv env o.keepNeighboursFixed prev cur0 done t → rest.foldlM (observeStep env o xc prev) t = .ok s →
      ObserveInv env o.keepNeighboursFixed prev cur0 cluster s by
    refine H cluster [] _ rfl ?_ h
    exact ⟨hc, hcn, ⟨fun _ => rfl, fun _ _ => rfl, fun _ _ => rfl⟩, by simp, by simp, by simp, by simp, by simp,
      by simp [NoSeparator, obsOf, parOf], by simp [parOf], by simp [parOf]⟩
  intro rest
  induction rest with
  | nil =>
    intro done t hd hi h
    simp only [List.foldlM_nil, Outcome.pure_eq, Outcome.ok.injEq] at h
    rw [List.append_nil] at hd
    rw [← hd, ← h]; exact hi
  | cons kv rest ih =>
    intro done t hd hi h
    rw [List.foldlM_cons, Outcome.bind_eq_ok] at h
    obtain ⟨t', h1, h2⟩ := h
    refine ih (done ++ [kv]) t' (by simpa using hd) ?_ h2
    have hnodup := hg.nodup
    rw [← hd] at hnodup hfit
    simp only [List.map_append, List.map_cons, List.sum_append, List.sum_cons] at hnodup hfit
    refine observeStep_inv hp hpn hps (hg.key kv (by rw [← hd]; simp)) ?_ ?_ hi h1
    · intro hc
      exact (List.nodup_append.1 hnodup).2.2 _ hc _ (by simp) rfl
    · simp only [List.map_append, List.map_cons, List.map_nil, List.sum_append, List.sum_cons, List.sum_nil]
      omega

end Verif.Relocate
