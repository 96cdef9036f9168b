import Verif.Proofs.Selection
import Verif.Props.KdTree

/-!
# C28, C29, C30, C34: selection of the neighbours of an event
-/

set_option linter.unusedSectionVars false
set_option linter.unusedSimpArgs false

namespace Verif.Selection
open Verif.Catalog
variable {K : Type} [Field K] [LinearOrder K] [IsStrictOrderedRing K]
variable {g : Geometry K} {cfg : Config K} {cat : Catalog K} {refEv : Event K} {refCat : Catalog K}

/-- nearest-neighbour mode is used without ellipsoids, and without a limit on the neighbours -/
def NearestMode (cfg : Config K) : Prop := cfg.maxNumNeigh = 0 ∨ cfg.numEllipsoids = 0

/-- The area in which neighbours are searched: a sphere, or the outermost ellipsoid. -/
def InReach (g : Geometry K) (cfg : Config K) (center p : Pt K) : Prop :=
  (NearestMode cfg → g.dist p center ≤ cfg.maxNeighbourDist) ∧
  (¬ NearestMode cfg → g.inside (cfg.maxNeighbourDist * 2) center p = true ∧
    g.dist p center ≤ cfg.maxNeighbourDist * 2)

theorem select_nearest {pop : KdTree.Pop K} {t : EventTree K} (h : NearestMode cfg) :
    selectNeighbours g cfg cat refEv refCat pop t = nearest g cfg cat refEv refCat pop t := by
  unfold selectNeighbours
  rcases h with h | h
  · simp [h]
  · by_cases h' : cfg.maxNumNeigh = 0 <;> simp [h, h']

theorem select_ellipsoids {pop : KdTree.Pop K} {t : EventTree K} (h : ¬ NearestMode cfg) :
    selectNeighbours g cfg cat refEv refCat pop t = (ellipsoids g cfg cat refEv refCat t).map (·.1) := by
  unfold NearestMode at h
  push Not at h
  unfold selectNeighbours
  simp [h.1, h.2]

/-- the index built from a catalog holds its events -/
theorem createEventTree_wf
    (nth : (pt : Nat → Pt K) → (axis : Nat) → NthElement (fun i => KdTree.coord axis (pt i)))
    (c : Catalog K) (hc : c.WF) :
    (createEventTree nth c).WF ∧
    ∀ p id, (p, id) ∈ (createEventTree nth c).points ↔ ∃ e, c.events.find? id = some e ∧ p = eventPt e := by
  have hperm : c.eventsSorted.Perm c.events := List.perm_insertionSort _ _
  have hmem : ∀ kv ∈ c.eventsSorted, kv.2.id = kv.1 := by
    intro kv hkv
    exact (hc.eventKey _ _ (AMap.find?_of_mem hc.eventsUnique (hperm.subset hkv))).1
  obtain ⟨h1, h2⟩ := KdTree.tree_holds_points (createEventTree nth c).pt (nth (createEventTree nth c).pt)
    (createEventTree nth c).points.length
  refine ⟨⟨h1, ?_, h2⟩, ?_⟩
  · have : (createEventTree nth c).points.map (·.2) = c.eventsSorted.map (·.1) := by
      unfold createEventTree
      simp only [List.map_map]
      exact List.map_congr_left (fun kv hkv => hmem kv hkv)
    rw [this, (hperm.map _).nodup_iff]
    exact hc.eventsUnique
  · intro p id
    unfold createEventTree
    simp only [List.mem_map, Prod.mk.injEq]
    constructor
    · rintro ⟨kv, hkv, rfl, rfl⟩
      refine ⟨kv.2, ?_, rfl⟩
      rw [hmem kv hkv]
      exact AMap.find?_of_mem hc.eventsUnique (hperm.subset hkv)
    · rintro ⟨e, he, rfl⟩
      have := hperm.symm.subset (AMap.mem_of_find? he)
      exact ⟨(id, e), this, rfl, hmem _ this⟩

/-- **C28** Whatever the index and the order in which it delivers events: every neighbour of the result
is another event of the catalog within reach, recorded with phases that meet the constraints, and there
are not more neighbours than asked for. -/
theorem neighbours_meet_constraints_partial (pop : KdTree.Pop K) (t : EventTree K) (ht : t.WF)
    (hid : ∀ id e, cat.events.find? id = some e → e.id = id) (hg : g.Nonneg cat refEv t) (nb : Neighbours)
    (h : selectNeighbours g cfg cat refEv refCat pop t = .ok nb) :
    nb.refId = refEv.id ∧ nb.ids.Nodup ∧ (0 < cfg.maxNumNeigh → nb.amount ≤ cfg.maxNumNeigh) ∧
    ∀ id phs, nb.nbs.find? id = some phs → ∃ p event, (p, id) ∈ t.points ∧ InReach g cfg (eventPt refEv) p ∧
      Chosen g cfg cat refEv refCat id event (g.dist p (eventPt refEv)) phs := by
  have fin : ∀ T : List (K × Nat), tryAll g cfg cat refEv refCat t T (Neighbours.empty refEv.id) = .ok nb →
      (T.map (fun x => t.data x.2)).Nodup →
      (∀ x ∈ T, (t.pt x.2, t.data x.2) ∈ t.points ∧ x.1 = g.dist (t.pt x.2) (eventPt refEv) ∧
        InReach g cfg (eventPt refEv) (t.pt x.2)) →
      (0 < cfg.maxNumNeigh → nb.amount ≤ cfg.maxNumNeigh) →
      nb.refId = refEv.id ∧ nb.ids.Nodup ∧ (0 < cfg.maxNumNeigh → nb.amount ≤ cfg.maxNumNeigh) ∧
      ∀ id phs, nb.nbs.find? id = some phs → ∃ p event, (p, id) ∈ t.points ∧ InReach g cfg (eventPt refEv) p ∧
        Chosen g cfg cat refEv refCat id event (g.dist p (eventPt refEv)) phs := by
    intro T hT hnd hmem hmax
    obtain ⟨a1, a2, a3⟩ := tryAll_spec hid T (nb := Neighbours.empty refEv.id)
      (by simp [Neighbours.empty, AMap.NodupKeys]) hnd (by simp [Neighbours.empty]) hT
    refine ⟨a1, a2, hmax, ?_⟩
    intro id phs hf
    rcases (a3 id phs).1 hf with h | ⟨x, hx, rfl, hr⟩
    · simp [Neighbours.empty] at h
    · obtain ⟨b1, b2, b3⟩ := hmem x hx
      obtain ⟨event, he⟩ := records_chosen hg hid (by rw [b2]; exact hg.dist _ b1) hr
      rw [b2] at he
      exact ⟨t.pt x.2, event, b1, b3, he⟩
  by_cases hm : NearestMode cfg
  · rw [select_nearest hm] at h
    obtain ⟨T, rest, e1, -, e3, e4, e5, -⟩ := nearest_spec False hid ht (fun h => h.elim) h
    have hsub : ∀ x ∈ T, x ∈ KdTree.withDist t.pt g.dist (eventPt refEv) (KdTree.contents t.tree) :=
      fun x hx => e1.subset (by simp [hx])
    refine fin T e3 ?_ ?_ e5
    · have hn : ((T ++ rest).map (fun x => t.data x.2)).Nodup := by
        rw [(e1.map _).nodup_iff]
        unfold KdTree.withDist
        rw [List.map_map]
        exact ids_nodup ht
      rw [List.map_append] at hn
      exact (List.nodup_append.1 hn).1
    · intro x hx
      obtain ⟨b1, b2⟩ := withDist_mem ht (hsub x hx)
      refine ⟨b1, b2, fun _ => ?_, fun h => absurd hm h⟩
      rw [← b2]
      exact e4 x hx
  · rw [select_ellipsoids hm] at h
    cases he : ellipsoids g cfg cat refEv refCat t with
    | throws => simp [he, Outcome.map] at h
    | ub => simp [he, Outcome.map] at h
    | ok r =>
      simp only [he, Outcome.map, Outcome.ok.injEq] at h
      subst h
      obtain ⟨T, R, e1, e2, e3, -, -⟩ := ellipsoids_spec hid ht he
      obtain ⟨c1, c2⟩ := candidates_spec (g := g) (cfg := cfg) (refEv := refEv) ht
      refine fin T e1 ?_ ?_ e3
      · have hn : ((T ++ R).map (fun x => t.data x.2)).Nodup := (e2.map _).nodup_iff.2 c1
        rw [List.map_append] at hn
        exact (List.nodup_append.1 hn).1
      · intro x hx
        obtain ⟨b1, b2, b3, b4⟩ := c2 x (e2.subset (by simp [hx]))
        refine ⟨b1, b2, fun h => absurd h hm, fun _ => ⟨b4, ?_⟩⟩
        rw [← b2]
        exact b3

/-- **C28** The selection returns normally when the stations of all phases are known. -/
theorem selection_returns (pop : KdTree.Pop K) (t : EventTree K) (ht : t.WF)
    (h : ∀ kp ∈ cat.phases, (cat.stations.find? kp.2.stationId).isSome) :
    ∃ nb, selectNeighbours g cfg cat refEv refCat pop t = .ok nb := by
  have h' : ∀ id, ∀ p ∈ cat.phasesOf id, (cat.stations.find? p.stationId).isSome := by
    intro id p hp
    unfold Catalog.phasesOf at hp
    obtain ⟨kp, hkp, rfl⟩ := List.mem_map.1 hp
    exact h kp (List.mem_filter.1 hkp).1
  by_cases hm : NearestMode cfg
  · rw [select_nearest hm]
    obtain ⟨E, -, -, e3⟩ := KdTree.bestFirst_spec (pt := t.pt) (dist := g.dist) (axisDist := g.axisDist)
      (q := eventPt refEv) False pop 0 t.tree (fun h => h.elim)
    unfold nearest
    rw [e3]
    exact deliver_returns h' t E _
  · rw [select_ellipsoids hm]
    have : ∃ r, ellipsoids g cfg cat refEv refCat t = .ok r := by
      unfold ellipsoids
      simp only
      split
      · exact ⟨_, rfl⟩
      · exact rounds_returns h' t _ _ _ _
    obtain ⟨r, hr⟩ := this
    rw [hr]
    exact ⟨_, rfl⟩

/-- **C29** Without ellipsoids an eligible event within the maximum distance is left out only if the
maximum number of neighbours is reached, and then all the neighbours are at least as close.  Partial:
the axis distances of the index must be lower bounds, which is not always the case (see C27). -/
theorem nearest_selection_maximal_partial (pop : KdTree.Pop K) (t : EventTree K) (ht : t.WF)
    (hid : ∀ id e, cat.events.find? id = some e → e.id = id) (hg : g.Nonneg cat refEv t)
    (hu : UniquePhases refCat refEv.id) (hm : NearestMode cfg)
    (ha : KdTree.Admissible g.dist g.axisDist (eventPt refEv) (t.points.map (·.1)))
    (nb : Neighbours) (h : selectNeighbours g cfg cat refEv refCat pop t = .ok nb)
    (p : Pt K) (id : Nat) (hp : (p, id) ∈ t.points) (hd : g.dist p (eventPt refEv) ≤ cfg.maxNeighbourDist)
    (hel : Eligible g cfg cat refEv refCat id (g.dist p (eventPt refEv))) (hout : id ∉ nb.ids) :
    0 < cfg.maxNumNeigh ∧ nb.amount = cfg.maxNumNeigh ∧
    ∀ id' ∈ nb.ids, ∀ p', (p', id') ∈ t.points → g.dist p' (eventPt refEv) ≤ g.dist p (eventPt refEv) := by
  rw [select_nearest hm] at h
  obtain ⟨T, rest, e1, e2, e3, e4, e5, e6⟩ := nearest_spec True hid ht (fun _ => ⟨ha, hg.dist⟩) h
  have hs := e2 trivial
  have hnd : ((T ++ rest).map (fun x => t.data x.2)).Nodup := by
    rw [(e1.map _).nodup_iff]
    unfold KdTree.withDist
    rw [List.map_map]
    exact ids_nodup ht
  have hndT : (T.map (fun x => t.data x.2)).Nodup := by
    rw [List.map_append] at hnd
    exact (List.nodup_append.1 hnd).1
  obtain ⟨a1, a2, a3⟩ := tryAll_spec hid T (nb := Neighbours.empty refEv.id)
    (by simp [Neighbours.empty, AMap.NodupKeys]) hndT (by simp [Neighbours.empty]) e3
  obtain ⟨i, i1, i2, i3⟩ := mem_withDist (g := g) ht (eventPt refEv) hp
  have hrest : (g.dist p (eventPt refEv), i) ∈ rest := by
    rcases List.mem_append.1 (e1.symm.subset i3) with hx | hx
    · exfalso
      obtain ⟨nb1, r, hr⟩ := tryAll_mem e3 hx
      simp only [i2] at hr
      obtain ⟨phs, hrec⟩ := eligible_records hg hu (hg.dist _ hp) hel hr
      apply hout
      exact AMap.mem_keys_of_find? ((a3 id phs).2 (.inr ⟨_, hx, i2, hrec⟩))
    · exact hx
  unfold KdTree.Sorted at hs
  rw [List.pairwise_append] at hs
  rcases e6 with rfl | ⟨x, r, rfl, hx⟩ | ⟨hpos, hamt⟩
  · simp at hrest
  · exfalso
    rcases List.mem_cons.1 hrest with rfl | hr
    · exact absurd hd (not_le.2 hx)
    · exact absurd (le_trans ((List.pairwise_cons.1 hs.2.1).1 _ hr) hd) (not_le.2 hx)
  · refine ⟨hpos, hamt, ?_⟩
    intro id' hid' p' hp'
    obtain ⟨phs, hf⟩ := Option.isSome_iff_exists.1 (AMap.find?_isSome.2 hid')
    rcases (a3 id' phs).1 hf with h' | ⟨x, hx, hx2, -⟩
    · simp [Neighbours.empty] at h'
    · have hxd := (withDist_mem ht (e1.subset (List.mem_append_left _ hx))).2
      have hpt : t.pt x.2 = p' := by
        have h1 := (withDist_mem ht (e1.subset (List.mem_append_left _ hx))).1
        rw [hx2] at h1
        have := nodup_map_inj ht.ids h1 hp' rfl
        exact (Prod.mk.inj this).1
      have := hs.2.2 x hx _ hrest
      rw [hxd, hpt] at this
      exact this

/-- **C29** With ellipsoids an eligible event inside the outermost ellipsoid is left out only if the
maximum number of neighbours is reached, or the event belongs to no layer and the search gives up. -/
theorem ellipsoid_selection_maximal_partial (t : EventTree K) (ht : t.WF)
    (hid : ∀ id e, cat.events.find? id = some e → e.id = id) (hg : g.Nonneg cat refEv t)
    (hu : UniquePhases refCat refEv.id)
    (ha : KdTree.Admissible g.dist g.axisDist (eventPt refEv) (t.points.map (·.1)))
    (r : Neighbours × RoundEnd K) (h : ellipsoids g cfg cat refEv refCat t = .ok r)
    (p : Pt K) (id : Nat) (hp : (p, id) ∈ t.points)
    (hin : g.inside (cfg.maxNeighbourDist * 2) (eventPt refEv) p = true)
    (hd : g.dist p (eventPt refEv) ≤ cfg.maxNeighbourDist * 2)
    (hel : Eligible g cfg cat refEv refCat id (g.dist p (eventPt refEv))) (hout : id ∉ r.1.ids) :
    (0 < cfg.maxNumNeigh ∧ r.1.amount = cfg.maxNumNeigh) ∨
    ∃ R, r.2 = .stuck R ∧ ∀ c ∈ cells (cfg.maxNeighbourDist * 2) cfg.numEllipsoids,
      ¬ (inRange c (g.dist p (eventPt refEv)) = true ∧ inCell g (eventPt refEv) c p = true) := by
  obtain ⟨T, R, e1, e2, e3, -, e4⟩ := ellipsoids_spec hid ht h
  obtain ⟨c1, c2⟩ := candidates_spec (g := g) (cfg := cfg) (refEv := refEv) ht
  obtain ⟨i, i1, i2, i3⟩ := candidates_complete ht ha hp hd hin
  have hnd : ((T ++ R).map (fun x => t.data x.2)).Nodup := (e2.map _).nodup_iff.2 c1
  rw [List.map_append] at hnd
  obtain ⟨a1, a2, a3⟩ := tryAll_spec hid T (nb := Neighbours.empty refEv.id)
    (by simp [Neighbours.empty, AMap.NodupKeys]) (List.nodup_append.1 hnd).1 (by simp [Neighbours.empty]) e1
  have hR : (g.dist p (eventPt refEv), i) ∈ R := by
    rcases List.mem_append.1 (e2.symm.subset i3) with hx | hx
    · exfalso
      obtain ⟨nb1, r', hr⟩ := tryAll_mem e1 hx
      simp only [i2] at hr
      obtain ⟨phs, hrec⟩ := eligible_records hg hu (hg.dist _ hp) hel hr
      apply hout
      exact AMap.mem_keys_of_find? ((a3 id phs).2 (.inr ⟨_, hx, i2, hrec⟩))
    · exact hx
  rcases e4 with ⟨-, h' | h'⟩ | ⟨h', -, hno⟩
  · rw [h'] at hR; simp at hR
  · exact .inl h'
  · refine .inr ⟨R, h', ?_⟩
    intro c hc hh
    have := hno c hc _ hR
    unfold matches' at this
    simp only [i1, hh.1, hh.2] at this
    simp at this

/-! ## C34: the layers and quadrants -/

/-- What the round robin expects of the ellipsoids around the centre, for a point `p`. -/
structure Layered (g : Geometry K) (center p : Pt K) : Prop where
  /-- nothing is inside an ellipsoid without extent -/
  zero : g.inside 0 center p = false
  mono : ∀ v w, 0 < v → v ≤ w → g.inside v center p = true → g.inside w center p = true
  quadrant : ∃ q ∈ [1, 2, 3, 4, 5, 6, 7, 8], g.inQuadrant center p q = true
  /-- inside an ellipsoid the distance is at most the vertical semi-axis … -/
  upper : ∀ v, 0 < v → g.inside v center p = true → g.dist p center ≤ v
  /-- … and outside it is at least the horizontal one -/
  lower : ∀ v, 0 ≤ v → g.inside v center p = false → v / 2 ≤ g.dist p center

/-- the layers are bounded by ellipsoids each half the size of the next; the innermost has no inner bound -/
theorem layers_eq (v : K) (n : Nat) :
    layersFrom v n = (List.range n).map (fun i => (if i = 0 then 0 else v / 2 ^ (n - i), v / 2 ^ (n - 1 - i))) := by
  induction n generalizing v with
  | zero => rfl
  | succ n ih =>
    cases n with
    | zero => simp [layersFrom]
    | succ n =>
      rw [layersFrom, ih, List.range_succ (n := n + 1), List.map_append]
      congr 1
      · refine List.map_congr_left ?_
        intro i hi
        rw [List.mem_range] at hi
        have e1 : n + 1 + 1 - 1 - i = (n + 1 - 1 - i) + 1 := by omega
        have e2 : n + 1 + 1 - i = (n + 1 - i) + 1 := by omega
        rw [e1, e2, pow_succ', pow_succ', ← div_div, ← div_div]
      · simp

/-- **C34** A point inside the outermost ellipsoid lies in exactly one layer. -/
theorem exactly_one_layer (center p : Pt K) (v : K) (hv : 0 < v) (n : Nat) (hn : 0 < n) (h0 : g.inside 0 center p = false)
    (hmono : ∀ v w, 0 < v → v ≤ w → g.inside v center p = true → g.inside w center p = true)
    (hin : g.inside v center p = true) :
    ∃! l, l ∈ layersFrom v n ∧ g.inside l.2 center p = true ∧ g.inside l.1 center p = false := by
  induction n generalizing v with
  | zero => omega
  | succ n ih =>
    cases n with
    | zero =>
      refine ⟨(0, v), ⟨by simp [layersFrom], hin, h0⟩, ?_⟩
      rintro l ⟨hl, -⟩
      simpa [layersFrom] using hl
    | succ n =>
      have hle : ∀ (m : Nat) (w : K), 0 < w → ∀ l ∈ layersFrom w m, 0 < l.2 ∧ l.2 ≤ w := by
        intro m
        induction m with
        | zero => intro w _ l hl; simp [layersFrom] at hl
        | succ m ihm =>
          cases m with
          | zero => intro w hw l hl; simp only [layersFrom, List.mem_singleton] at hl; rw [hl]; exact ⟨hw, le_refl _⟩
          | succ m =>
            intro w hw l hl
            simp only [layersFrom, List.mem_append, List.mem_singleton] at hl
            rcases hl with hl | rfl
            · obtain ⟨a, b⟩ := ihm (w / 2) (by linarith) l hl
              exact ⟨a, by linarith⟩
            · exact ⟨hw, le_refl _⟩
      cases hi : g.inside (v / 2) center p with
      | true =>
        obtain ⟨l, ⟨h1, h2, h3⟩, h4⟩ := ih (v / 2) (by linarith) (by omega) hi
        refine ⟨l, ⟨by simp [layersFrom, h1], h2, h3⟩, ?_⟩
        rintro l' ⟨hl', a, b⟩
        simp only [layersFrom, List.mem_append, List.mem_singleton] at hl'
        rcases hl' with hl' | rfl
        · exact h4 l' ⟨hl', a, b⟩
        · simp only at b
          rw [hi] at b; cases b
      | false =>
        refine ⟨(v / 2, v), ⟨by simp [layersFrom], hin, hi⟩, ?_⟩
        rintro l' ⟨hl', a, b⟩
        simp only [layersFrom, List.mem_append, List.mem_singleton] at hl'
        rcases hl' with hl' | rfl
        · exfalso
          obtain ⟨p1, p2⟩ := hle (n + 1) (v / 2) (by linarith) l' hl'
          have := hmono l'.2 (v / 2) p1 p2 a
          rw [hi] at this; cases this
        · rfl

theorem layers_nonneg (v : K) (hv : 0 < v) (n : Nat) : ∀ l ∈ layersFrom v n, 0 ≤ l.1 ∧ 0 < l.2 := by
  induction n generalizing v with
  | zero => intro l hl; simp [layersFrom] at hl
  | succ n ih =>
    cases n with
    | zero => intro l hl; simp only [layersFrom, List.mem_singleton] at hl; rw [hl]; exact ⟨le_refl _, hv⟩
    | succ n =>
      intro l hl
      simp only [layersFrom, List.mem_append, List.mem_singleton] at hl
      rcases hl with hl | rfl
      · exact ih (v / 2) (by linarith) l hl
      · exact ⟨by simp only; linarith, hv⟩

/-- **C34** If the ellipsoids are as expected for every event, the round robin never gives up: it ends
because all events were tried or the maximum number of neighbours is reached. -/
theorem round_robin_not_stuck (t : EventTree K) (ht : t.WF)
    (hid : ∀ id e, cat.events.find? id = some e → e.id = id) (hdist : 0 < cfg.maxNeighbourDist)
    (hn : 0 < cfg.numEllipsoids)
    (hl : ∀ x ∈ t.points, Layered g (eventPt refEv) x.1)
    (r : Neighbours × RoundEnd K) (h : ellipsoids g cfg cat refEv refCat t = .ok r) :
    r.2 = .finished := by
  obtain ⟨T, R, e1, e2, e3, -, e4⟩ := ellipsoids_spec hid ht h
  obtain ⟨c1, c2⟩ := candidates_spec (g := g) (cfg := cfg) (refEv := refEv) ht
  rcases e4 with ⟨h1, -⟩ | ⟨h1, hne, hno⟩
  · exact h1
  · exfalso
    · obtain ⟨x, hx⟩ := List.exists_mem_of_ne_nil _ hne
      obtain ⟨b1, b2, b3, b4⟩ := c2 x (e2.subset (by simp [hx]))
      have L := hl _ b1
      obtain ⟨l, ⟨l1, l2, l3⟩, -⟩ := exactly_one_layer (g := g) (eventPt refEv) (t.pt x.2) (cfg.maxNeighbourDist * 2)
        (by linarith) cfg.numEllipsoids hn L.zero L.mono b4
      obtain ⟨q, hq, hq2⟩ := L.quadrant
      have hc : (l, q) ∈ cells (cfg.maxNeighbourDist * 2) cfg.numEllipsoids := by
        unfold cells
        exact List.mem_flatMap.2 ⟨l, l1, List.mem_map.2 ⟨q, hq, rfl⟩⟩
      have := hno _ hc x hx
      have hr : inRange (l, q) x.1 = true := by
        unfold inRange
        simp only [decide_eq_true_eq]
        rw [b2]
        obtain ⟨n1, n2⟩ := layers_nonneg _ (by linarith) _ l l1
        exact ⟨L.lower _ n1 l3, L.upper _ n2 l2⟩
      have hcell : inCell g (eventPt refEv) (l, q) (t.pt x.2) = true := by
        unfold inCell
        simp [hq2, l2, l3]
      unfold matches' at this
      simp only [hr, hcell] at this
      simp at this

/-- **C29, C34** Then every eligible event inside the outermost ellipsoid is a neighbour, unless the
maximum number of neighbours is reached. -/
theorem ellipsoid_selection_complete_partial (t : EventTree K) (ht : t.WF)
    (hid : ∀ id e, cat.events.find? id = some e → e.id = id) (hg : g.Nonneg cat refEv t)
    (hu : UniquePhases refCat refEv.id) (hdist : 0 < cfg.maxNeighbourDist) (hm : ¬ NearestMode cfg)
    (hl : ∀ x ∈ t.points, Layered g (eventPt refEv) x.1)
    (ha : KdTree.Admissible g.dist g.axisDist (eventPt refEv) (t.points.map (·.1)))
    (pop : KdTree.Pop K) (nb : Neighbours) (h : selectNeighbours g cfg cat refEv refCat pop t = .ok nb)
    (p : Pt K) (id : Nat) (hp : (p, id) ∈ t.points)
    (hin : g.inside (cfg.maxNeighbourDist * 2) (eventPt refEv) p = true)
    (hel : Eligible g cfg cat refEv refCat id (g.dist p (eventPt refEv))) (hout : id ∉ nb.ids) :
    nb.amount = cfg.maxNumNeigh := by
  rw [select_ellipsoids hm] at h
  cases he : ellipsoids g cfg cat refEv refCat t with
  | throws => simp [he, Outcome.map] at h
  | ub => simp [he, Outcome.map] at h
  | ok r =>
    simp only [he, Outcome.map, Outcome.ok.injEq] at h
    subst h
    have hn : 0 < cfg.numEllipsoids := by
      unfold NearestMode at hm
      push Not at hm
      exact Nat.pos_of_ne_zero hm.2
    have hf := round_robin_not_stuck t ht hid hdist hn hl r he
    rcases ellipsoid_selection_maximal_partial t ht hid hg hu ha r he p id hp hin ((hl _ hp).upper _ (by linarith) hin) hel hout with
      h | ⟨R, h, -⟩
    · exact h.2
    · rw [hf] at h; cases h

/-- An event which is in no layer at the distance where that layer is searched is never selected. -/
theorem unmatched_not_selected (t : EventTree K) (ht : t.WF)
    (hid : ∀ id e, cat.events.find? id = some e → e.id = id) (hm : ¬ NearestMode cfg)
    (pop : KdTree.Pop K) (nb : Neighbours) (h : selectNeighbours g cfg cat refEv refCat pop t = .ok nb)
    (p : Pt K) (id : Nat) (hp : (p, id) ∈ t.points)
    (hno : ∀ c ∈ cells (cfg.maxNeighbourDist * 2) cfg.numEllipsoids,
      ¬ (inRange c (g.dist p (eventPt refEv)) = true ∧ inCell g (eventPt refEv) c p = true)) : id ∉ nb.ids := by
  rw [select_ellipsoids hm] at h
  cases he : ellipsoids g cfg cat refEv refCat t with
  | throws => simp [he, Outcome.map] at h
  | ub => simp [he, Outcome.map] at h
  | ok r =>
    simp only [he, Outcome.map, Outcome.ok.injEq] at h
    subst h
    obtain ⟨T, R, e1, e2, e3, e4, -⟩ := ellipsoids_spec hid ht he
    obtain ⟨c1, c2⟩ := candidates_spec (g := g) (cfg := cfg) (refEv := refEv) ht
    have hnd : ((T ++ R).map (fun x => t.data x.2)).Nodup := (e2.map _).nodup_iff.2 c1
    rw [List.map_append] at hnd
    obtain ⟨a1, a2, a3⟩ := tryAll_spec hid T (nb := Neighbours.empty refEv.id)
      (by simp [Neighbours.empty, AMap.NodupKeys]) (List.nodup_append.1 hnd).1 (by simp [Neighbours.empty]) e1
    intro hin
    obtain ⟨phs, hf⟩ := Option.isSome_iff_exists.1 (AMap.find?_isSome.2 hin)
    rcases (a3 id phs).1 hf with h' | ⟨x, hx, hx2, -⟩
    · simp [Neighbours.empty] at h'
    · obtain ⟨b1, b2, -⟩ := c2 x (e2.subset (by simp [hx]))
      rw [hx2] at b1
      have hpt : t.pt x.2 = p := (Prod.mk.inj (nodup_map_inj ht.ids b1 hp rfl)).1
      obtain ⟨c, hc, hmt⟩ := e4 x hx
      unfold matches' at hmt
      rw [b2, hpt, Bool.and_eq_true] at hmt
      exact hno c hc hmt

/-! ## C30: distance limits of the reference event -/

/-- **C30** (negation) The limits on the distance between the reference event and the stations exclude
no station, unless the minimum exceeds the maximum. -/
theorem reference_limits_ineffective (cfg : Config K) (h : cfg.minESdist ≤ cfg.maxESdist) (d : K) :
    validStation cfg d = true := by
  unfold validStation
  simp only [decide_eq_true_eq]
  rcases le_total d cfg.maxESdist with hd | hd
  · exact .inl (.inr hd)
  · exact .inr (le_trans h hd)

/-! ## Non-vacuity and counterexamples

Coordinates in the plane with the largest difference as distance, cylinders in place of ellipsoids, and
stations on a line. -/

end Verif.Selection

namespace Verif.Selection.Example
open Verif.Catalog

def geo : Geometry ℚ where
  dist := KdTree.Example.chebyshev
  axisDist := KdTree.Example.along
  staDist e s := |e.latitude - s.latitude|
  inside v c p := 0 < v ∧ 2 * max |p.lat - c.lat| |p.lon - c.lon| ≤ v ∧ |p.depth - c.depth| ≤ v
  inQuadrant c p q :=
    ¬ (p.depth < c.depth ∧ q ∈ [1, 2, 3, 4]) ∧ ¬ (c.depth < p.depth ∧ q ∈ [5, 6, 7, 8]) ∧
    ¬ (p.lat < c.lat ∧ q ∈ [1, 2, 5, 6]) ∧ ¬ (c.lat < p.lat ∧ q ∈ [3, 4, 7, 8]) ∧
    ¬ (p.lon - c.lon < 0 ∧ q ∈ [1, 4, 5, 8]) ∧ ¬ (0 < p.lon - c.lon ∧ q ∈ [2, 3, 6, 7])

def ev (id : Nat) (lat lon depth : ℚ) : Event ℚ := ⟨id, 0, lat, lon, depth, 0, false, 0, 0⟩
def sta (code : String) (lat : ℚ) : Station ℚ := ⟨"N." ++ code ++ ".", lat, 0, 0, "N", code, ""⟩
def ph (id : Nat) (code type : String) (pt : PhaseType) : Nat × Phase ℚ :=
  (id, ⟨id, "N." ++ code ++ ".", 0, 0, 0, type, "N", code, "", "H", pt, 1, .catalog, false, 0, 0, 0⟩)

def cat : Catalog ℚ where
  stations := [("N.A.", sta "A" 10), ("N.B.", sta "B" (-20))]
  events := [(1, ev 1 0 0 0), (2, ev 2 1 0 0), (3, ev 3 0 0 3), (4, ev 4 2 1 1), (5, ev 5 9 9 9)]
  phases := [ph 1 "A" "P" .P, ph 1 "B" "S" .S, ph 2 "A" "P" .P, ph 2 "B" "S" .S, ph 3 "A" "P" .P,
    ph 3 "B" "S" .S, ph 4 "A" "P" .NO, ph 4 "B" "S" .S, ph 5 "A" "P" .P]

def points : List (Pt ℚ × Nat) := [(⟨0, 0, 0⟩, 1), (⟨1, 0, 0⟩, 2), (⟨0, 0, 3⟩, 3), (⟨2, 1, 1⟩, 4), (⟨9, 9, 9⟩, 5)]
def tree : EventTree ℚ :=
  ⟨points, KdTree.ofPoints (fun i => (points.getD i (⟨0, 0, 0⟩, 0)).1) (fun _ => .sorting _) 5⟩

def cfg : Config ℚ := ⟨0, -1, 0, 2, 0, 2, 0, 5⟩
def ref : Event ℚ := ev 1 0 0 0

theorem treeWF : tree.WF := by
  obtain ⟨h1, h2⟩ := KdTree.tree_holds_points (fun i => (points.getD i (⟨0, 0, 0⟩, 0)).1) (fun _ => .sorting _) 5
  exact ⟨h1, by decide +kernel, h2⟩

theorem nonneg : geo.Nonneg cat ref tree :=
  ⟨by intro x _; unfold geo KdTree.Example.chebyshev; positivity,
   fun _ _ _ => abs_nonneg _, fun _ _ _ _ _ _ => abs_nonneg _⟩

theorem admissible : KdTree.Admissible geo.dist geo.axisDist (eventPt ref) (points.map (·.1)) := by
  have : ∀ axis < 3, ∀ c ∈ points, ∀ p ∈ points,
    (KdTree.coord axis (eventPt ref) < KdTree.coord axis c.1 ∧ KdTree.coord axis c.1 ≤ KdTree.coord axis p.1) ∨
    (KdTree.coord axis p.1 ≤ KdTree.coord axis c.1 ∧ KdTree.coord axis c.1 ≤ KdTree.coord axis (eventPt ref)) →
      geo.axisDist axis c.1 (eventPt ref) ≤ geo.dist p.1 (eventPt ref) := by decide +kernel
  intro a ha c hc p hp
  obtain ⟨i, hi, rfl⟩ := List.mem_map.1 hc
  obtain ⟨j, hj, rfl⟩ := List.mem_map.1 hp
  exact this a ha i hi j hj

theorem eventKeys : ∀ id e, cat.events.find? id = some e → e.id = id := by
  intro id e h
  have := AMap.mem_of_find? h
  simp only [cat, List.mem_cons, Prod.mk.injEq, List.not_mem_nil, or_false] at this
  rcases this with ⟨rfl, rfl⟩ | ⟨rfl, rfl⟩ | ⟨rfl, rfl⟩ | ⟨rfl, rfl⟩ | ⟨rfl, rfl⟩ <;> rfl

/-- the two nearest events with two phases are selected -/
theorem selected : selectNeighbours geo cfg cat ref cat KdTree.Example.sortingPop tree =
    .ok ⟨1, [(3, [("N.A.", "P"), ("N.B.", "S")]), (2, [("N.A.", "P"), ("N.B.", "S")])]⟩ := by decide +kernel

/-- the hypotheses of C28 and of the first part of C29 are met; with one phase and one neighbour, event 3
is eligible but left out because event 2 is nearer -/
example := neighbours_meet_constraints_partial KdTree.Example.sortingPop tree treeWF eventKeys nonneg _ selected

def cfg1 : Config ℚ := { cfg with maxNumNeigh := 1 }
theorem selected1 : selectNeighbours geo cfg1 cat ref cat KdTree.Example.sortingPop tree =
    .ok ⟨1, [(2, [("N.A.", "P"), ("N.B.", "S")])]⟩ := by decide +kernel

theorem eligible3 (c : Config ℚ) (h1 : c.minPhase = 2) (h2 : c.maxESdist = -1) (h3 : c.minESdist = 0) (h4 : c.minEStoIEratio = 0)
    (d : ℚ) : Eligible geo c cat ref cat 3 d := by
  refine ⟨by decide, ev 3 0 0 3, by decide +kernel, [("N.A.", "P"), ("N.B.", "S")], by decide, by decide, by simp [h1], ?_⟩
  intro sp hsp
  simp only [List.mem_cons, List.not_mem_nil, or_false] at hsp
  rcases hsp with rfl | rfl
  · refine ⟨sta "A" 10, by decide +kernel, ⟨(ph 3 "A" "P" .P).2, by decide +kernel, by decide, by decide, by decide⟩,
      ⟨(ph 1 "A" "P" .P).2, by decide +kernel, by decide, by decide, by decide⟩, ?_, ?_, ?_⟩
    · unfold WithinLimits; rw [h2, h3]; norm_num
    · rw [h4]; norm_num
    · rw [h2]; norm_num
  · refine ⟨sta "B" (-20), by decide +kernel, ⟨(ph 3 "B" "S" .S).2, by decide +kernel, by decide, by decide, by decide⟩,
      ⟨(ph 1 "B" "S" .S).2, by decide +kernel, by decide, by decide, by decide⟩, ?_, ?_, ?_⟩
    · unfold WithinLimits; rw [h2, h3]; norm_num
    · rw [h4]; norm_num
    · rw [h2]; norm_num

theorem uniqueRef : UniquePhases cat ref.id := by unfold UniquePhases; decide +kernel

example := nearest_selection_maximal_partial KdTree.Example.sortingPop tree treeWF eventKeys nonneg uniqueRef
  (.inr rfl) admissible _ selected1 ⟨0, 0, 3⟩ 3 (by decide +kernel) (by decide +kernel)
  (eligible3 cfg1 rfl rfl rfl rfl _) (by decide)

/-- two layers, one neighbour: the nearest layer is visited first -/
def cfgE : Config ℚ := { cfg with maxNumNeigh := 1, numEllipsoids := 2 }
theorem selectedE : selectNeighbours geo cfgE cat ref cat KdTree.Example.sortingPop tree =
    .ok ⟨1, [(2, [("N.A.", "P"), ("N.B.", "S")])]⟩ := by decide +kernel

theorem layered (p : Pt ℚ) : Layered geo (eventPt ref) p := by
  have hg : ∀ v, geo.inside v (eventPt ref) p = true ↔ 0 < v ∧ 2 * max |p.lat - 0| |p.lon - 0| ≤ v ∧ |p.depth - 0| ≤ v := by
    intro v; simp only [geo, decide_eq_true_eq]; rfl
  have hd : geo.dist p (eventPt ref) = max |p.lat - 0| (max |p.lon - 0| |p.depth - 0|) := rfl
  refine ⟨?_, ?_, ?_, ?_, ?_⟩
  · simp [geo]
  · intro v w _ hvw h
    rw [hg] at h ⊢
    exact ⟨lt_of_lt_of_le h.1 hvw, le_trans h.2.1 hvw, le_trans h.2.2 hvw⟩
  · have hq : ∀ q, geo.inQuadrant (eventPt ref) p q = true ↔
        ¬ (p.depth < 0 ∧ q ∈ [1, 2, 3, 4]) ∧ ¬ (0 < p.depth ∧ q ∈ [5, 6, 7, 8]) ∧
        ¬ (p.lat < 0 ∧ q ∈ [1, 2, 5, 6]) ∧ ¬ (0 < p.lat ∧ q ∈ [3, 4, 7, 8]) ∧
        ¬ (p.lon - 0 < 0 ∧ q ∈ [1, 4, 5, 8]) ∧ ¬ (0 < p.lon - 0 ∧ q ∈ [2, 3, 6, 7]) := by
      intro q; simp only [geo, decide_eq_true_eq]; rfl
    simp only [hq, sub_zero]
    by_cases h1 : p.depth < 0 <;> by_cases h2 : p.lat < 0 <;> by_cases h3 : p.lon < 0
    · exact ⟨7, by simp, by simp [h1, h2, h3, le_of_lt]⟩
    · exact ⟨8, by simp, by simp [h1, h2, h3, le_of_lt]⟩
    · exact ⟨6, by simp, by simp [h1, h2, h3, le_of_lt]⟩
    · exact ⟨5, by simp, by simp [h1, h2, h3, le_of_lt]⟩
    · exact ⟨3, by simp, by simp [h1, h2, h3, le_of_lt]⟩
    · exact ⟨4, by simp, by simp [h1, h2, h3, le_of_lt]⟩
    · exact ⟨2, by simp, by simp [h1, h2, h3, le_of_lt]⟩
    · exact ⟨1, by simp, by simp [h1, h2, h3, le_of_lt]⟩
  · intro v _ h
    rw [hg] at h
    rw [hd]
    obtain ⟨h1, h2, h3⟩ := h
    have a := le_max_left |p.lat - 0| |p.lon - 0|
    have b := le_max_right |p.lat - 0| |p.lon - 0|
    exact max_le (by linarith) (max_le (by linarith) h3)
  · intro v _ h
    rw [hd]
    by_contra hc
    push Not at hc
    rw [max_lt_iff, max_lt_iff] at hc
    have hpos : 0 < v := by
      have := abs_nonneg (p.lat - 0)
      linarith
    have : geo.inside v (eventPt ref) p = true := by
      rw [hg]
      refine ⟨hpos, ?_, by linarith⟩
      have := max_lt hc.1 hc.2.1
      linarith
    rw [h] at this; cases this

example := ellipsoid_selection_complete_partial tree treeWF eventKeys nonneg uniqueRef (cfg := cfgE) (by decide +kernel)
  (by unfold NearestMode; decide) (fun x _ => layered x.1) admissible KdTree.Example.sortingPop _ selectedE ⟨0, 0, 3⟩ 3
  (by decide +kernel) (by decide +kernel) (eligible3 cfgE rfl rfl rfl rfl _) (by decide)

/-- **C30** (negation, by example) The reference event is at a distance of 20 from station B, the maximum
is 10.5; the pair is used at that station because the neighbour itself is close enough. -/
def catFar : Catalog ℚ where
  stations := [("N.B.", sta "B" (-20))]
  events := [(1, ev 1 0 0 0), (2, ev 2 (-10) 0 0)]
  phases := [ph 1 "B" "S" .S, ph 2 "B" "S" .S]
def treeFar : EventTree ℚ := ⟨[(⟨0, 0, 0⟩, 1), (⟨-10, 0, 0⟩, 2)], .node 1 0 .nil (.node 0 1 .nil .nil)⟩

theorem reference_station_too_far :
    let cfg : Config ℚ := ⟨0, 21 / 2, 0, 1, 0, 0, 0, 12⟩
    selectNeighbours geo cfg catFar ref catFar KdTree.Example.sortingPop treeFar = .ok ⟨1, [(2, [("N.B.", "S")])]⟩ ∧
    cfg.maxESdist < geo.staDist ref (sta "B" (-20)) := by decide +kernel

/-- (negation) Two picks of the same phase count twice towards the minimum number of phases: with a
minimum of 2 the neighbour is recorded with a single phase. -/
def catTwice : Catalog ℚ where
  stations := [("N.B.", sta "B" (-20))]
  events := [(1, ev 1 0 0 0), (2, ev 2 (-10) 0 0)]
  phases := [ph 1 "B" "S" .S, ph 2 "B" "S" .S, ph 2 "B" "S" .S]
theorem too_few_phases :
    let cfg : Config ℚ := ⟨0, -1, 0, 2, 0, 0, 0, 12⟩
    selectNeighbours geo cfg catTwice ref catTwice KdTree.Example.sortingPop treeFar =
      .ok ⟨1, [(2, [("N.B.", "S")])]⟩ := by decide +kernel

/-- (negation) The remark of clustering.cpp:310 is wrong: without a limit on the neighbours the ellipsoids
are ignored and an event above the reference event, inside the ellipsoid, is no longer found; it is with a
limit that is not reached. -/
theorem no_limit_differs :
    let cfg : Config ℚ := ⟨0, -1, 0, 2, 0, 100, 1, 2⟩
    selectNeighbours geo cfg cat ref cat KdTree.Example.sortingPop tree =
      .ok ⟨1, [(3, [("N.A.", "P"), ("N.B.", "S")]), (2, [("N.A.", "P"), ("N.B.", "S")])]⟩ ∧
    selectNeighbours geo { cfg with maxNumNeigh := 0 } cat ref cat KdTree.Example.sortingPop tree =
      .ok ⟨1, [(2, [("N.A.", "P"), ("N.B.", "S")])]⟩ := by decide +kernel

end Verif.Selection.Example
