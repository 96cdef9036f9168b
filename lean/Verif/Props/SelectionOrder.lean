import Verif.Proofs.SelectionOrder
import Verif.Props.CatalogSelection

/-!
# C111: the neighbours do not depend on the order in which things are stored and visited
-/

set_option linter.unusedSectionVars false
set_option linter.unusedSimpArgs false

namespace Verif.Selection
open Verif.Catalog
variable {K : Type} [Field K] [LinearOrder K] [IsStrictOrderedRing K]
variable {g : Geometry K} {cfg : Config K} {cat cat' refCat refCat' : Catalog K} {refEv : Event K}

/-- **C111** The neighbours of an event are the same for catalogs with the same content in any order, and for any index over the
same events and any order of its equal entries.  Partial: no two events may be equally far from the event when the number of
neighbours is limited, nor two picks of an event at equally distant stations when the number of phases is (see the witnesses below),
the axis distances of the index must be lower bounds (see C27), and the event has no phase picked twice. -/
theorem selection_order_partial (pop pop' : KdTree.Pop K) (t t' : EventTree K) (ht : t.WF) (ht' : t'.WF)
    (hp : t.points.Perm t'.points) (hc : SameData cat cat') (hr : SameData refCat refCat')
    (hid : ∀ id e, cat.events.find? id = some e → e.id = id)
    (hst : ∀ kp ∈ cat.phases, (cat.stations.find? kp.2.stationId).isSome)
    (hu : UniquePhases refCat refEv.id)
    (ha : KdTree.Admissible g.dist g.axisDist (eventPt refEv) (t.points.map (·.1)))
    (h0 : ∀ x ∈ t.points, 0 ≤ g.dist x.1 (eventPt refEv))
    (hd : ∀ id, (cat.events.find? id).isSome → PhasesDecided g cfg cat refEv id)
    (hn : cfg.maxNumNeigh = 0 ∨ NoTies g refEv t) :
    ∃ nb nb', selectNeighbours g cfg cat refEv refCat pop t = .ok nb ∧ selectNeighbours g cfg cat' refEv refCat' pop' t' = .ok nb' ∧
      SameNeighbours nb nb' := by
  obtain ⟨nb, hnb⟩ := selection_returns (g := g) (cfg := cfg) (cat := cat) (refEv := refEv) (refCat := refCat) pop t ht hst
  have hk := known_of_phases hid hst
  obtain ⟨nb', hnb', hrel⟩ := select_same (pop' := pop') (offers_same hc.alike (hr.phases _) hk (hk.same hc) hu hd) ht ht' hp ha h0 hn hnb
  exact ⟨nb, nb', hnb, hnb', hrel.same⟩

/-- **C111** The selection for a whole catalog does not depend on the order in which the events are visited: whatever the orders of
the two runs, the same events are kept, with the same neighbours and the same phases. -/
theorem catalog_selection_visit_order (pop : KdTree.Pop K) (t : EventTree K) (ht : t.WF) (minNumNeigh : Nat)
    (hc : cat.Sound) (hg : ∀ id e, cat.events.find? id = some e → g.Nonneg cat e t) (hmin : 0 < cfg.minPhase)
    (order order' : AMap Nat Neighbours → List (Nat × Neighbours)) (ho : ∀ m, (order m).Perm m) (ho' : ∀ m, (order' m).Perm m) :
    ∃ res res', selectCatalog g cfg minNumNeigh pop t order cat = .ok res ∧ selectCatalog g cfg minNumNeigh pop t order' cat = .ok res' ∧
      res.keys.Perm res'.keys ∧ ∀ id nb nb', res.find? id = some nb → res'.find? id = some nb' → SameNeighbours nb nb' := by
  have h : Setting.Ok (⟨pop, t, order, cat⟩ : Setting K) g := ⟨ht, hc, hg, ho⟩
  have h' : Setting.Ok (⟨pop, t, order', cat⟩ : Setting K) g := ⟨ht, hc, hg, ho'⟩
  exact Agree.catalog h h' hmin (agree_refl h hmin rfl rfl rfl) (agree_refl h' hmin rfl rfl rfl) (fun _ => rfl)

/-- **C111** Nor does it depend on the order of the content of the catalog or on the index.  Partial: as `selection_order_partial`,
for every event. -/
theorem catalog_selection_order_partial (pop pop' : KdTree.Pop K) (t t' : EventTree K) (ht : t.WF) (ht' : t'.WF)
    (hp : t.points.Perm t'.points) (hc : SameData cat cat') (hs : cat.Sound) (hs' : cat'.Sound) (minNumNeigh : Nat)
    (hg : ∀ id e, cat.events.find? id = some e → g.Nonneg cat e t) (hmin : 0 < cfg.minPhase)
    (order order' : AMap Nat Neighbours → List (Nat × Neighbours)) (ho : ∀ m, (order m).Perm m) (ho' : ∀ m, (order' m).Perm m)
    (hu : ∀ id, UniquePhases cat id)
    (ha : ∀ id e, cat.events.find? id = some e → KdTree.Admissible g.dist g.axisDist (eventPt e) (t.points.map (·.1)))
    (hd : ∀ id e, cat.events.find? id = some e → ∀ i, PhasesDecided g cfg cat e i)
    (hn : ∀ id e, cat.events.find? id = some e → cfg.maxNumNeigh = 0 ∨ NoTies g e t) :
    ∃ res res', selectCatalog g cfg minNumNeigh pop t order cat = .ok res ∧
      selectCatalog g cfg minNumNeigh pop' t' order' cat' = .ok res' ∧
      res.keys.Perm res'.keys ∧ ∀ id nb nb', res.find? id = some nb → res'.find? id = some nb' → SameNeighbours nb nb' := by
  have hg' : ∀ id e, cat'.events.find? id = some e → g.Nonneg cat' e t' := by
    intro id e he
    rw [← hc.events] at he
    obtain ⟨a, b, c⟩ := hg id e he
    refine ⟨fun x hx => a x (hp.symm.subset hx), fun k s hk => b k s (by rw [hc.stations]; exact hk), ?_⟩
    intro k s i e' hk he'
    exact c k s i e' (by rw [hc.stations]; exact hk) (by rw [hc.events]; exact he')
  have h : Setting.Ok (⟨pop, t, order, cat⟩ : Setting K) g := ⟨ht, hs, hg, ho⟩
  have h' : Setting.Ok (⟨pop', t', order', cat'⟩ : Setting K) g := ⟨ht', hs', hg', ho'⟩
  refine Agree.catalog h h' hmin (agree_same h h' hc hp hu ha hd hn) (agree_same h' h hc.symm hp.symm
    (fun id => hc.unique (hu id)) ?_ ?_ ?_) hc.events
  · intro id e he
    simp only [← hc.events] at he
    exact (ha id e he).mono (fun p hpp => (hp.symm.map _).subset hpp)
  · intro id e he i
    simp only [← hc.events] at he
    exact hc.decided (hd id e he i)
  · intro id e he
    simp only [← hc.events] at he
    exact (hn id e he).imp_right (fun h => h.perm hp)

/-! ## C64 -/

/-- **C64** In every mode of the search, the events in the result of the selection for a whole catalog are the largest set of
events that have enough neighbours among themselves: with the events of the result alone, each of them has the neighbours
reported, at least the requested number; and every set of events of which each has enough neighbours when the set is all there is,
is part of the result. -/
theorem catalog_selection_greatest (pop : KdTree.Pop K) (t : EventTree K) (ht : t.WF) (minNumNeigh : Nat)
    (hc : cat.Sound) (hg : ∀ id e, cat.events.find? id = some e → g.Nonneg cat e t) (hmin : 0 < cfg.minPhase)
    (order : AMap Nat Neighbours → List (Nat × Neighbours)) (ho : ∀ m, (order m).Perm m) :
    ∃ res, selectCatalog g cfg minNumNeigh pop t order cat = .ok res ∧
      (∀ id nb, res.find? id = some nb → ∃ event, cat.events.find? id = some event ∧ minNumNeigh ≤ nb.ids.length ∧
        ∀ V, V = restrict cat (fun i => decide (i ∈ res.keys)) →
          ∃ nb', selectNeighbours g cfg V event V pop t = .ok nb' ∧ SameNeighbours nb nb') ∧
      ∀ S : Nat → Bool, (∀ id event, S id = true → cat.events.find? id = some event →
          ∀ V, V = restrict cat S → ∀ nb, selectNeighbours g cfg V event V pop t = .ok nb → minNumNeigh ≤ nb.ids.length) →
        ∀ id ∈ cat.events.keys, S id = true → id ∈ res.keys := by
  have h : Setting.Ok (⟨pop, t, order, cat⟩ : Setting K) g := ⟨ht, hc, hg, ho⟩
  have hlen : ∀ nb : Neighbours, nb.ids.length = nb.amount := fun nb => by simp [Neighbours.ids, AMap.keys, Neighbours.amount]
  obtain ⟨res, removed, f, -⟩ := final_exists (minNumNeigh := minNumNeigh) (cfg := cfg) h hmin (S := fun _ => False) (by simp)
  refine ⟨res, f.run, ?_, ?_⟩
  · intro id nb hf
    obtain ⟨event, e1, e2, e3, e4⟩ := f.fixed _ _ hf
    refine ⟨event, e2, by rw [hlen]; exact e3, ?_⟩
    rintro V rfl
    obtain ⟨nb', h1, h2⟩ := e4 (others cat (fun i => decide (i ∈ res.keys))) _ (by
      intro i
      rw [f.mem_removed h, mem_others]
      simp) (restrict_without hc _)
    exact ⟨nb', h1, h2.same⟩
  · intro S hS id hid hSid
    obtain ⟨res2, removed2, f2, hr⟩ := greatest (minNumNeigh := minNumNeigh) (cfg := cfg) h hmin S
      (fun id event h1 h2 nb h3 => by rw [← hlen]; exact hS id event h1 h2 _ rfl nb h3)
    have := final_unique f f2
    subst this
    by_contra hno
    have := hr id ((f2.mem_removed h id).2 ⟨hid, hno⟩)
    rw [hSid] at this
    cases this

end Verif.Selection

namespace Verif.Selection.Example
open Verif.Catalog

/-! ## A concrete case -/

/-- the same content in another order -/
def catR : Catalog ℚ where
  stations := cat.stations.reverse
  events := cat.events.reverse
  phases := cat.phases.reverse
def pointsR : List (Pt ℚ × Nat) := points.reverse
def treeR : EventTree ℚ := ⟨pointsR, KdTree.ofPoints (fun i => (pointsR.getD i (⟨0, 0, 0⟩, 0)).1) (fun _ => .sorting _) 5⟩

theorem treeRWF : treeR.WF := by
  obtain ⟨h1, h2⟩ := KdTree.tree_holds_points (fun i => (pointsR.getD i (⟨0, 0, 0⟩, 0)).1) (fun _ => .sorting _) 5
  exact ⟨h1, by decide +kernel, h2⟩

theorem find?_reverse {α β : Type} [DecidableEq α] (m : AMap α β) (h : m.NodupKeys) (k : α) :
    m.find? k = AMap.find? (List.reverse m) k := by
  have hr : AMap.NodupKeys (List.reverse m) := by
    unfold AMap.NodupKeys AMap.keys at h ⊢
    rw [List.map_reverse]
    exact List.nodup_reverse.2 h
  cases hf : m.find? k with
  | none =>
    cases hf' : AMap.find? (List.reverse m) k with
    | none => rfl
    | some v =>
      have := AMap.mem_of_find? hf'
      rw [AMap.find?_of_mem h (List.mem_reverse.1 this)] at hf
      cases hf
  | some v => exact (AMap.find?_of_mem hr (List.mem_reverse.2 (AMap.mem_of_find? hf))).symm

theorem sameR : SameData cat catR := by
  refine ⟨fun id => ?_, fun s => ?_, fun id => ?_⟩
  · exact find?_reverse _ catSound.eventsUnique _
  · exact find?_reverse _ catSound.stationsUnique _
  · unfold Catalog.phasesOf
    refine List.Perm.map _ ?_
    simp only [catR, List.filter_reverse]
    exact (List.reverse_perm _).symm

/-- at most two neighbours, each with the phase of the nearest station only -/
def cfgO : Config ℚ := { cfg with minPhase := 1, maxPhase := 1 }

theorem selectedO : selectNeighbours geo cfgO cat ref cat KdTree.Example.sortingPop tree =
    .ok ⟨1, [(4, [("N.B.", "S")]), (2, [("N.A.", "P")])]⟩ := by decide +kernel
theorem selectedOR : selectNeighbours geo cfgO catR ref catR KdTree.Example.sortingPop treeR =
    .ok ⟨1, [(4, [("N.B.", "S")]), (2, [("N.A.", "P")])]⟩ := by decide +kernel

theorem stations2 (e : Event ℚ) (h : |e.latitude - 10| ≠ |e.latitude + 20|) :
    ∀ k ∈ ["N.A.", "N.B."], ∀ k' ∈ ["N.A.", "N.B."], ∀ s s', cat.stations.find? k = some s → cat.stations.find? k' = some s' →
      geo.staDist e s = geo.staDist e s' → k = k' := by
  have hA : cat.stations.find? "N.A." = some (sta "A" 10) := by decide +kernel
  have hB : cat.stations.find? "N.B." = some (sta "B" (-20)) := by decide +kernel
  intro k hk k' hk' s s' hs hs' hd
  simp only [List.mem_cons, List.not_mem_nil, or_false] at hk hk'
  rcases hk with rfl | rfl <;> rcases hk' with rfl | rfl
  · rfl
  · rw [hA] at hs; rw [hB] at hs'
    cases hs; cases hs'
    simp only [geo, sta, sub_neg_eq_add] at hd
    exact absurd hd h
  · rw [hB] at hs; rw [hA] at hs'
    cases hs; cases hs'
    simp only [geo, sta, sub_neg_eq_add] at hd
    exact absurd hd.symm h
  · rfl

theorem decidedO (id : Nat) : PhasesDecided geo cfgO cat ref id := by
  refine .inr (.inr ?_)
  intro p hp q hq s s' hs hs' hd
  have hall : ∀ kp ∈ cat.phases, (kp.2.stationId = "N.A." ∧ kp.2.type = "P") ∨ (kp.2.stationId = "N.B." ∧ kp.2.type = "S") := by
    decide +kernel
  have hm : ∀ x ∈ cat.phasesOf id, (x.stationId = "N.A." ∧ x.type = "P") ∨ (x.stationId = "N.B." ∧ x.type = "S") := by
    intro x hx
    unfold Catalog.phasesOf at hx
    obtain ⟨kp, hkp, rfl⟩ := List.mem_map.1 hx
    exact hall kp (List.mem_filter.1 hkp).1
  have hin : ∀ x ∈ cat.phasesOf id, x.stationId ∈ ["N.A.", "N.B."] := by
    intro x hx
    rcases hm x hx with h | h <;> simp [h.1]
  have heq := stations2 ref (by decide +kernel) _ (hin p hp) _ (hin q hq) s s' hs hs' hd
  refine ⟨heq, ?_⟩
  rcases hm p hp with h | h <;> rcases hm q hq with h' | h'
  · rw [h.2, h'.2]
  · rw [h.1, h'.1] at heq; exact absurd heq (by decide)
  · rw [h.1, h'.1] at heq; exact absurd heq (by decide)
  · rw [h.2, h'.2]

theorem noTies : NoTies geo ref tree := by
  unfold NoTies
  show ∀ x ∈ points, ∀ y ∈ points, geo.dist x.1 (eventPt ref) = geo.dist y.1 (eventPt ref) → x = y
  decide +kernel

example := selection_order_partial KdTree.Example.sortingPop KdTree.Example.sortingPop tree treeR treeWF treeRWF
  (List.reverse_perm _).symm sameR sameR eventKeys catSound.phaseStation (uniqueAll 1) admissible nonneg.dist
  (fun id _ => decidedO id) (.inr noTies)

/-- the hypotheses of the visiting order: the events are visited forwards and backwards, two of them are discarded -/
example := catalog_selection_visit_order KdTree.Example.sortingPop tree treeWF 2 catSound (fun _ e _ => nonnegAll e) (cfg := cfg)
  (by decide) id List.reverse (fun _ => List.Perm.refl _) (fun m => List.reverse_perm m)

theorem soundR : catR.Sound := by
  have hs := sameR
  have hc := catSound
  refine ⟨⟨?_, ?_, ?_, ?_, ?_⟩, ?_, ?_⟩
  · unfold AMap.NodupKeys; decide +kernel
  · intro id s h
    exact hc.stationKey id s (by rw [hs.stations]; exact h)
  · unfold AMap.NodupKeys; decide +kernel
  · intro id e h
    exact hc.eventKey id e (by rw [hs.events]; exact h)
  · intro kp hkp
    exact hc.phaseKey kp (List.mem_reverse.1 hkp)
  · intro kp hkp
    rw [← hs.events]
    exact hc.phaseEvent kp (List.mem_reverse.1 hkp)
  · intro kp hkp
    rw [← hs.stations]
    exact hc.phaseStation kp (List.mem_reverse.1 hkp)

/-- no limit on the number of neighbours -/
def cfgAll : Config ℚ := { cfg with maxNumNeigh := 0 }

example := catalog_selection_order_partial KdTree.Example.sortingPop KdTree.Example.sortingPop tree treeR treeWF treeRWF
  (List.reverse_perm _).symm sameR catSound soundR 2 (fun _ e _ => nonnegAll e) (cfg := cfgAll) (by decide)
  id List.reverse (fun _ => List.Perm.refl _) (fun m => List.reverse_perm m) uniqueAll (fun _ e _ => admissibleAll e _ rfl)
  (fun _ _ _ _ => .inl rfl) (fun _ _ _ => .inl rfl)

/-- with ellipsoids: the events 1, 2 and 3 have two neighbours each, also if they are all there is -/
def cfgL : Config ℚ := { cfg with numEllipsoids := 2 }
def firstThree (i : Nat) : Bool := i = 1 ∨ i = 2 ∨ i = 3

theorem enoughE : ∀ kv ∈ cat.events, firstThree kv.1 = true → ∀ V, V = restrict cat firstThree → ∀ nb,
    selectNeighbours geo cfgL V kv.2 V KdTree.Example.sortingPop tree = .ok nb → 2 ≤ nb.ids.length := by
  have key : ∀ kv ∈ cat.events, firstThree kv.1 = true →
      (match selectNeighbours geo cfgL (restrict cat firstThree) kv.2 (restrict cat firstThree) KdTree.Example.sortingPop tree with
        | .ok nb => decide (2 ≤ nb.ids.length)
        | _ => true) = true := by decide +kernel
  rintro kv hkv h V rfl nb hnb
  have := key kv hkv h
  rw [hnb] at this
  simpa using this

example : ∃ res, selectCatalog geo cfgL 2 KdTree.Example.sortingPop tree id cat = .ok res ∧ ∀ i ∈ [1, 2, 3], i ∈ res.keys := by
  obtain ⟨res, h1, -, h3⟩ := catalog_selection_greatest KdTree.Example.sortingPop tree treeWF 2 catSound (fun _ e _ => nonnegAll e)
    (cfg := cfgL) (by decide) id (fun _ => List.Perm.refl _)
  refine ⟨res, h1, fun i hi => h3 firstThree ?_ i ?_ ?_⟩
  · intro i event hi he
    exact enoughE (i, event) (AMap.mem_of_find? he) hi
  · revert i; decide +kernel
  · revert i; decide

/-! ## What the order decides -/

/-- two events on opposite sides of the first -/
def catT : Catalog ℚ where
  stations := [("N.A.", sta "A" 10)]
  events := [(1, ev 1 0 0 0), (2, ev 2 1 0 0), (3, ev 3 (-1) 0 0)]
  phases := [ph 1 "A" "P" .P, ph 2 "A" "P" .P, ph 3 "A" "P" .P]
def pointsT : List (Pt ℚ × Nat) := [(⟨0, 0, 0⟩, 1), (⟨1, 0, 0⟩, 2), (⟨-1, 0, 0⟩, 3)]
def treeT : EventTree ℚ := ⟨pointsT, KdTree.ofPoints (fun i => (pointsT.getD i (⟨0, 0, 0⟩, 0)).1) (fun _ => .sorting _) 3⟩
/-- a queue that hands out the later of equal entries -/
def latePop : KdTree.Pop ℚ where
  run l := KdTree.Example.sortingPop.run l.reverse
  empty := rfl
  ok l hl := by
    obtain ⟨x, rest, h1, h2, h3⟩ := KdTree.Example.sortingPop.ok l.reverse (by simpa using hl)
    exact ⟨x, rest, h1, h2.trans (List.reverse_perm l), fun y hy => h3 y (List.mem_reverse.2 hy)⟩

def cfgT : Config ℚ := ⟨0, -1, 0, 1, 0, 1, 0, 5⟩

/-- **C111** With a maximum number of neighbours, which of two equally distant events is selected is decided by the order in which
the index hands out its entries. -/
theorem equal_distance_order_decides : treeT.WF ∧
    ∃ nb nb', selectNeighbours geo cfgT catT (ev 1 0 0 0) catT KdTree.Example.sortingPop treeT = .ok nb ∧
      selectNeighbours geo cfgT catT (ev 1 0 0 0) catT latePop treeT = .ok nb' ∧ ¬ SameNeighbours nb nb' := by
  obtain ⟨h1, h2⟩ := KdTree.tree_holds_points (fun i => (pointsT.getD i (⟨0, 0, 0⟩, 0)).1) (fun _ => .sorting _) 3
  refine ⟨⟨h1, by decide +kernel, h2⟩, ⟨1, [(2, [("N.A.", "P")])]⟩, ⟨1, [(3, [("N.A.", "P")])]⟩, by decide +kernel, by decide +kernel, ?_⟩
  intro h
  exact absurd (h.ids.subset (List.mem_cons_self ..)) (by decide)

/-- P and S picked at the same station -/
def catPS : Catalog ℚ where
  stations := [("N.A.", sta "A" 10)]
  events := [(1, ev 1 0 0 0), (2, ev 2 1 0 0)]
  phases := [ph 1 "A" "P" .P, ph 1 "A" "S" .S, ph 2 "A" "P" .P, ph 2 "A" "S" .S]
def catSP : Catalog ℚ := { catPS with phases := catPS.phases.reverse }
def pointsPS : List (Pt ℚ × Nat) := [(⟨0, 0, 0⟩, 1), (⟨1, 0, 0⟩, 2)]
def treePS : EventTree ℚ := ⟨pointsPS, KdTree.ofPoints (fun i => (pointsPS.getD i (⟨0, 0, 0⟩, 0)).1) (fun _ => .sorting _) 2⟩

theorem samePS : SameData catPS catSP := by
  refine ⟨fun id => rfl, fun s => rfl, fun id => ?_⟩
  unfold Catalog.phasesOf
  refine List.Perm.map _ ?_
  simp only [catSP, List.filter_reverse]
  exact (List.reverse_perm _).symm

/-- **C111** With a maximum number of phases, whether the P or the S phase of a station is used is decided by the order in which the
picks of the event are stored. -/
theorem equal_station_order_decides : treePS.WF ∧ SameData catPS catSP ∧
    ∃ nb nb', selectNeighbours geo { cfgT with maxPhase := 1 } catPS (ev 1 0 0 0) catPS KdTree.Example.sortingPop treePS = .ok nb ∧
      selectNeighbours geo { cfgT with maxPhase := 1 } catSP (ev 1 0 0 0) catSP KdTree.Example.sortingPop treePS = .ok nb' ∧
      nb.ids = nb'.ids ∧ nb.phasesOf 2 = [("N.A.", "P")] ∧ nb'.phasesOf 2 = [("N.A.", "S")] := by
  obtain ⟨h1, h2⟩ := KdTree.tree_holds_points (fun i => (pointsPS.getD i (⟨0, 0, 0⟩, 0)).1) (fun _ => .sorting _) 2
  exact ⟨⟨h1, by decide +kernel, h2⟩, samePS, ⟨1, [(2, [("N.A.", "P")])]⟩, ⟨1, [(2, [("N.A.", "S")])]⟩, by decide +kernel,
    by decide +kernel, rfl, by decide, by decide⟩

end Verif.Selection.Example
