import Verif.Proofs.CatalogSelection

/-!
# C31, C64: selection of the neighbours of all the events of a catalog
-/

set_option linter.unusedSectionVars false
set_option linter.unusedSimpArgs false

namespace Verif.Selection
open Verif.Catalog
variable {K : Type} [Field K] [LinearOrder K] [IsStrictOrderedRing K]
variable {g : Geometry K} {cfg : Config K} {cat : Catalog K}

/-- **C31** For every catalog whose phases belong to known stations, and whatever the iteration order of
the containers: the loops terminate normally, every event of the result has at least the requested
number of neighbours, all of them in the result, and they satisfy the constraints of C28 with respect
to the given catalog. -/
theorem catalog_selection_closed (pop : KdTree.Pop K) (t : EventTree K) (ht : t.WF) (minNumNeigh : Nat)
    (hc : cat.Sound) (hg : ∀ id e, cat.events.find? id = some e → g.Nonneg cat e t)
    (order : AMap Nat Neighbours → List (Nat × Neighbours)) (ho : ∀ m, (order m).Perm m) :
    ∃ res, selectCatalog g cfg minNumNeigh pop t order cat = .ok res ∧ res.NodupKeys ∧
      ∀ id nb, res.find? id = some nb → nb.refId = id ∧ ∃ event, cat.events.find? id = some event ∧
        nb.ids.Nodup ∧ minNumNeigh ≤ nb.ids.length ∧ (0 < cfg.maxNumNeigh → nb.ids.length ≤ cfg.maxNumNeigh) ∧
        ∀ id' ∈ nb.ids, (res.find? id').isSome ∧ ∃ phs p ev, nb.nbs.find? id' = some phs ∧ (p, id') ∈ t.points ∧
          InReach g cfg (eventPt event) p ∧ Chosen g cfg cat event cat id' ev (g.dist p (eventPt event)) phs := by
  have c : Ctx g cfg minNumNeigh pop t cat (fun _ => False) :=
    ⟨ht, hc.eventsUnique, fun id e h => (hc.eventKey id e h).1, hc.phaseStation, hg, by simp⟩
  obtain ⟨res, removed, h1, h2, -, h4⟩ := selectCatalog_spec c order ho
  have hnd : (res.keys ++ removed).Nodup := h2.nodup_iff.2 hc.eventsUnique
  refine ⟨res, h1, (List.nodup_append.1 hnd).1, ?_⟩
  intro id nb hf
  obtain ⟨a1, ⟨event, b1, b2, b3, b4, b5⟩, a3, -⟩ := h4 _ (AMap.mem_of_find? hf)
  simp only at a1
  rw [a1] at b1
  have hlen : nb.ids.length = nb.amount := by simp [Neighbours.ids, AMap.keys, Neighbours.amount]
  refine ⟨a1, event, b1, b2, by rw [hlen]; exact b3, by rw [hlen]; exact b4, ?_⟩
  intro id' hid'
  obtain ⟨phs, hphs⟩ := Option.isSome_iff_exists.1 (AMap.find?_isSome.2 hid')
  obtain ⟨p, ev, d1, d2, d3⟩ := b5 id' phs hphs
  refine ⟨AMap.find?_isSome.2 ?_, phs, p, ev, hphs, d1, d2, d3⟩
  have : id' ∈ cat.events.keys := AMap.mem_keys_of_find? d3.inCatalog
  rcases List.mem_append.1 (h2.symm.subset this) with h | h
  · exact h
  · exact absurd h (a3 id' hid')

/-- **C64** No event is discarded needlessly (search without ellipsoids): if every event of a set has at
least the requested number of eligible events of the same set within the maximum distance, then the whole
set is in the result.  Together with C31 the result is the largest such set.  Partial: the axis distances
of the index must be lower bounds (see C27), and no phase may be picked twice. -/
theorem catalog_selection_largest_partial (pop : KdTree.Pop K) (t : EventTree K) (ht : t.WF) (minNumNeigh : Nat)
    (hc : cat.Sound) (hg : ∀ id e, cat.events.find? id = some e → g.Nonneg cat e t)
    (order : AMap Nat Neighbours → List (Nat × Neighbours)) (ho : ∀ m, (order m).Perm m)
    (hm : NearestMode cfg) (hmax : cfg.maxNumNeigh = 0 ∨ minNumNeigh ≤ cfg.maxNumNeigh)
    (hu : ∀ id, UniquePhases cat id)
    (ha : ∀ id e, cat.events.find? id = some e →
      KdTree.Admissible g.dist g.axisDist (eventPt e) (t.points.map (·.1)))
    (S : Nat → Prop)
    (hS : ∀ id, S id → ∃ event, cat.events.find? id = some event ∧
      ∃ l : List Nat, l.Nodup ∧ minNumNeigh ≤ l.length ∧ ∀ i ∈ l, S i ∧
        ∃ p, (p, i) ∈ t.points ∧ g.dist p (eventPt event) ≤ cfg.maxNeighbourDist ∧
          Eligible g cfg cat event cat i (g.dist p (eventPt event))) :
    ∃ res, selectCatalog g cfg minNumNeigh pop t order cat = .ok res ∧ ∀ id, S id → (res.find? id).isSome := by
  have hkey : ∀ id e, cat.events.find? id = some e → e.id = id := fun id e h => (hc.eventKey id e h).1
  have c : Ctx g cfg minNumNeigh pop t cat S := by
    refine ⟨ht, hc.eventsUnique, hkey, hc.phaseStation, hg, ?_⟩
    intro removed valid event nb w hr he hs hsel
    by_contra hlt
    push Not at hlt
    obtain ⟨event', he', l, hl1, hl2, hl3⟩ := hS _ hs
    rw [he] at he'
    cases he'
    have hrn : event.id ∉ removed := fun h => hr _ h hs
    have hv : ∀ id e, valid.events.find? id = some e → e.id = id := by
      intro id e h
      rw [w.events] at h
      split at h
      · cases h
      · exact hkey _ _ h
    have hsub : ∀ i ∈ l, i ∈ nb.ids := by
      intro i hi
      obtain ⟨s1, p, p1, p2, p3⟩ := hl3 i hi
      by_contra hout
      have hu' : UniquePhases valid event.id := by
        have := hu event.id
        unfold UniquePhases at this ⊢
        rw [w.phasesOf _ hrn]; exact this
      have := nearest_selection_maximal_partial pop t ht hv ((hg _ _ he).without w) hu' hm (ha _ _ he) nb hsel p i p1 p2
        (p3.transfer w hkey hrn (fun h => hr _ h s1)) hout
      rcases hmax with h | h <;> omega
    have := (List.subperm_of_subset hl1 hsub).length_le
    have hlen : nb.ids.length = nb.amount := by simp [Neighbours.ids, AMap.keys, Neighbours.amount]
    omega
  obtain ⟨res, removed, h1, h2, h3, h4⟩ := selectCatalog_spec c order ho
  refine ⟨res, h1, ?_⟩
  intro id hs
  obtain ⟨event, he, -⟩ := hS id hs
  rcases List.mem_append.1 (h2.symm.subset (AMap.mem_keys_of_find? he)) with h | h
  · exact AMap.find?_isSome.2 h
  · exact absurd hs (h3 id h)

end Verif.Selection

namespace Verif.Selection.Example
open Verif.Catalog

theorem catSound : cat.Sound := by
  refine ⟨⟨by unfold AMap.NodupKeys; decide +kernel, ?_, by unfold AMap.NodupKeys; decide +kernel, ?_, ?_⟩, ?_, ?_⟩
  · intro id s h
    have := AMap.mem_of_find? h
    simp only [cat, List.mem_cons, Prod.mk.injEq, List.not_mem_nil, or_false] at this
    rcases this with ⟨rfl, rfl⟩ | ⟨rfl, rfl⟩ <;> decide +kernel
  · intro id e h
    have := AMap.mem_of_find? h
    simp only [cat, List.mem_cons, Prod.mk.injEq, List.not_mem_nil, or_false] at this
    rcases this with ⟨rfl, rfl⟩ | ⟨rfl, rfl⟩ | ⟨rfl, rfl⟩ | ⟨rfl, rfl⟩ | ⟨rfl, rfl⟩ <;> decide +kernel
  · decide +kernel
  · decide +kernel
  · decide +kernel

theorem nonnegAll (e : Event ℚ) : geo.Nonneg cat e tree :=
  ⟨by intro x _; unfold geo KdTree.Example.chebyshev; positivity,
   fun _ _ _ => abs_nonneg _, fun _ _ _ _ _ _ => abs_nonneg _⟩

theorem admissibleAll (e : Event ℚ) (q : Pt ℚ) (_ : q = eventPt e) :
    KdTree.Admissible geo.dist geo.axisDist q (points.map (·.1)) := by
  intro a ha c hc p hp h
  show KdTree.Example.along a c q ≤ KdTree.Example.chebyshev p q
  have h1 : |KdTree.coord a c - KdTree.coord a q| ≤ |KdTree.coord a p - KdTree.coord a q| := by
    rcases h with ⟨h, h'⟩ | ⟨h, h'⟩
    · rw [abs_of_nonneg (by linarith), abs_of_nonneg (by linarith)]; linarith
    · rw [abs_of_nonpos (by linarith), abs_of_nonpos (by linarith)]; linarith
  refine le_trans ?_ (le_trans h1 ?_)
  · exact le_rfl
  · unfold KdTree.Example.chebyshev
    unfold KdTree.coord
    rcases a with _ | _ | _ | a
    · simp
    · simp
    · simp
    · omega

/-- events 1, 2 and 3 are neighbours of each other; 4 and 5 are discarded -/
def all : AMap Nat Neighbours :=
  [(1, ⟨1, [(3, [("N.A.", "P"), ("N.B.", "S")]), (2, [("N.A.", "P"), ("N.B.", "S")])]⟩),
   (2, ⟨2, [(3, [("N.A.", "P"), ("N.B.", "S")]), (1, [("N.A.", "P"), ("N.B.", "S")])]⟩),
   (3, ⟨3, [(2, [("N.A.", "P"), ("N.B.", "S")]), (1, [("N.A.", "P"), ("N.B.", "S")])]⟩)]

theorem sorted : cat.eventsSorted = cat.events := by
  unfold Catalog.eventsSorted
  decide +kernel

theorem selectedAll : selectCatalog geo cfg 2 KdTree.Example.sortingPop tree id cat = .ok all := by
  unfold selectCatalog
  rw [sorted]
  decide +kernel

example := catalog_selection_closed KdTree.Example.sortingPop tree treeWF 2 catSound (fun _ e _ => nonnegAll e)
  id (fun _ => List.Perm.refl _) (cfg := cfg)

theorem uniqueAll : ∀ i, UniquePhases cat i := by
  intro i
  unfold UniquePhases
  by_cases h : i ∈ [1, 2, 3, 4, 5]
  · revert i; decide +kernel
  · have : cat.phasesOf i = [] := by
      simp only [List.mem_cons, List.not_mem_nil, or_false, not_or] at h
      obtain ⟨h1, h2, h3, h4, h5⟩ := h
      simp [Catalog.phasesOf, cat, ph, Ne.symm h1, Ne.symm h2, Ne.symm h3, Ne.symm h4, Ne.symm h5]
    rw [this]; simp

theorem eligibleAll (r i : Nat) (e : Event ℚ) (hr : r ∈ [1, 2, 3]) (he : cat.events.find? r = some e) (hi : i ∈ [1, 2, 3])
    (hne : i ≠ r) (d : ℚ) : Eligible geo cfg cat e cat i d := by
  have hs : ∀ sp ∈ [("N.A.", "P"), ("N.B.", "S")], (cat.stations.find? sp.1).isSome ∧ ∀ j ∈ [1, 2, 3],
      ∃ p ∈ cat.phasesOf j, p.procType ≠ .NO ∧ p.stationId = sp.1 ∧ p.type = sp.2 := by decide +kernel
  have hf : ∀ j ∈ [1, 2, 3], (cat.events.find? j).isSome := by decide +kernel
  obtain ⟨event, hev⟩ := Option.isSome_iff_exists.1 (hf i hi)
  have k1 := eventKeys _ _ hev
  have k2 := eventKeys _ _ he
  refine ⟨by rw [k2]; exact hne, event, hev, [("N.A.", "P"), ("N.B.", "S")], by decide, by decide, by decide, ?_⟩
  intro sp hsp
  obtain ⟨station, hsta⟩ := Option.isSome_iff_exists.1 (hs sp hsp).1
  refine ⟨station, hsta, ?_, ?_, ?_, ?_, ?_⟩
  · rw [k1]; exact (hs sp hsp).2 i hi
  · rw [k2]; exact (hs sp hsp).2 r hr
  · constructor
    · intro h; exact absurd h (by decide)
    · intro h; exact absurd h (by decide)
  · intro h; exact absurd h (by decide)
  · rintro ⟨h, -⟩; exact absurd h (by decide)

theorem near : ∀ j ∈ [1, 2, 3], ∀ i ∈ [1, 2, 3], ∃ x ∈ points, x.2 = i ∧
    ∀ y ∈ cat.events, y.1 = j → geo.dist x.1 (eventPt y.2) ≤ cfg.maxNeighbourDist := by decide +kernel

theorem setOk (k : Nat) (hk : k ∈ [1, 2, 3]) : ∃ event, cat.events.find? k = some event ∧
    ∃ l : List Nat, l.Nodup ∧ 2 ≤ l.length ∧ ∀ i ∈ l, i ∈ [1, 2, 3] ∧
      ∃ p, (p, i) ∈ tree.points ∧ geo.dist p (eventPt event) ≤ cfg.maxNeighbourDist ∧
        Eligible geo cfg cat event cat i (geo.dist p (eventPt event)) := by
  have hf : ∀ j ∈ [1, 2, 3], (cat.events.find? j).isSome := by decide +kernel
  have hn : ∀ j ∈ [1, 2, 3], (([1, 2, 3] : List Nat).erase j).Nodup ∧ 2 ≤ (([1, 2, 3] : List Nat).erase j).length ∧
    j ∉ ([1, 2, 3] : List Nat).erase j := by decide +kernel
  obtain ⟨event, hev⟩ := Option.isSome_iff_exists.1 (hf k hk)
  refine ⟨event, hev, [1, 2, 3].erase k, (hn k hk).1, (hn k hk).2.1, ?_⟩
  intro i hi
  have hne : i ≠ k := by
    rintro rfl
    exact (hn _ hk).2.2 hi
  have hi := List.mem_of_mem_erase hi
  obtain ⟨x, h1, h2, h3⟩ := near k hk i hi
  have hmem : (k, event) ∈ cat.events := AMap.mem_of_find? hev
  have hle := h3 (k, event) hmem rfl
  refine ⟨hi, x.1, ?_, hle, eligibleAll k i event hk hev hi hne _⟩
  rw [← h2]
  exact h1

/-- the hypotheses of C64 are met by the events 1, 2, 3 with two neighbours each -/
example := catalog_selection_largest_partial KdTree.Example.sortingPop tree treeWF 2 catSound (fun _ e _ => nonnegAll e)
  id (fun _ => List.Perm.refl _) (cfg := cfg) (.inr rfl) (.inr (by decide)) uniqueAll
  (fun _ e _ => admissibleAll e _ rfl) (fun id => id ∈ [1, 2, 3]) setOk

end Verif.Selection.Example
