import Verif.Proofs.Trim
import Verif.Props.SelectionOrder

/-!
# C130: events that are of no use may be left out of a catalog
-/

set_option linter.unusedSectionVars false
set_option linter.unusedSimpArgs false

namespace Verif.Selection
open Verif.Catalog
variable {K : Type} [Field K] [LinearOrder K] [IsStrictOrderedRing K]
variable {g : Geometry K} {cfg : Config K} {cat refCat : Catalog K} {refEv : Event K}

theorem restrict_sound (hc : cat.Sound) (S : Nat → Bool) : (restrict cat S).Sound := by
  refine ⟨⟨hc.stationsUnique, hc.stationKey, ?_, ?_, ?_⟩, ?_, ?_⟩
  · exact hc.eventsUnique.sublist (List.filter_sublist.map _)
  · intro id e he
    rw [find_restrict] at he
    split at he
    · exact hc.eventKey id e he
    · cases he
  · intro kp hkp
    exact hc.phaseKey kp (List.mem_filter.1 hkp).1
  · intro kp hkp
    obtain ⟨h1, h2⟩ := List.mem_filter.1 hkp
    rw [find_restrict, if_pos h2]
    exact hc.phaseEvent kp h1
  · intro kp hkp
    exact hc.phaseStation kp (List.mem_filter.1 hkp).1

theorem tree_restrict (nth nth' : (pt : Nat → Pt K) → (axis : Nat) → NthElement (fun i => KdTree.coord axis (pt i)))
    (hc : cat.Sound) (S : Nat → Bool) :
    ((createEventTree nth cat).points.filter (fun x => S x.2)).Perm (createEventTree nth' (restrict cat S)).points := by
  have hperm : cat.eventsSorted.Perm cat.events := List.perm_insertionSort _ _
  have hperm' : (restrict cat S).eventsSorted.Perm (cat.events.filter (fun kv => S kv.1)) := List.perm_insertionSort _ _
  unfold createEventTree
  simp only
  rw [List.filter_map]
  refine List.Perm.map _ ((hperm.filter _).trans (List.Perm.trans (List.Perm.of_eq ?_) hperm'.symm))
  refine List.filter_congr ?_
  intro kv hkv
  have : kv.2.id = kv.1 := (hc.eventKey _ _ (AMap.find?_of_mem hc.eventsUnique hkv)).1
  simp [this]

theorem unused_of (nth : (pt : Nat → Pt K) → (axis : Nat) → NthElement (fun i => KdTree.coord axis (pt i))) (hc : cat.Sound)
    (hmin : 0 < cfg.minPhase) (hg : g.Nonneg cat refEv (createEventTree nth cat)) (hu : ∀ id, UniquePhases cat id) {S : Nat → Bool}
    (huse : ∀ id e, cat.events.find? id = some e → S id = false → OfNoUse g cfg cat refEv refCat e) :
    Unused g cfg cat refEv refCat (createEventTree nth cat) S := by
  have hk := known_of_phases (fun id e he => (hc.eventKey id e he).1) hc.phaseStation
  rintro ⟨p, id⟩ hx hS hr
  obtain ⟨e, he, rfl⟩ := ((createEventTree_wf nth cat hc.toWF).2 p id).1 hx
  have hid : e.id = id := hk.key id e he
  have := huse id e he hS hr
  rw [hid] at this
  exact offer_none hg hk hmin (hu id) this

/-- **C130** An event has the same neighbours, with the same stations and phases, whether or not events that are of no use to it are
in the catalog: events out of reach or with too few phases in common.  Partial: if the number of neighbours is limited no two of the
other events may be equally far (see `useless_event_decides`), the axis distances of the index must be lower bounds (see C27), at
least one phase must be required, and no phase is picked twice. -/
theorem trimmed_background_partial (nth nth' : (pt : Nat → Pt K) → (axis : Nat) → NthElement (fun i => KdTree.coord axis (pt i)))
    (pop pop' : KdTree.Pop K) (hc : cat.Sound) (hmin : 0 < cfg.minPhase) (S : Nat → Bool)
    (huse : ∀ id e, cat.events.find? id = some e → S id = false → OfNoUse g cfg cat refEv refCat e)
    (hg : g.Nonneg cat refEv (createEventTree nth cat)) (hu : ∀ id, UniquePhases cat id)
    (ha : KdTree.Admissible g.dist g.axisDist (eventPt refEv) ((createEventTree nth cat).points.map (·.1)))
    (hn : cfg.maxNumNeigh = 0 ∨ NoTies g refEv (createEventTree nth' (restrict cat S))) :
    ∃ nb nb', selectNeighbours g cfg cat refEv refCat pop (createEventTree nth cat) = .ok nb ∧
      selectNeighbours g cfg (restrict cat S) refEv refCat pop' (createEventTree nth' (restrict cat S)) = .ok nb' ∧
      SameNeighbours nb nb' := by
  have hk := known_of_phases (fun id e he => (hc.eventKey id e he).1) hc.phaseStation
  have ht := (createEventTree_wf nth cat hc.toWF).1
  obtain ⟨nb, hnb⟩ := selection_returns (g := g) (cfg := cfg) (cat := cat) (refEv := refEv) (refCat := refCat) pop _ ht hc.phaseStation
  obtain ⟨nb', h1, h2⟩ := select_trim (pop' := pop') (offers_restrict hk hmin S) ht
    (createEventTree_wf nth' (restrict cat S) (restrict_sound hc S).toWF).1 (tree_restrict nth nth' hc S)
    (unused_of nth hc hmin hg hu huse) ha hg.dist hn hnb
  exact ⟨nb, nb', hnb, h1, h2.same⟩

theorem restrict_restrict (S S' : Nat → Bool) (h : ∀ i, S' i = true → S i = true) : restrict (restrict cat S) S' = restrict cat S' := by
  have hb : ∀ i, (S i && S' i) = S' i := by
    intro i
    cases hi : S' i with
    | false => simp
    | true => simp [h i hi]
  unfold restrict
  simp only [List.filter_filter]
  congr 1
  · refine List.filter_congr (fun kv _ => ?_); rw [Bool.and_comm]; exact hb kv.1
  · refine List.filter_congr (fun kv _ => ?_); rw [Bool.and_comm]; exact hb kv.1

theorem nonneg_restrict {nth nth' : (pt : Nat → Pt K) → (axis : Nat) → NthElement (fun i => KdTree.coord axis (pt i))} {event : Event K}
    (hc : cat.Sound) (hg : g.Nonneg cat event (createEventTree nth cat)) (S : Nat → Bool) :
    g.Nonneg (restrict cat S) event (createEventTree nth' (restrict cat S)) := by
  refine ⟨fun x hx => hg.dist x (List.mem_of_mem_filter ((tree_restrict nth nth' hc S).symm.subset hx)), hg.refSta, fun k s id e hs he => ?_⟩
  rw [find_restrict] at he
  split at he
  · exact hg.evSta k s id e hs he
  · cases he

/-- the offers within a part of a smaller part -/
theorem offers_parts (hc : cat.Sound) (hmin : 0 < cfg.minPhase) {S S' : Nat → Bool} (h : ∀ i, S' i = true → S i = true)
    {event : Event K} (he : cat.events.find? event.id = some event) (hS : S' event.id = true) :
    Offers g cfg event (restrict cat S) (restrict cat S) (restrict cat S') (restrict cat S') (fun id => S' id = true) := by
  have hk := known_of_phases (fun id e he => (hc.eventKey id e he).1) hc.phaseStation
  have o := (restrict_without hc S).offers (g := g) (cfg := cfg) (refEv := event) (restrict_without hc S') hk hc.phaseStation
    (fun i hi => by
      rw [mem_others] at hi ⊢
      refine ⟨hi.1, ?_⟩
      by_contra hn
      rw [h i (by simpa using hn)] at hi
      cases hi.2)
    (fun hi => by rw [(mem_others.1 hi).2] at hS; cases hS) hmin
  have hnone : ∀ id d, S' id = false → offer g cfg (restrict cat S') event (restrict cat S') id d = none := by
    intro id d hid
    unfold offer
    rw [find_restrict, hid]
    simp
  refine ⟨o.known, o.known', fun id d hid => o.same id d (fun hi => by rw [(mem_others.1 hi).2] at hid; cases hid), fun id d hid => ?_,
    fun id d ks hid ho => ?_⟩
  · exact hnone id d (by simpa using hid)
  · by_cases hkey : id ∈ cat.events.keys
    · exact o.nonempty id d ks (fun hno => hno (mem_others.2 ⟨hkey, by simpa using hid⟩)) ho
    · exfalso
      unfold offer at ho
      rw [find_restrict, AMap.find?_eq_none.2 hkey] at ho
      simp at ho

/-- **C130** The selection for a whole catalog treats a part of it to which the other events are of no use as if the part was all
there is: the same events of the part are kept, with the same neighbours and phases.  Partial: as `trimmed_background_partial`, for
every event of the part. -/
theorem separate_catalogs_partial (nth nth' : (pt : Nat → Pt K) → (axis : Nat) → NthElement (fun i => KdTree.coord axis (pt i)))
    (pop pop' : KdTree.Pop K) (hc : cat.Sound) (hmin : 0 < cfg.minPhase) (minNumNeigh : Nat) (S : Nat → Bool)
    (huse : ∀ i e id event, cat.events.find? i = some e → S i = false → cat.events.find? id = some event → S id = true →
      OfNoUse g cfg cat event cat e)
    (hg : ∀ id event, cat.events.find? id = some event → g.Nonneg cat event (createEventTree nth cat)) (hu : ∀ id, UniquePhases cat id)
    (ha : ∀ id event, cat.events.find? id = some event →
      KdTree.Admissible g.dist g.axisDist (eventPt event) ((createEventTree nth cat).points.map (·.1)))
    (hn : cfg.maxNumNeigh = 0 ∨ ∀ id event, cat.events.find? id = some event → S id = true →
      NoTies g event (createEventTree nth' (restrict cat S)))
    (order order' : AMap Nat Neighbours → List (Nat × Neighbours)) (ho : ∀ m, (order m).Perm m) (ho' : ∀ m, (order' m).Perm m) :
    ∃ res res', selectCatalog g cfg minNumNeigh pop (createEventTree nth cat) order cat = .ok res ∧
      selectCatalog g cfg minNumNeigh pop' (createEventTree nth' (restrict cat S)) order' (restrict cat S) = .ok res' ∧
      (∀ id, id ∈ res'.keys ↔ id ∈ res.keys ∧ S id = true) ∧
      ∀ id nb nb', res.find? id = some nb → res'.find? id = some nb' → SameNeighbours nb nb' := by
  have hk := known_of_phases (fun id e he => (hc.eventKey id e he).1) hc.phaseStation
  have hc' := restrict_sound hc S
  have ht := (createEventTree_wf nth cat hc.toWF).1
  have ht' := (createEventTree_wf nth' (restrict cat S) hc'.toWF).1
  have hin : ∀ id event, (restrict cat S).events.find? id = some event → cat.events.find? id = some event ∧ S id = true := by
    intro id event he
    rw [find_restrict] at he
    split at he
    · rename_i h; exact ⟨he, h⟩
    · cases he
  obtain ⟨res, r1, r2, r3⟩ := catalog_selection_greatest (g := g) (cfg := cfg) pop _ ht minNumNeigh hc hg hmin order ho
  obtain ⟨res', s1, s2, s3⟩ := catalog_selection_greatest (g := g) (cfg := cfg) (cat := restrict cat S) pop' _ ht' minNumNeigh hc'
    (fun id event he => nonneg_restrict hc (hg id event (hin id event he).1) S) hmin order' ho'
  -- one selection with a part `A` of the catalog and with what it shares with `S`
  have trim : ∀ (A A' : Nat → Bool), (∀ i, A' i = true ↔ A i = true ∧ S i = true) → ∀ event, cat.events.find? event.id = some event →
      A' event.id = true → ∀ nb, selectNeighbours g cfg (restrict cat A) event (restrict cat A) pop (createEventTree nth cat) = .ok nb →
      ∃ nb', selectNeighbours g cfg (restrict cat A') event (restrict cat A') pop' (createEventTree nth' (restrict cat S)) = .ok nb' ∧
        Rel nb nb' := by
    intro A A' hA event he hA' nb hnb
    have hSe := ((hA _).1 hA').2
    have o := offers_parts (g := g) (cfg := cfg) hc hmin (S := A) (S' := A') (fun i h => ((hA i).1 h).1) he hA'
    have hun := unused_of (g := g) (cfg := cfg) (refEv := event) (refCat := cat) nth hc hmin (hg _ _ he) hu (S := S)
      (fun i e h1 h2 => huse i e _ event h1 h2 he hSe)
    have oA := offers_parts (g := g) (cfg := cfg) hc hmin (S := fun _ => true) (S' := A) (fun _ _ => rfl) he ((hA _).1 hA').1
    have hall : restrict cat (fun _ => true) = cat := by simp [restrict]
    rw [hall] at oA
    have hunA : Unused g cfg (restrict cat A) event (restrict cat A) (createEventTree nth cat) S := by
      intro x hx hSx hr
      by_cases hAx : A x.2 = true
      · have hs := oA.same x.2 (g.dist x.1 (eventPt event)) hAx
        rw [hun x hx hSx hr] at hs
        cases ho : offer g cfg (restrict cat A) event (restrict cat A) x.2 (g.dist x.1 (eventPt event)) with
        | none => rfl
        | some ks => rw [ho] at hs; exact absurd hs (by simp [OfferSame])
      · exact oA.none x.2 _ hAx
    -- the offers for the events of `S`
    have oS : Offers g cfg event (restrict cat A) (restrict cat A) (restrict cat A') (restrict cat A') (fun id => S id = true) := by
      refine ⟨o.known, o.known', fun id d hid => ?_, fun id d hid => ?_, fun id d ks hid h => ?_⟩
      · by_cases hAi : A id = true
        · exact o.same id d ((hA id).2 ⟨hAi, hid⟩)
        · rw [o.none id d (fun h => hAi ((hA id).1 h).1), oA.none id d hAi]
          simp [OfferSame]
      · exact o.none id d (fun h => hid ((hA id).1 h).2)
      · exact o.nonempty id d ks (fun h => hid ((hA id).1 h).2) h
    exact select_trim (pop' := pop') oS ht ht' (tree_restrict nth nth' hc S) hunA (ha _ _ he) (hg _ _ he).dist
      (hn.imp id (fun h => h _ _ he hSe)) hnb
  have hlen : ∀ nb : Neighbours, nb.ids.length = nb.amount := fun nb => by simp [Neighbours.ids, AMap.keys, Neighbours.amount]
  have hev : ∀ id event, cat.events.find? id = some event → event.id = id := fun id e he => (hc.eventKey id e he).1
  have hst : ∀ A : Nat → Bool, ∀ kp ∈ (restrict cat A).phases, ((restrict cat A).stations.find? kp.2.stationId).isSome :=
    fun A kp hkp => hc.phaseStation kp (List.mem_filter.1 hkp).1
  -- what is kept of the whole is kept of the part
  have fwd : ∀ id, id ∈ res.keys → S id = true → id ∈ res'.keys := by
    intro id hid hS
    obtain ⟨nb, hnb⟩ := Option.isSome_iff_exists.1 (AMap.find?_isSome.2 hid)
    obtain ⟨event, e1, -⟩ := r2 id nb hnb
    refine s3 (fun i => decide (i ∈ res.keys) && S i) ?_ id ?_ (by simp [hid, hS])
    · intro i ev hi hfi V hV nb' hnb'
      obtain ⟨h1, h2⟩ := hin i ev hfi
      simp only [Bool.and_eq_true, decide_eq_true_eq] at hi
      obtain ⟨nbi, hnbi⟩ := Option.isSome_iff_exists.1 (AMap.find?_isSome.2 hi.1)
      obtain ⟨ev', g1, g2, g3⟩ := r2 i nbi hnbi
      rw [h1] at g1; cases g1
      obtain ⟨n1, n2, n3⟩ := g3 _ rfl
      have hevi := hev i ev h1
      obtain ⟨n', m1, m2⟩ := trim (fun i => decide (i ∈ res.keys)) (fun i => decide (i ∈ res.keys) && S i) (by simp) ev
        (by rw [hevi]; exact h1) (by rw [hevi]; simp [hi.1, hi.2]) n1 n2
      rw [hV, restrict_restrict S _ (by intro i h; simp only [Bool.and_eq_true] at h; exact h.2), m1] at hnb'
      cases hnb'
      rw [hlen, ← m2.amount, ← hlen, ← n3.ids.length_eq]
      exact g2
    · rw [← AMap.find?_isSome, find_restrict, if_pos hS, e1]; rfl
  have bwd : ∀ id, id ∈ res'.keys → id ∈ res.keys ∧ S id = true := by
    intro id hid
    obtain ⟨nb, hnb⟩ := Option.isSome_iff_exists.1 (AMap.find?_isSome.2 hid)
    obtain ⟨event, e1, -⟩ := s2 id nb hnb
    obtain ⟨e2, e3⟩ := hin id event e1
    refine ⟨?_, e3⟩
    have hsub : ∀ i, i ∈ res'.keys → S i = true := by
      intro i hi
      obtain ⟨nbi, hnbi⟩ := Option.isSome_iff_exists.1 (AMap.find?_isSome.2 hi)
      obtain ⟨ev, k1, -⟩ := s2 i nbi hnbi
      exact (hin i ev k1).2
    refine r3 (fun i => decide (i ∈ res'.keys)) ?_ id (AMap.mem_keys_of_find? e2) (by simp [hid])
    intro i ev hi hfi V hV nb' hnb'
    simp only [decide_eq_true_eq] at hi
    obtain ⟨nbi, hnbi⟩ := Option.isSome_iff_exists.1 (AMap.find?_isSome.2 hi)
    obtain ⟨ev', g1, g2, g3⟩ := s2 i nbi hnbi
    have g1' := (hin i ev' g1).1
    rw [hfi] at g1'; cases g1'
    obtain ⟨n1, n2, n3⟩ := g3 _ rfl
    rw [restrict_restrict S _ (by intro i h; exact hsub i (by simpa using h))] at n2
    have hevi := hev i ev hfi
    rw [hV] at hnb'
    obtain ⟨n', m1, m2⟩ := trim (fun i => decide (i ∈ res'.keys)) (fun i => decide (i ∈ res'.keys))
      (by intro i; constructor; exacts [fun h => ⟨h, hsub i (by simpa using h)⟩, fun h => h.1]) ev
      (by rw [hevi]; exact hfi) (by rw [hevi]; simpa using hi) nb' hnb'
    rw [n2] at m1
    cases m1
    rw [hlen, m2.amount, ← hlen, ← n3.ids.length_eq]
    exact g2
  refine ⟨res, res', r1, s1, fun id => ⟨bwd id, fun h => fwd id h.1 h.2⟩, fun id nb nb' hnb hnb' => ?_⟩
  obtain ⟨event, e1, -, e3⟩ := r2 id nb hnb
  obtain ⟨event', f1, -, f3⟩ := s2 id nb' hnb'
  obtain ⟨f1', hS⟩ := hin id event' f1
  rw [e1] at f1'; cases f1'
  obtain ⟨n1, n2, n3⟩ := e3 _ rfl
  obtain ⟨m1, m2, m3⟩ := f3 _ rfl
  rw [restrict_restrict S _ (by intro i h; exact (bwd i (by simpa using h)).2)] at m2
  have hevi := hev id event e1
  obtain ⟨n', q1, q2⟩ := trim (fun i => decide (i ∈ res.keys)) (fun i => decide (i ∈ res'.keys))
    (by intro i; simp only [decide_eq_true_eq]; exact ⟨bwd i, fun h => fwd i h.1 h.2⟩) event (by rw [hevi]; exact e1)
    (by rw [hevi]; simpa using AMap.mem_keys_of_find? hnb') n1 n2
  rw [m2] at q1
  cases q1
  have q := q2.same
  exact ⟨n3.ref.trans (q.ref.trans m3.ref.symm), n3.ids.trans (q.ids.trans m3.ids.symm), fun i => (n3.phases i).trans ((q.phases i).trans (m3.phases i).symm)⟩

end Verif.Selection

namespace Verif.Selection.Example
open Verif.Catalog

/-! ## A concrete case -/

def nthT (pt : Nat → Pt ℚ) (axis : Nat) : NthElement (fun i => KdTree.coord axis (pt i)) := .sorting _

theorem pointsT_eq : (createEventTree nthT cat).points = points := by decide +kernel

theorem usedPhases (i : Nat) (hi : i = 4 ∨ i = 5) : ∃ sp, ∀ sp', UsedPhase cat i sp' → sp' = sp := by
  rcases hi with rfl | rfl
  · refine ⟨("N.B.", "S"), ?_⟩
    rintro ⟨a, b⟩ ⟨p, hp, h1, h2, h3⟩
    have : ∀ p ∈ cat.phasesOf 4, p.procType ≠ .NO → p.stationId = "N.B." ∧ p.type = "S" := by decide +kernel
    obtain ⟨q1, q2⟩ := this p hp h1
    simp only at h2 h3
    rw [← h2, ← h3, q1, q2]
  · refine ⟨("N.A.", "P"), ?_⟩
    rintro ⟨a, b⟩ ⟨p, hp, h1, h2, h3⟩
    have : ∀ p ∈ cat.phasesOf 5, p.procType ≠ .NO → p.stationId = "N.A." ∧ p.type = "P" := by decide +kernel
    obtain ⟨q1, q2⟩ := this p hp h1
    simp only at h2 h3
    rw [← h2, ← h3, q1, q2]

/-- the events 4 and 5 have a single phase that can be used -/
theorem noUse (cfg' : Config ℚ) (hmin : cfg'.minPhase = 2) (refEv : Event ℚ) (refCat : Catalog ℚ) (e : Event ℚ) (he : e.id = 4 ∨ e.id = 5) :
    OfNoUse geo cfg' cat refEv refCat e := by
  rintro - ⟨-, event, h1, phs, h2, h3, h4, h5⟩
  have hid := eventKeys _ _ h1
  obtain ⟨sp, hsp⟩ := usedPhases e.id he
  have hall : ∀ x ∈ phs, x = sp := by
    intro x hx
    obtain ⟨s, -, hu, -⟩ := h5 x hx
    rw [hid] at hu
    exact hsp x hu
  have : phs.length ≤ 1 := by
    have hs : phs.Subperm [sp] := List.subperm_of_subset h2 (fun x hx => by simp [hall x hx])
    simpa using hs.length_le
  omega

theorem left45 {i : Nat} {e : Event ℚ} (h : cat.events.find? i = some e) (hS : firstThree i = false) : e.id = 4 ∨ e.id = 5 := by
  have hm := AMap.mem_of_find? h
  rw [eventKeys _ _ h]
  have : ∀ kv ∈ cat.events, firstThree kv.1 = false → kv.1 = 4 ∨ kv.1 = 5 := by decide +kernel
  exact this _ hm hS

theorem nonnegT (e : Event ℚ) : geo.Nonneg cat e (createEventTree nthT cat) :=
  ⟨by intro x _; unfold geo KdTree.Example.chebyshev; positivity, fun _ _ _ => abs_nonneg _, fun _ _ _ _ _ _ => abs_nonneg _⟩

/-- the hypotheses: at most two neighbours of the event 1, the events 4 and 5 are left out -/
example := trimmed_background_partial (g := geo) (cfg := cfg) (refEv := ref) (refCat := cat) nthT nthT KdTree.Example.sortingPop latePop
  catSound (by decide) firstThree (fun i e h hS => noUse cfg rfl ref cat e (left45 h hS)) (nonnegT ref) uniqueAll
  (by rw [pointsT_eq]; exact admissible)
  (.inr (by
    show ∀ x ∈ (createEventTree nthT (restrict cat firstThree)).points, ∀ y ∈ (createEventTree nthT (restrict cat firstThree)).points, _
    decide +kernel))

/-- and the two selections, which are not empty -/
example : selectNeighbours geo cfg cat ref cat KdTree.Example.sortingPop (createEventTree nthT cat) =
      .ok ⟨1, [(3, [("N.A.", "P"), ("N.B.", "S")]), (2, [("N.A.", "P"), ("N.B.", "S")])]⟩ ∧
    selectNeighbours geo cfg (restrict cat firstThree) ref cat KdTree.Example.sortingPop (createEventTree nthT (restrict cat firstThree)) =
      .ok ⟨1, [(3, [("N.A.", "P"), ("N.B.", "S")]), (2, [("N.A.", "P"), ("N.B.", "S")])]⟩ := by
  constructor <;> decide +kernel

/-- the same for the whole catalog: each of the events 1, 2 and 3 has the two others -/
example := separate_catalogs_partial (g := geo) (cfg := cfgAll) nthT nthT KdTree.Example.sortingPop latePop catSound (by decide) 2 firstThree
  (fun i e _ event h hS _ _ => noUse cfgAll rfl event cat e (left45 h hS)) (fun _ e _ => nonnegT e) uniqueAll
  (fun _ e _ => by rw [pointsT_eq]; exact admissibleAll e _ rfl) (.inl rfl) id List.reverse (fun _ => List.Perm.refl _)
  (fun m => List.reverse_perm m)

example : (match selectCatalog geo cfgAll 2 KdTree.Example.sortingPop (createEventTree nthT cat) id cat with
    | .ok res => res.keys | _ => []) = [1, 2, 3] := by decide +kernel

/-! ## Equally distant events -/

/-- a background of two events equally far from the event 1, and a third event a hundred degrees away -/
def near2 : Catalog ℚ where
  stations := [("N.A.", sta "A" 10)]
  events := [(2, ev 2 1 0 0), (3, ev 3 (-1) 0 0)]
  phases := [ph 2 "A" "P" .P, ph 3 "A" "P" .P]
def withFar : Catalog ℚ := { near2 with events := near2.events ++ [(4, ev 4 100 0 0)] }
def only1 : Catalog ℚ where
  stations := [("N.A.", sta "A" 10)]
  events := [(1, ev 1 0 0 0)]
  phases := [ph 1 "A" "P" .P]

/-- **C130** (negation) With at most one neighbour, an event a hundred degrees away without any phase decides which of two equally
distant events is the neighbour. -/
theorem useless_event_decides : restrict withFar (fun i => i ≠ 4) = near2 ∧
    OfNoUse geo cfgT withFar (ev 1 0 0 0) only1 (ev 4 100 0 0) ∧
    ∃ nb nb', selectNeighbours geo cfgT withFar (ev 1 0 0 0) only1 KdTree.Example.sortingPop (createEventTree nthT withFar) = .ok nb ∧
      selectNeighbours geo cfgT near2 (ev 1 0 0 0) only1 KdTree.Example.sortingPop (createEventTree nthT near2) = .ok nb' ∧
      nb.ids = [3] ∧ nb'.ids = [2] := by
  refine ⟨rfl, ?_, ⟨1, [(3, [("N.A.", "P")])]⟩, ⟨1, [(2, [("N.A.", "P")])]⟩, by decide +kernel, by decide +kernel, rfl, rfl⟩
  rintro ⟨h, -⟩ -
  have := h (.inr rfl)
  revert this
  decide +kernel

end Verif.Selection.Example
