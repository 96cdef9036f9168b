import Verif.Proofs.RealSolver
import Verif.Proofs.Access
import Verif.Proofs.RelocateTotalSingle
import Verif.Props.Relocate
import Verif.Props.ClusterFiles

/-!
# C101: relocating a catalog ends normally
-/

set_option linter.unusedSimpArgs false

namespace Verif.Relocate
open Verif.Catalog Verif.Solver Verif.ClusterFiles

/-- The relocation uses the solver of the model with some options and some iteration orders. -/
def UsesSolver (m : MultiArgs ℝ) : Prop := ∀ i, ∃ su : SolverSetup, su.Visits ∧ m.sol i = realSolver su m.so

/-- **C101b.** A multi-event relocation of given clusters ends without exception and without undefined behaviour if every
event the clusters mention is in the catalog and both events of every listed pair have the pick, all picks are those of
the catalog with a threshold for their type, and the correlations return: no least-squares failure, no event outside the
travel-time table, no missing observation stops it. -/
theorem clusters_relocation_completes {m : MultiArgs ℝ} (hu : UsesSolver m) {bg : Catalog ℝ} (hs : bg.Sound) (hn : NoAt bg)
    {clusters : List Cluster} (hc : ∀ cl ∈ clusters, GoodCluster cl)
    (hf : ∀ cl ∈ clusters, 28 * (cl.map (·.2.phases.length)).sum ≤ 2 ^ 32)
    (hp : ∀ cl ∈ clusters, Pairable bg m.minCoef cl)
    (hnb : ∀ cl ∈ clusters, ∀ kv ∈ cl, ∀ n ∈ kv.2.ids, (bg.events.find? n).isSome = true)
    (hsrc : ∀ n p, p ∈ bg.phasesOf n → p.source = Source.catalog)
    (hcorr : ∀ i e1 p1 e2 p2, ∃ r, m.x.correlate i e1 p1 e2 p2 = .ok r) (data : XCorr.Cache) :
    ∃ t, relocateMultiEvents m bg clusters data = .ok t :=
  multi_total hs hn hc hf hp hnb hsrc hcorr (fun i => by
    obtain ⟨su, h1, h2⟩ := hu i
    rw [h2]
    exact realSolver_prepares h1 _) data

/-- the picks of the background catalog -/
theorem filled_pick {raw : Catalog ℝ} (hs : raw.Sound) {vp vs : List String} {w : Phase ℝ → ℝ} {k : Nat} {p : Phase ℝ}
    (hp : p ∈ (raw.fillProcessingInfo .catalog vp vs w).phasesOf k) :
    p.source = .catalog ∧ p.procType = Catalog.classify vp vs p.type ∧ ∃ q ∈ raw.phasesOf k, q.type = p.type := by
  rw [(Catalog.fillProcessingInfo_phases hs.toWF .catalog vp vs w).2.2 k] at hp
  split at hp
  · obtain ⟨q, hq, rfl⟩ := List.mem_map.1 hp
    exact ⟨rfl, rfl, q, hq, rfl⟩
  · cases hp

/-- **C101a.** Relocating a catalog ends without exception and without undefined behaviour, for every catalog whose picks
refer to its events and stations, every choice of valid phases, every geometry with distances that are not negative, every
solver option and every result of the cross-correlations: the clusters are found and all of them are relocated. The
conditions are that the correlations return, that phase names do not contain `@`, that both wave types have a threshold,
and that the pairs of a cluster fit into 32 bit indices. -/
theorem catalog_relocation_completes {m : MultiArgs ℝ} (hu : UsesSolver m) {raw : Catalog ℝ} (hs : raw.Sound) (hn : NoAt raw)
    (vp vs : List String) (w : Phase ℝ → ℝ) {bg : Catalog ℝ} (hbg : bg = raw.fillProcessingInfo .catalog vp vs w)
    (hP : m.minCoef .P ≠ none) (hS : m.minCoef .S ≠ none)
    {g : Selection.Geometry ℝ} {cfg : Selection.Config ℝ} {pop : KdTree.Pop ℝ} {t : Selection.EventTree ℝ} (ht : t.WF)
    (minNumNeigh : Nat) (hg : ∀ id e, bg.events.find? id = some e → g.Nonneg bg e t) {order : Order} (ho : ∀ m, (order m).Perm m)
    {pick : Clusters.Pick}
    (hfit : ∀ res, findClusters g cfg minNumNeigh pop t order pick bg = .ok res →
      ∀ c ∈ res, 28 * (c.map (·.2.phases.length)).sum ≤ 2 ^ 32)
    (hcorr : ∀ i e1 p1 e2 p2, ∃ r, m.x.correlate i e1 p1 e2 p2 = .ok r) (data : XCorr.Cache) :
    ∃ res r, findClusters g cfg minNumNeigh pop t order pick bg = .ok res ∧
      relocateMultiEvents m bg (res.map order) data = .ok r := by
  have hsb : bg.Sound := by rw [hbg]; exact Access.fillProcessingInfo_sound hs .catalog vp vs w
  have hnb : NoAt bg := by
    intro k p hp
    rw [hbg] at hp
    obtain ⟨-, -, q, hq, he⟩ := filled_pick hs hp
    rw [← he]
    exact hn k q hq
  obtain ⟨res, h1, h2, h3, -⟩ := found_spec (g := g) (cfg := cfg) pop t ht minNumNeigh hsb hg order ho pick
  have hpk := found_picks ht hsb hg ho h1
  have hfind : ∀ c ∈ res, ∀ kv ∈ order c, c.find? kv.1 = some kv.2 := fun c hc kv hkv =>
    AMap.find?_of_mem (h2 c hc).proper.unique ((ho c).subset hkv)
  have hids : ∀ c ∈ res, ∀ kv ∈ order c, kv.2.nbs.NodupKeys := fun c hc kv hkv => (h2 c hc).proper.ids _ _ (hfind c hc kv hkv)
  suffices h : ∃ r, relocateMultiEvents m bg (res.map order) data = .ok r by
    obtain ⟨r, hr⟩ := h
    exact ⟨res, r, h1, hr⟩
  refine clusters_relocation_completes hu hsb hnb ?_ ?_ ?_ ?_ ?_ hcorr data
  · intro cl hcl
    obtain ⟨c, hc, rfl⟩ := List.mem_map.1 hcl
    refine ⟨?_, fun kv hkv => (h2 c hc).proper.key _ _ (hfind c hc kv hkv)⟩
    exact ((ho c).map _).nodup_iff.2 (h2 c hc).proper.unique
  · intro cl hcl
    obtain ⟨c, hc, rfl⟩ := List.mem_map.1 hcl
    rw [((ho c).map _).sum_eq]
    exact hfit res h1 c hc
  · intro cl hcl
    obtain ⟨c, hc, rfl⟩ := List.mem_map.1 hcl
    refine ⟨fun kv hkv => (h2 c hc).known _ (AMap.mem_keys_of_find? (hfind c hc kv hkv)), ?_, ?_⟩
    · intro kv hkv sp n hsp
      obtain ⟨⟨p, a1, -, a3, a4⟩, ⟨q, b1, -, b3, b4⟩⟩ :=
        hpk c hc kv.1 kv.2 n sp (hfind c hc kv hkv) ((mem_phases_iff (hids c hc kv hkv)).1 hsp)
      exact ⟨⟨p, a1, a3, a4⟩, ⟨q, b1, b3, b4⟩⟩
    · intro kv hkv sp n hsp p hp
      obtain ⟨⟨q, a1, a2, a3, a4⟩, -⟩ :=
        hpk c hc kv.1 kv.2 n sp (hfind c hc kv hkv) ((mem_phases_iff (hids c hc kv hkv)).1 hsp)
      obtain ⟨p1, p2, p3⟩ := hp
      rw [hbg] at a1 p1
      have e1 := (filled_pick hs a1).2.1
      have e2 := (filled_pick hs p1).2.1
      rw [p3, ← a4, ← e1] at e2
      rw [e2]
      cases hq : q.procType with
      | P => exact Option.isSome_iff_ne_none.2 hP
      | S => exact Option.isSome_iff_ne_none.2 hS
      | NO => exact absurd hq a2
  · intro cl hcl kv hkv n hn
    obtain ⟨c, hc, rfl⟩ := List.mem_map.1 hcl
    exact (h2 c hc).known _ ((h2 c hc).inside kv.1 n ⟨kv.2, hfind c hc kv hkv, hn⟩).1
  · intro n p hp
    rw [hbg] at hp
    exact (filled_pick hs hp).1

/-- A sufficient condition on the size of the catalog for the pairs of every cluster to fit. -/
theorem pairs_fit {g : Selection.Geometry ℝ} {cfg : Selection.Config ℝ} {bg : Catalog ℝ} (hs : bg.Sound) {pop : KdTree.Pop ℝ}
    {t : Selection.EventTree ℝ} (ht : t.WF) {minNumNeigh : Nat} (hg : ∀ id e, bg.events.find? id = some e → g.Nonneg bg e t)
    {order : Order} (ho : ∀ m, (order m).Perm m) {pick : Clusters.Pick}
    (hsize : 28 * (bg.events.length * bg.phases.length) ≤ 2 ^ 32) :
    ∀ res, findClusters g cfg minNumNeigh pop t order pick bg = .ok res →
      ∀ c ∈ res, 28 * (c.map (·.2.phases.length)).sum ≤ 2 ^ 32 := by
  intro res hres c hc
  obtain ⟨res', h1, h2, -, -⟩ := found_spec (g := g) (cfg := cfg) pop t ht minNumNeigh hs hg order ho pick
  rw [hres] at h1
  cases h1
  have hpk := found_picks ht hs hg ho hres
  have hlen : c.length ≤ bg.events.length := by
    have hsub : c.keys ⊆ bg.events.keys := fun k hk => AMap.find?_isSome.1 ((h2 c hc).known k hk)
    have := ((h2 c hc).proper.unique.subperm hsub).length_le
    simpa [AMap.keys] using this
  have hone : ∀ x ∈ c.map (·.2.phases.length), x ≤ bg.phases.length := by
    intro x hx
    obtain ⟨kv, hkv, rfl⟩ := List.mem_map.1 hx
    have hf := AMap.find?_of_mem (h2 c hc).proper.unique hkv
    refine SingleEvent.phases_fit ((h2 c hc).proper.ids _ _ hf) ?_
    intro id phs hphs
    have he : kv.2.phasesOf id = phs := by unfold Neighbours.phasesOf; rw [hphs]; rfl
    refine ⟨he ▸ (h2 c hc).proper.phases _ _ hf id, fun sp hsp => ?_⟩
    obtain ⟨-, p, hp, -, e1, e2⟩ := hpk c hc _ _ id sp hf (he ▸ hsp)
    exact ⟨p, hp, by rw [e1, e2]⟩
  have hsum := List.sum_le_card_nsmul _ _ hone
  rw [List.length_map, smul_eq_mul] at hsum
  have := le_trans hsum (Nat.mul_le_mul_right _ hlen)
  omega

/-- **C101c.** Relocating a single event against a background catalog ends without exception and without undefined
behaviour, for every event with picks that refer to it and to stations of its catalog, every background catalog and every
choice of options, under the conditions of C101a, if the configured minimum number of neighbours is at most 34. (Beyond
that see C50: building the message on too few neighbours is undefined.) -/
theorem single_relocation_completes {u : SingleEvent.Setup ℝ} {su : SolverSetup} (hv : su.Visits)
    (hu : u.solve.sol = realSolver su u.solve.so) {raw single : Catalog ℝ} (hs : raw.Sound) (hn : NoAt raw)
    (he : single.Sound) (hen : NoAt single) {bg : Catalog ℝ} {w : Phase ℝ → ℝ}
    (hbg : bg = raw.fillProcessingInfo .catalog u.validP u.validS w)
    (hP : u.solve.minCoef .P ≠ none) (hS : u.solve.minCoef .S ≠ none) (ht : u.tree.WF) (hg : ∀ e, u.geo.Nonneg bg e u.tree)
    (hroom : bg.events.find? (uintMod - 1) = none) (hfit : 28 * bg.phases.length ≤ uintMod)
    (hmin : u.solve.minNumNeigh ≤ 34) (hxc : ∀ c cl, ∃ xc, u.solve.xcorr c cl = .ok xc) (hone : single.events ≠ [])
    (isManual : Bool) : ∃ r, SingleEvent.relocateEvent u bg single isManual = .ok r := by
  have hsb : bg.Sound := by rw [hbg]; exact Access.fillProcessingInfo_sound hs .catalog _ _ w
  have hnb : NoAt bg := by
    intro k p hp
    rw [hbg] at hp
    obtain ⟨-, -, q, hq, he⟩ := filled_pick hs hp
    rw [← he]
    exact hn k q hq
  have hprep : ∀ k p, p ∈ (SingleEvent.prepare u single isManual).phasesOf k →
      p.procType = Catalog.classify u.validP u.validS p.type ∧ ∃ q ∈ single.phasesOf k, q.type = p.type := by
    intro k p hp
    unfold SingleEvent.prepare at hp
    rw [(Catalog.fillProcessingInfo_phases he.toWF _ _ _ _).2.2 k] at hp
    split at hp
    · obtain ⟨q, hq, rfl⟩ := List.mem_map.1 hp
      exact ⟨rfl, q, hq, rfl⟩
    · cases hp
  have hpn : NoAt (SingleEvent.prepare u single isManual) := by
    intro k p hp
    obtain ⟨-, q, hq, e⟩ := hprep k p hp
    rw [← e]; exact hen k q hq
  unfold SingleEvent.relocateEvent
  have hev : (SingleEvent.prepare u single isManual).eventsSorted = single.eventsSorted := rfl
  rw [hev]
  cases hs' : single.eventsSorted with
  | nil =>
    exfalso
    apply hone
    have hperm := List.perm_insertionSort (fun a b : Nat × Event ℝ => a.1 ≤ b.1) single.events
    have : single.events.insertionSort (fun a b => a.1 ≤ b.1) = [] := hs'
    rw [this] at hperm
    exact List.nil_perm.1 hperm
  | cons kv rest =>
    simp only
    obtain ⟨n, e⟩ := kv
    have hfind : single.events.find? n = some e :=
      (Catalog.eventsSorted_facts he.toWF).2.1 (n, e) (by rw [hs']; exact List.mem_cons_self ..)
    have hid : e.id = n := (he.eventKey _ _ hfind).1
    obtain ⟨nb, hsel⟩ := Selection.selection_returns (g := u.geo) (cfg := u.cfg) (refEv := e)
      (refCat := SingleEvent.prepare u single isManual) u.pop u.tree ht hsb.phaseStation
    rw [hsel]
    simp only [hid]
    obtain ⟨c1, c2, c3, c4⟩ := Selection.neighbours_meet_constraints_partial u.pop u.tree ht
      (fun id e he => (hsb.eventKey id e he).1) (hg e) nb hsel
    have hserve : ∀ k ∈ nb.ids, ∃ phs, nb.nbs.find? k = some phs := fun k hk =>
      Option.isSome_iff_exists.1 (AMap.find?_isSome.2 hk)
    have hin : ∀ k ∈ nb.ids, (bg.events.find? k).isSome = true := by
      intro k hk
      obtain ⟨phs, hphs⟩ := hserve k hk
      obtain ⟨p, event, -, -, h3⟩ := c4 k phs hphs
      rw [h3.inCatalog]; rfl
    have husable : ∀ sp k, (sp, k) ∈ nb.phases → k ∈ nb.ids ∧ Selection.UsedPhase bg k sp ∧
        Selection.UsedPhase (SingleEvent.prepare u single isManual) n sp := by
      intro sp k hsp
      have hsp := (mem_phases_iff c2).1 hsp
      unfold Neighbours.phasesOf at hsp
      cases hb : nb.nbs.find? k with
      | none => rw [hb] at hsp; cases hsp
      | some phs =>
        rw [hb] at hsp
        obtain ⟨p, event, -, -, h3⟩ := c4 k phs hb
        obtain ⟨station, -, a1, a2, -⟩ := h3.usable sp hsp
        rw [(hsb.eventKey _ _ h3.inCatalog).1] at a1
        rw [hid] at a2
        exact ⟨AMap.mem_keys_of_find? hb, a1, a2⟩
    refine relocateSingleEvent_total hsb hnb (SingleEvent.prepare_sound he isManual) hpn
      (e := e) hfind c2 hin ?_ ?_ hmin ?_ ?_ hxc (hu ▸ realSolver_prepares hv _)
    · intro hc
      have := hin _ hc
      rw [hroom] at this; cases this
    · have := SingleEvent.phases_fit (bg := bg) c2 (by
        intro id phs hphs
        obtain ⟨p, event, -, -, h3⟩ := c4 id phs hphs
        refine ⟨h3.nodup, fun sp hsp => ?_⟩
        obtain ⟨station, -, ⟨q, hq, -, hq1, hq2⟩, -⟩ := h3.usable sp hsp
        rw [(hsb.eventKey _ _ h3.inCatalog).1] at hq
        exact ⟨q, hq, by rw [hq1, hq2]⟩)
      have : uintMod = IdToIndex.uintMod := rfl
      omega
    · intro sp k hsp
      obtain ⟨a0, ⟨p, p1, -, p3, p4⟩, q, q1, -, q3, q4⟩ := husable sp k hsp
      exact ⟨a0, ⟨q, q1, q3, q4⟩, p, p1, p3, p4⟩
    · intro sp k hsp p hp
      obtain ⟨-, -, q, q1, q2, q3, q4⟩ := husable sp k hsp
      obtain ⟨p1, p2, p3⟩ := hp
      have e1 := (hprep _ _ q1).1
      have e2 := (hprep _ _ p1).1
      rw [p3, ← q4, ← e1] at e2
      rw [e2]
      cases hq : q.procType with
      | P => exact Option.isSome_iff_ne_none.2 hP
      | S => exact Option.isSome_iff_ne_none.2 hS
      | NO => exact absurd hq q2

/-- **C101, clusters from files.** With a pair file that names a pick the events do not have, the relocation is undefined: the
end of the container is dereferenced. -/
theorem pair_without_pick_undefined : ∃ (m : MultiArgs ℚ) (order : Order) (bg : Catalog ℚ) (fs : Files),
    bg.Sound ∧ NoAt bg ∧ (∀ c, (order c).Perm c) ∧ fs.find? "pairs.csv".toList =
      some "eventId1,eventId2,networkCode,stationCode,locationCode,phaseType\n1,2,N,A,,Sg\n".toList ∧
    relocateCatalog m order id bg .throws fs "pairs.csv".toList [] = .ub := by
  refine ⟨ClusterFiles.Example.margs4, ClusterFiles.Example.byNumber, Example.cat4,
    [("pairs.csv".toList, "eventId1,eventId2,networkCode,stationCode,locationCode,phaseType\n1,2,N,A,,Sg\n".toList)],
    Example.cat4_sound, Example.cat4_noAt, ClusterFiles.Example.byNumber_perm, by decide +kernel, ?_⟩
  have h : (match relocateCatalog ClusterFiles.Example.margs4 ClusterFiles.Example.byNumber id Example.cat4 .throws
    [("pairs.csv".toList, "eventId1,eventId2,networkCode,stationCode,locationCode,phaseType\n1,2,N,A,,Sg\n".toList)]
      "pairs.csv".toList [] with | .ub => true | _ => false) = true := by decide +kernel
  split at h
  · assumption
  · cases h

/-- **C101, clusters from files.** With a pair file that names a pick that is neither P nor S for the configuration, the
relocation throws: there is no correlation threshold for it. -/
theorem pair_unclassified_throws : ∃ (m : MultiArgs ℚ) (order : Order) (bg : Catalog ℚ) (fs : Files),
    bg.Sound ∧ NoAt bg ∧ (∀ c, (order c).Perm c) ∧ m.minCoef .P ≠ none ∧ m.minCoef .S ≠ none ∧
    (∀ p ∈ bg.phasesOf 1, p.procType = Catalog.classify ["P"] ["S"] p.type) ∧ fs.find? "pairs.csv".toList =
      some "eventId1,eventId2,networkCode,stationCode,locationCode,phaseType\n1,2,N,A,,Pg\n".toList ∧
    relocateCatalog m order id bg .throws fs "pairs.csv".toList [] = .throws := by
  refine ⟨{ ClusterFiles.Example.margs4 with minCoef := fun k => if k = .NO then none else some (1/2) }, ClusterFiles.Example.byNumber,
    Example.cat4.fillProcessingInfo .catalog ["P"] ["S"] (fun _ => 1),
    [("pairs.csv".toList, "eventId1,eventId2,networkCode,stationCode,locationCode,phaseType\n1,2,N,A,,Pg\n".toList)],
    ?_, ?_, ClusterFiles.Example.byNumber_perm, by decide, by decide, by decide +kernel, by decide +kernel, ?_⟩
  · exact ⟨Example.cat4_sound.toWF.fillProcessingInfo _ _ _ _, by decide +kernel, by decide +kernel⟩
  · exact Example.noAt_of (by decide +kernel)
  have h : (match relocateCatalog { ClusterFiles.Example.margs4 with minCoef := fun k => if k = .NO then none else some (1/2) }
    ClusterFiles.Example.byNumber id (Example.cat4.fillProcessingInfo .catalog ["P"] ["S"] (fun _ => 1)) .throws
    [("pairs.csv".toList, "eventId1,eventId2,networkCode,stationCode,locationCode,phaseType\n1,2,N,A,,Pg\n".toList)]
      "pairs.csv".toList [] with | .throws => true | _ => false) = true := by decide +kernel
  split at h
  · assumption
  · cases h

/-! ## Concrete case

Two events with the same P phase at one station, LSMR with normalisation and damping. -/

namespace RealExample

def sta : Station ℝ := ⟨"N.A.", 1, 2, 0, "N", "A", ""⟩
def event (id : Nat) (t : Int) (lat : ℝ) : Event ℝ := ⟨id, t, lat, 7, 5, 1, false, 0, 0⟩
noncomputable def pickOf (id : Nat) (t : Int) : Phase ℝ :=
  ⟨id, "N.A.", t, 0, 0, "Pg", "N", "A", "", "HHZ", .NO, 1, .catalog, false, 0, 0, 0⟩

noncomputable def raw : Catalog ℝ :=
  ((((Catalog.init.addStation sta).addEvent (event 1 10000000 46) true).1.addEvent (event 2 20000000 46) true).1.addPhase
    (pickOf 1 15000000)).addPhase (pickOf 2 23000000)

theorem raw_sound : raw.Sound := by
  refine ⟨Catalog.Reachable.wf ?_, by decide +kernel, by decide +kernel⟩
  exact .addPhase _ (.addPhase _ (.addEvent _ _ (by decide) (.addEvent _ _ (by decide) (.addStation _ .init))))

theorem raw_noAt : NoAt raw := by
  intro k p hp
  have : ∀ kp ∈ raw.phases, '@' ∉ kp.2.type.toList := by decide +kernel
  exact this (k, p) (Catalog.mem_phasesOf.1 hp)

noncomputable def setup : SolverSetup := ⟨some .lsmr, 0, true, .sorting _, fun m => m, fun m => m, fun _ _ => none⟩

theorem setup_visits : setup.Visits := ⟨fun _ => .refl _, fun _ => .refl _⟩

noncomputable def env : Env ℝ :=
  ⟨fun _ _ _ => some ⟨3, 0, 0, 6, 1⟩, false, Real.cos, Real.sin, 111, fun x y lat lon _ => (lat + y, lon + x),
    fun t => ⌊t * 1000000⌋, Real.sqrt⟩

noncomputable def options : SolverOptions ℝ := ⟨20, 1 / 10, 1 / 100, 10, 3, 1, 1 / 2⟩

noncomputable def args : MultiArgs ℝ where
  env := env
  so := options
  usePickUncertainties := true
  xcorrWeightScaler := 2
  minCoef k := if k = .NO then none else some (1 / 2)
  x := ⟨true, 0, -1, 10, fun _ _ => 5, fun _ _ => 1, fun _ _ _ _ _ => .ok ⟨true, 3 / 4, 1⟩⟩
  sol _ := realSolver setup options

noncomputable def geo : Selection.Geometry ℝ where
  dist a b := |a.lat - b.lat| + |a.lon - b.lon| + |a.depth - b.depth|
  axisDist _ a b := |a.lat - b.lat|
  staDist e s := |e.latitude - s.latitude|
  inside _ _ _ := true
  inQuadrant _ _ _ := true

noncomputable def bg : Catalog ℝ := raw.fillProcessingInfo .catalog ["Pg"] ["Sg"] (fun _ => 1)

theorem bg_sound : bg.Sound := Access.fillProcessingInfo_sound raw_sound .catalog _ _ _

theorem bg_noAt : NoAt bg := by
  intro k p hp
  obtain ⟨-, -, q, hq, he⟩ := filled_pick raw_sound hp
  rw [← he]
  exact raw_noAt k q hq

noncomputable def points : List (Pt ℝ × Nat) := bg.events.map (fun kv => (Selection.eventPt kv.2, kv.1))

noncomputable def tree : Selection.EventTree ℝ :=
  ⟨points, KdTree.ofPoints (fun i => (points.getD i (⟨0, 0, 0⟩, 0)).1) (fun _ => .sorting _) 2⟩

theorem tree_wf : tree.WF := by
  obtain ⟨h1, h2⟩ := KdTree.tree_holds_points (fun i => (points.getD i (⟨0, 0, 0⟩, 0)).1) (fun _ => .sorting _) 2
  exact ⟨h1, by decide +kernel, h2⟩

theorem nonneg (c : Catalog ℝ) (e : Event ℝ) : geo.Nonneg c e tree :=
  ⟨by intro x _; unfold geo; positivity, fun _ _ _ => abs_nonneg _, fun _ _ _ _ _ _ => abs_nonneg _⟩

/-- both events are within reach and have the pick: at least one neighbour is required and the clusters are relocated -/
def cfg : Selection.Config ℝ := ⟨0, -1, 0, 1, 0, 0, 0, 12⟩

example (pop : KdTree.Pop ℝ) := catalog_relocation_completes (m := args) (fun _ => ⟨setup, setup_visits, rfl⟩) raw_sound raw_noAt ["Pg"] ["Sg"]
  (fun _ => 1) (bg := bg) rfl (by simp [args]) (by simp [args]) (g := geo) (cfg := cfg) (pop := pop) tree_wf 1
  (fun _ e _ => nonneg bg e) ClusterFiles.Example.byNumber_perm (pick := Clusters.Example.head)
  (pairs_fit bg_sound tree_wf (fun _ e _ => nonneg bg e) ClusterFiles.Example.byNumber_perm (by decide +kernel))
  (fun _ _ _ _ _ => ⟨_, rfl⟩) []

/-- the cluster of the two events -/
def pair : Cluster := [(1, ⟨1, [(2, [("N.A.", "Pg")])]⟩), (2, ⟨2, []⟩)]

theorem pairable : Pairable bg args.minCoef pair := by
  have h1 : bg.phases.map (fun kp => (kp.1, kp.2.stationId, kp.2.type, kp.2.procType)) =
      [(1, "N.A.", "Pg", .P), (2, "N.A.", "Pg", .P)] := by decide +kernel
  have hpick : ∀ n, n = 1 ∨ n = 2 → ∃ p, IsPick bg n ("N.A.", "Pg") p := by
    intro n hn
    have : (n, "N.A.", "Pg", PhaseType.P) ∈ bg.phases.map (fun kp => (kp.1, kp.2.stationId, kp.2.type, kp.2.procType)) := by
      rw [h1]; rcases hn with rfl | rfl <;> simp
    obtain ⟨⟨k, p⟩, hkp, e⟩ := List.mem_map.1 this
    simp only [Prod.mk.injEq] at e
    obtain ⟨rfl, e1, e2, -⟩ := e
    exact ⟨p, Catalog.mem_phasesOf.2 hkp, e1, e2⟩
  have hP : ∀ n p, p ∈ bg.phasesOf n → p.procType = .P := by
    intro n p hp
    have := List.mem_map_of_mem (f := fun kp : Nat × Phase ℝ => (kp.1, kp.2.stationId, kp.2.type, kp.2.procType))
      (Catalog.mem_phasesOf.1 hp)
    rw [h1] at this
    simp only [List.mem_cons, Prod.mk.injEq, List.not_mem_nil, or_false] at this
    rcases this with h | h <;> exact h.2.2.2
  refine ⟨by decide +kernel, ?_, ?_⟩
  · intro kv hkv sp n hsp
    simp only [pair, List.mem_cons, List.not_mem_nil, or_false] at hkv
    rcases hkv with rfl | rfl
    · simp only [Neighbours.phases, List.flatMap_cons, List.flatMap_nil, List.append_nil, List.map_cons, List.map_nil,
        List.mem_singleton, Prod.mk.injEq] at hsp
      obtain ⟨rfl, rfl⟩ := hsp
      exact ⟨hpick 1 (.inl rfl), hpick 2 (.inr rfl)⟩
    · cases hsp
  · intro kv _ sp n _ p hp
    rw [hP _ p hp.1]
    simp [args]

example : ∃ t, relocateMultiEvents args bg [pair] [] = .ok t := by
  refine clusters_relocation_completes (fun _ => ⟨setup, setup_visits, rfl⟩) bg_sound bg_noAt ?_ ?_ ?_ ?_ ?_ (fun _ _ _ _ _ => ⟨_, rfl⟩) []
  · intro cl hcl
    rw [List.mem_singleton.1 hcl]
    exact ⟨by decide, by decide⟩
  · intro cl hcl
    rw [List.mem_singleton.1 hcl]
    decide
  · intro cl hcl
    rw [List.mem_singleton.1 hcl]
    exact pairable
  · intro cl hcl
    rw [List.mem_singleton.1 hcl]
    decide +kernel
  · intro n p hp
    exact (filled_pick raw_sound hp).1

noncomputable def single (pop : KdTree.Pop ℝ) : SingleEvent.Setup ℝ where
  geo := geo
  cfg := cfg
  pop := pop
  tree := tree
  validP := ["Pg"]
  validS := ["Sg"]
  pickWeight := fun _ _ => 1
  solve := ⟨env, options, true, 2, args.minCoef, fun _ _ => .ok [], realSolver setup options, 2⟩

/-- the event to relocate -/
noncomputable def given : Catalog ℝ :=
  ((Catalog.init.addStation sta).addEvent (event 7 30000000 46) true).1.addPhase (pickOf 7 33000000)

theorem given_sound : given.Sound := by
  refine ⟨Catalog.Reachable.wf ?_, by decide +kernel, by decide +kernel⟩
  exact .addPhase _ (.addEvent _ _ (by decide) (.addStation _ .init))

theorem given_noAt : NoAt given := by
  intro k p hp
  have : ∀ kp ∈ given.phases, '@' ∉ kp.2.type.toList := by decide +kernel
  exact this (k, p) (Catalog.mem_phasesOf.1 hp)

/-- an event next to the two, for every order in which the search takes points at the same distance -/
example (pop : KdTree.Pop ℝ) := single_relocation_completes (u := single pop) (raw := raw) (single := given) setup_visits rfl
  raw_sound raw_noAt given_sound given_noAt (bg := bg) rfl (by simp [single, args]) (by simp [single, args]) tree_wf (nonneg bg)
  (by decide +kernel) (by decide +kernel) (by simp [single]) (fun _ _ => ⟨_, rfl⟩) (by rintro ⟨⟩) true

end RealExample

end Verif.Relocate
