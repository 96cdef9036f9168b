import Verif.Proofs.RelocateTotal
import Verif.Proofs.ClusterFiles
import Verif.Props.XCorrBuild
import Verif.Props.CatalogSelection

/-! Helper lemmas for C101: multi-event relocations end normally. -/

set_option linter.unusedSectionVars false
set_option linter.unusedSimpArgs false

namespace Verif.Relocate
open Verif.Catalog Verif.Solver

variable {K : Type} [Field K] [LinearOrder K]

theorem mem_phases_iff {n : Neighbours} (hn : n.nbs.NodupKeys) {sp : StaPhase} {b : Nat} : (sp, b) ∈ n.phases ↔ sp ∈ n.phasesOf b := by
  unfold Neighbours.phases Neighbours.phasesOf
  rw [List.mem_flatMap]
  constructor
  · rintro ⟨kv, hkv, h⟩
    obtain ⟨x, hx, he⟩ := List.mem_map.1 h
    cases he
    rw [AMap.find?_of_mem hn hkv]
    exact hx
  · intro h
    cases hb : n.nbs.find? b with
    | none => rw [hb] at h; cases h
    | some phs =>
      rw [hb] at h
      exact ⟨(b, phs), AMap.mem_of_find? hb, List.mem_map.2 ⟨sp, h, rfl⟩⟩

theorem mem_phases_of_phasesOf {n : Neighbours} {sp : StaPhase} {b : Nat} (h : sp ∈ n.phasesOf b) : (sp, b) ∈ n.phases := by
  unfold Neighbours.phasesOf at h
  cases hb : n.nbs.find? b with
  | none => rw [hb] at h; cases h
  | some phs =>
    rw [hb] at h
    exact List.mem_flatMap.2 ⟨(b, phs), AMap.mem_of_find? hb, List.mem_map.2 ⟨sp, h, rfl⟩⟩

theorem multiStep_total {m : MultiArgs K} {bg : Catalog K} (hs : bg.Sound) (hn : NoAt bg) {cl : Cluster} (hc : GoodCluster cl)
    (hf : 28 * (cl.map (·.2.phases.length)).sum ≤ IdToIndex.uintMod) (hp : Pairable bg m.minCoef cl)
    (hnb : ∀ kv ∈ cl, ∀ n ∈ kv.2.ids, (bg.events.find? n).isSome = true)
    (hsrc : ∀ n p, p ∈ bg.phasesOf n → p.source = Source.catalog)
    (hcorr : ∀ i e1 p1 e2 p2, ∃ r, m.x.correlate i e1 p1 e2 p2 = .ok r) (hsol : ∀ i, Prepares (m.sol i)) (s : MultiState K)
    (hr : s.reloc.Sound) : ∃ t, multiStep m bg s cl = .ok t ∧ t.reloc.Sound := by
  obtain ⟨b, hb⟩ := xcorr_build_succeeds (x := m.x) hs (pre := s.xcorrData) (cluster := cl) (calls := s.calls)
    (fun kv hkv => by rw [hc.key kv hkv]; exact hp.event kv hkv) hnb
    (fun kv hkv n sp h => by
      have h' : sp ∈ kv.2.phasesOf n := by simpa [Neighbours.hasPhase] using h
      exact (hp.pairs kv hkv sp n (mem_phases_of_phasesOf h')).2) hsrc hcorr
  have hg : GoodArgs (m.toArgs s.done.length cl b.cache) := ⟨hc, hf⟩
  obtain ⟨⟨r, log⟩, hrel⟩ := relocate_total (a := m.toArgs s.done.length cl b.cache) (cat := bg) hg hs hn hp (hsol _)
  obtain ⟨-, -, -, hrs, -⟩ := relocate_summary hg hs hn hrel
  obtain ⟨c, h1, h2, -⟩ := Catalog.catalog_merge_keep_ids hr (b := r) hrs.placed
  refine ⟨⟨c, XCorr.merge s.xcorrData b.cache, b.calls, s.done ++ [(b.cache, r, log)]⟩, ?_, h2⟩
  unfold multiStep
  rw [hb, Outcome.bind_ok, hrel, Outcome.bind_ok]
  simp only [h1]

theorem multi_total {m : MultiArgs K} {bg : Catalog K} (hs : bg.Sound) (hn : NoAt bg) {clusters : List Cluster}
    (hc : ∀ cl ∈ clusters, GoodCluster cl) (hf : ∀ cl ∈ clusters, 28 * (cl.map (·.2.phases.length)).sum ≤ IdToIndex.uintMod)
    (hp : ∀ cl ∈ clusters, Pairable bg m.minCoef cl)
    (hnb : ∀ cl ∈ clusters, ∀ kv ∈ cl, ∀ n ∈ kv.2.ids, (bg.events.find? n).isSome = true)
    (hsrc : ∀ n p, p ∈ bg.phasesOf n → p.source = Source.catalog)
    (hcorr : ∀ i e1 p1 e2 p2, ∃ r, m.x.correlate i e1 p1 e2 p2 = .ok r) (hsol : ∀ i, Prepares (m.sol i)) (data : XCorr.Cache) :
    ∃ t, relocateMultiEvents m bg clusters data = .ok t := by
  obtain ⟨t, ht, -⟩ := foldlM_total (multiStep m bg) (fun s => s.reloc.Sound) clusters
    (fun cl hcl s h => multiStep_total hs hn (hc cl hcl) (hf cl hcl) (hp cl hcl) (hnb cl hcl) hsrc hcorr hsol s h)
    ⟨Catalog.init, data, [], []⟩ init_sound
  exact ⟨t, ht⟩

end Verif.Relocate

namespace Verif.ClusterFiles
open Verif.Catalog Verif.Relocate

variable {K : Type} [Field K] [LinearOrder K] [IsStrictOrderedRing K]

/-- the picks of the pairs of the clusters found -/
theorem found_picks {g : Selection.Geometry K} {cfg : Selection.Config K} {bg : Catalog K} {pop : KdTree.Pop K}
    {t : Selection.EventTree K} (ht : t.WF) {minNumNeigh : Nat} (hc : bg.Sound)
    (hg : ∀ id e, bg.events.find? id = some e → g.Nonneg bg e t) {order : Order} (ho : ∀ m, (order m).Perm m)
    {pick : Clusters.Pick} {res : List (AMap Nat Neighbours)} (hf : findClusters g cfg minNumNeigh pop t order pick bg = .ok res) :
    ∀ c ∈ res, ∀ a n b sp, c.find? a = some n → sp ∈ n.phasesOf b → Selection.UsedPhase bg a sp ∧ Selection.UsedPhase bg b sp := by
  obtain ⟨G, h1, h2, h3⟩ := Selection.catalog_selection_closed (g := g) (cfg := cfg) pop t ht minNumNeigh hc hg order ho
  have hG : Clusters.WF G := ⟨h2, fun id n h => (h3 id n h).1⟩
  obtain ⟨res', k1, k2, -, -⟩ := Clusters.clusters_are_components G hG pick
  obtain ⟨res'', l1, -, -, l4⟩ := Clusters.pairs_used_once G hG pick
  have he : res' = res := by
    unfold findClusters at hf
    rw [h1] at hf
    have : Clusters.clusterize pick G = .ok res := hf
    rw [k1] at this
    cases this; rfl
  subst he
  rw [k1] at l1
  cases l1
  intro c hcr a n b sp hn hsp
  have ha : a ∈ G.keys := k2.subset (List.mem_flatMap.2 ⟨c, hcr, AMap.mem_keys_of_find? hn⟩)
  obtain ⟨nb, hnb⟩ := Option.isSome_iff_exists.1 (AMap.find?_isSome.2 ha)
  obtain ⟨-, ev, he, -, -, -, e5⟩ := h3 a nb hnb
  unfold Neighbours.phasesOf at hsp
  cases hb : n.nbs.find? b with
  | none => rw [hb] at hsp; cases hsp
  | some phs =>
    rw [hb] at hsp
    obtain ⟨m, hm, hmb⟩ := (l4 c hcr a n hn).2 b phs hb
    rw [hnb] at hm; cases hm
    obtain ⟨-, phs', p, ev', f2, -, -, f5⟩ := e5 b (AMap.mem_keys_of_find? hmb)
    rw [hmb] at f2; cases f2
    obtain ⟨st, g1, g2, g3, -⟩ := f5.usable sp hsp
    rw [(hc.eventKey _ _ f5.inCatalog).1] at g2
    rw [(hc.eventKey _ _ he).1] at g3
    exact ⟨g3, g2⟩

end Verif.ClusterFiles
