import Verif.Proofs.RenumberSingle
import Verif.Props.RelocateEvent
import Verif.Props.Renumber
import Verif.Props.ClusterFiles

/-!
# C135: the numbers of the events do not matter, from the catalog to the relocated catalog
-/

namespace Verif.Renumber
open Verif.Catalog Verif.Relocate Verif.Selection Verif.ClusterFiles

section
variable {K : Type} [Field K] [LinearOrder K] {r : Nat → Nat} (hr : StrictMono r) {g : Geometry K}
  (hg : ∀ e st, g.staDist (event r e) st = g.staDist e st) (cfg : Config K) (minNumNeigh : Nat) (pop : KdTree.Pop K)
  (nth : (pt : Nat → Pt K) → (axis : Nat) → NthElement (fun i => KdTree.coord axis (pt i)))
  {order order' : Order} (ho : ∀ m, order' (cluster r m) = cluster r (order m))
  {pick pick' : Clusters.Pick} (hp : ∀ l, l ≠ [] → pick'.first (l.map r) = r (pick.first l))

include hr hg ho in
/-- **C135f** The neighbours selected for a catalog are the same, with the new numbers. The hash maps are visited in the same order. -/
theorem selection_renumbered (cat : Catalog K) :
    selectCatalog g cfg minNumNeigh pop (createEventTree nth (catalog r cat)) order' (catalog r cat) =
      (selectCatalog g cfg minNumNeigh pop (createEventTree nth cat) order cat).map (cluster r) :=
  selectCatalog_ren hr hg (tree_ren hr nth cat) ho cat

include hr hg ho hp in
/-- **C135g** The clusters found are the same, with the new numbers. -/
theorem clusters_renumbered (cat : Catalog K) :
    findClusters g cfg minNumNeigh pop (createEventTree nth (catalog r cat)) order' pick' (catalog r cat) =
      (findClusters g cfg minNumNeigh pop (createEventTree nth cat) order pick cat).map (List.map (cluster r)) := by
  unfold findClusters
  rw [selection_renumbered hr hg cfg minNumNeigh pop nth ho]
  cases selectCatalog g cfg minNumNeigh pop (createEventTree nth cat) order cat with
  | throws => rfl
  | ub => rfl
  | ok m => exact clusterize_ren hr hp m

include hr hg ho hp in
/-- **C135h** The relocation of a catalog, from the search of the clusters to the returned catalog. -/
theorem run_renumbered {m : MultiArgs K} (hE : TravelTimesIgnore r m.env) (hx : XcorrIgnores r m.x) (hS : ∀ i, SolverIgnores r (m.sol i))
    (rnd : ℚ → ℚ) (bg : Catalog K) (fs fs' : Files) :
    relocateCatalog m order' rnd (catalog r bg)
        (findClusters g cfg minNumNeigh pop (createEventTree nth (catalog r bg)) order' pick' (catalog r bg)) fs' [] [] =
      (relocateCatalog m order rnd bg (findClusters g cfg minNumNeigh pop (createEventTree nth bg) order pick bg) fs [] []).map (multi r) := by
  rw [clusters_renumbered hr hg cfg minNumNeigh pop nth ho hp]
  cases findClusters g cfg minNumNeigh pop (createEventTree nth bg) order pick bg with
  | throws => rfl
  | ub => rfl
  | ok cl =>
    show relocateMultiEvents m (catalog r bg) ((cl.map (cluster r)).map order') [] =
      (relocateMultiEvents m bg (cl.map order) []).map (multi r)
    have h : (cl.map (cluster r)).map order' = (cl.map order).map (cluster r) := by
      rw [List.map_map, List.map_map]
      exact List.map_congr_left (fun c _ => ho c)
    rw [h]
    exact multi_ren hr hE hx hS bg (cl.map order) []
end

/-- **C135i** For every order in which the maps are visited there is one for the new numbers. -/
theorem exists_orders {r : Nat → Nat} (hr : StrictMono r) (order : Order) (pick : Clusters.Pick) :
    ∃ (order' : Order) (pick' : Clusters.Pick), (∀ m, order' (cluster r m) = cluster r (order m)) ∧
      ∀ l, l ≠ [] → pick'.first (l.map r) = r (pick.first l) := by
  classical
  let inv : Nat → Nat := Function.invFun r
  have hinv : ∀ n, inv (r n) = n := Function.leftInverse_invFun hr.injective
  have hc : ∀ m : Cluster, cluster inv (cluster r m) = m := by
    intro m
    unfold cluster neighbours
    simp [List.map_map, Function.comp_def, hinv]
  have hl : ∀ l : List Nat, (l.map r).map inv = l := by
    intro l
    simp [List.map_map, Function.comp_def, hinv]
  refine ⟨fun m => cluster r (order (cluster inv m)),
    ⟨fun l => if r (pick.first (l.map inv)) ∈ l then r (pick.first (l.map inv)) else l.headD 0, fun l h => ?_⟩, fun m => ?_, fun l h => ?_⟩
  · split
    · assumption
    · cases l with
      | nil => exact absurd rfl h
      | cons a l => simp
  · show cluster r (order (cluster inv (cluster r m))) = _
    rw [hc]
  · show (if _ then _ else _) = _
    rw [hl, if_pos (List.mem_map_of_mem (pick.mem l h))]

/-- **C135j** Single-event relocation, the events of the background catalog and the given event having other numbers in the same order:
the same neighbours are selected, the same is done and the same is returned. The relocated event gets the next free number in both runs;
`f` is the numbering `r` of the neighbours, extended to that number `n`. -/
theorem single_event_renumbered {K : Type} [Field K] [LinearOrder K] [IsStrictOrderedRing K] {r : Nat → Nat} (hr : StrictMono r)
    {u : SingleEvent.Setup K} (nth : (pt : Nat → Pt K) → (axis : Nat) → NthElement (fun i => KdTree.coord axis (pt i)))
    {bg : Catalog K} (htree : u.tree = createEventTree nth bg)
    (hgeo : ∀ e st, u.geo.staDist (event r e) st = u.geo.staDist e st)
    (hE : ∀ f, StrictMono f → TravelTimesIgnore f u.solve.env) (hS : ∀ f, StrictMono f → SolverIgnores f u.solve.sol)
    (hx : ∀ f, StrictMono f → ∀ c cl, u.solve.xcorr (catalog f c) (cluster f cl) = (u.solve.xcorr c cl).map (cache f))
    (hb : bg.Sound) (hg : ∀ e, u.geo.Nonneg bg e u.tree) (hroom : ∀ k ∈ bg.events.keys, k + 1 < uintMod ∧ r k + 1 < uintMod)
    {single : Catalog K} (hs : single.Sound) (isManual : Bool) :
    ∃ f, StrictMono f ∧ SingleEvent.relocateEvent { u with tree := createEventTree nth (catalog r bg) } (catalog r bg) (catalog r single) isManual =
        (SingleEvent.relocateEvent u bg single isManual).map (result f) ∧
      ∀ res log x, SingleEvent.relocateEvent u bg single isManual = .ok (res, log) → log[0]? = some x →
        ∃ n e, x.before.events.find? n = some e ∧ ∀ k ∈ x.before.events.keys, k ≠ n → f k = r k ∧ x.before.events.find? k = bg.events.find? k := by
  have ht : SameTree r u.tree (createEventTree nth (catalog r bg)) := htree ▸ tree_ren hr nth bg
  have hprep : SingleEvent.prepare { u with tree := createEventTree nth (catalog r bg) } (catalog r single) isManual =
      catalog r (SingleEvent.prepare u single isManual) := fill_ren hr _ _ _ _
  unfold SingleEvent.relocateEvent
  rw [hprep, cat_sorted hr]
  cases (SingleEvent.prepare u single isManual).eventsSorted with
  | nil => exact ⟨r, hr, rfl, fun _ _ _ h => by cases h⟩
  | cons kv rest =>
    obtain ⟨k, e⟩ := kv
    simp only [List.map_cons, e_id]
    rw [select_ren hr hgeo u.pop ht]
    cases hsel : selectNeighbours u.geo u.cfg bg e (SingleEvent.prepare u single isManual) u.pop u.tree with
    | throws => exact ⟨r, hr, rfl, fun _ _ _ h => by cases h⟩
    | ub => exact ⟨r, hr, rfl, fun _ _ _ h => by cases h⟩
    | ok nb =>
      simp only [Outcome.map]
      have htw : u.tree.WF := htree ▸ (createEventTree_wf nth bg hb.toWF).1
      obtain ⟨-, c2, -, c4⟩ := neighbours_meet_constraints_partial u.pop u.tree htw
        (fun id e he => (hb.eventKey id e he).1) (hg e) nb hsel
      have hin : ∀ i ∈ nb.ids, (bg.events.find? i).isSome = true ∧ i + 1 < uintMod ∧ r i + 1 < uintMod := by
        intro i hi
        obtain ⟨phs, hphs⟩ := Option.isSome_iff_exists.1 (AMap.find?_isSome.2 hi)
        obtain ⟨p, event, -, -, h3⟩ := c4 i phs hphs
        have h : (bg.events.find? i).isSome = true := by rw [h3.inCatalog]; rfl
        exact ⟨h, hroom i (AMap.find?_isSome.1 h)⟩
      obtain ⟨f, hf, h1, h2⟩ := singleEventCatalog_ren (evCat := SingleEvent.prepare u single isManual) hr hb c2 hin e.id
      have hnb : ∀ m, ({ neighbours r nb with refId := f m } : Neighbours) = neighbours f { nb with refId := m } := by
        intro m
        refine (Neighbours.mk.injEq ..).mpr ⟨rfl, List.map_congr_left (fun kv hkv => ?_)⟩
        rw [h1 _ (AMap.mem_keys_of_mem hkv)]
      refine ⟨f, hf, ?_, ?_⟩
      · unfold relocateSingleEvent
        rw [h2, nb_amount]
        split
        · split <;> rfl
        · cases hsc : singleEventCatalog bg (SingleEvent.prepare u single isManual) e.id nb with
          | throws => rfl
          | ub => rfl
          | ok y =>
            obtain ⟨c, m⟩ := y
            simp only [Outcome.map, Outcome.bind_ok, hnb]
            rw [show ([(f m, neighbours f { nb with refId := m })] : Cluster) = cluster f [(m, { nb with refId := m })] from rfl, hx f hf]
            cases u.solve.xcorr c [(m, { nb with refId := m })] with
            | throws => rfl
            | ub => rfl
            | ok xc =>
              have := relocate_ren hf (a := u.solve.toArgs xc nb m) (hE f hf) (hS f hf) c
              simp only [Outcome.map, Outcome.bind_ok]
              unfold SingleArgs.toArgs
              rw [hnb]
              exact this
      · intro res log x hrun hlog
        unfold relocateSingleEvent at hrun
        split at hrun
        · split at hrun
          · cases hrun; cases hlog
          · cases hrun
        · rw [Outcome.bind_eq_ok] at hrun
          obtain ⟨⟨c, m⟩, hsc, hrun⟩ := hrun
          simp only at hrun
          rw [Outcome.bind_eq_ok] at hrun
          obtain ⟨xc, -, hrun⟩ := hrun
          have hb' : x.before = c := by
            cases (relocate_run hrun).1 with
            | last _ hi _ _ => cases hlog; exact hi.before
            | step hi _ _ _ => cases hlog; exact hi.before
          have hroom' : uintMod - 1 ∉ nb.ids := by
            intro hc
            have := (hin _ hc).2.1
            have : 2 ≤ uintMod := by decide
            omega
          obtain ⟨e', -, -, g3, g4, -⟩ := singleEventCatalog_spec hb (SingleEvent.prepare_sound hs isManual) c2
            (fun k hk => (hin k hk).1) hroom' hsc
          rw [hb']
          refine ⟨m, _, by rw [g4, if_pos rfl], fun k hk hkm => ?_⟩
          have hk' := AMap.find?_isSome.2 hk
          rw [g4, if_neg hkm] at hk'
          by_cases hkn : k ∈ nb.ids
          · exact ⟨h1 k hkn, by rw [g4, if_neg hkm, if_pos hkn]⟩
          · rw [if_neg hkn] at hk'; cases hk'

/-! ## Concrete cases -/

namespace Example
open Relocate.Example (cat4 margs)
open ClusterFiles.Example (byNumber cfg4)

theorem byNumber_ren {r : Nat → Nat} (hr : StrictMono r) (m : AMap Nat Neighbours) : byNumber (cluster r m) = cluster r (byNumber m) :=
  (List.map_insertionSort (r := fun a b : Nat × Neighbours => a.1 ≤ b.1) (s := fun a b : Nat × Neighbours => a.1 ≤ b.1)
    (fun kv : Nat × Neighbours => (r kv.1, neighbours r kv.2)) m (fun _ _ _ _ => hr.le_iff_le.symm)).symm

theorem head_ren (r : Nat → Nat) : ∀ l, l ≠ [] → Clusters.Example.head.first (l.map r) = r (Clusters.Example.head.first l)
  | [], h => absurd rfl h
  | _ :: _, _ => rfl

/-- the parts of a list are found by sorting it -/
def nth4 (pt : Nat → Pt ℚ) (axis : Nat) : NthElement (fun i => KdTree.coord axis (pt i)) := .sorting _

/-- the whole run for the four events of two clusters -/
example : relocateCatalog margs' byNumber id (catalog tens cat4)
      (findClusters Selection.Example.geo cfg4 1 KdTree.Example.sortingPop (createEventTree nth4 (catalog tens cat4)) byNumber
        Clusters.Example.head (catalog tens cat4)) [] [] [] =
    (relocateCatalog margs' byNumber id cat4 (findClusters Selection.Example.geo cfg4 1 KdTree.Example.sortingPop
      (createEventTree nth4 cat4) byNumber Clusters.Example.head cat4) [] [] []).map (multi tens) :=
  run_renumbered tens_mono (fun _ _ => rfl) cfg4 1 KdTree.Example.sortingPop nth4 (byNumber_ren tens_mono) (head_ren tens)
    (env_ignores tens) (xargs_ignores tens) (fun _ => mover_ignores tens_mono) id cat4 [] []

/-- the clusters with the new numbers -/
example : (findClusters Selection.Example.geo cfg4 1 KdTree.Example.sortingPop (createEventTree nth4 (catalog tens cat4)) byNumber
    Clusters.Example.head (catalog tens cat4)).map (List.map AMap.keys) = .ok [[33, 43], [13, 23]] := by decide +kernel

/-- the same with ellipsoids -/
example : (findClusters Selection.Example.geo { cfg4 with numEllipsoids := 2, maxNumNeigh := 3, maxNeighbourDist := 5 } 1 KdTree.Example.sortingPop
    (createEventTree nth4 (catalog tens cat4)) byNumber Clusters.Example.head (catalog tens cat4)) =
    (findClusters Selection.Example.geo { cfg4 with numEllipsoids := 2, maxNumNeigh := 3, maxNeighbourDist := 5 } 1 KdTree.Example.sortingPop
      (createEventTree nth4 cat4) byNumber Clusters.Example.head cat4).map (List.map (cluster tens)) :=
  clusters_renumbered tens_mono (fun _ _ => rfl) _ 1 KdTree.Example.sortingPop nth4 (byNumber_ren tens_mono) (head_ren tens) cat4

/-- the background events 1 and 2 and the given event 7 get the numbers 13, 23 and 73 -/
def setup' : SingleEvent.Setup ℚ :=
  { SingleEvent.Example.setup with
    tree := createEventTree nth4 Relocate.Example.cat
    solve := { Relocate.Example.single with xcorr := fun _ _ => .ok [], sol := mover } }

theorem renumbered : ∃ f, StrictMono f ∧
    SingleEvent.relocateEvent { setup' with tree := createEventTree nth4 (catalog tens Relocate.Example.cat) } (catalog tens Relocate.Example.cat)
        (catalog tens (SingleEvent.Example.given 7)) true =
      (SingleEvent.relocateEvent setup' Relocate.Example.cat (SingleEvent.Example.given 7) true).map (result f) := by
  obtain ⟨f, h1, h2, -⟩ := single_event_renumbered tens_mono (u := setup') nth4 rfl (fun _ _ => rfl) (fun f _ => env_ignores f)
    (fun f hf => mover_ignores hf) (fun _ _ _ _ => rfl) Relocate.Example.cat_sound
    (fun e => ⟨by intro x _; unfold setup' SingleEvent.Example.setup Selection.Example.geo KdTree.Example.chebyshev; positivity,
      fun _ _ _ => abs_nonneg _, fun _ _ _ _ _ _ => abs_nonneg _⟩)
    (by decide +kernel) SingleEvent.Example.given_sound true
  exact ⟨f, h1, h2⟩

/-- the given event is relocated, under the numbers 3 and 24 -/
example : (∃ res log, SingleEvent.relocateEvent setup' Relocate.Example.cat (SingleEvent.Example.given 7) true = .ok (res, log) ∧
      Relocate.Example.seen res = [⟨3, 48, 32000000, true⟩]) ∧
    ∃ res log, SingleEvent.relocateEvent { setup' with tree := createEventTree nth4 (catalog tens Relocate.Example.cat) }
        (catalog tens Relocate.Example.cat) (catalog tens (SingleEvent.Example.given 7)) true = .ok (res, log) ∧
      Relocate.Example.seen res = [⟨24, 48, 32000000, true⟩] := by
  have h : ∀ (x : Outcome (Catalog ℚ × List (IterLog ℚ))) (l : List Relocate.Example.Seen),
      (match x with | .ok y => decide (Relocate.Example.seen y.1 = l) | _ => false) = true →
      ∃ res log, x = .ok (res, log) ∧ Relocate.Example.seen res = l := by
    intro x l hx
    match x, hx with
    | .ok (res, log), hx => exact ⟨res, log, rfl, of_decide_eq_true hx⟩
  exact ⟨h _ _ (by decide +kernel), h _ _ (by decide +kernel)⟩

end Example

end Verif.Renumber
