import Verif.Proofs.SelectionFails
import Verif.Props.CatalogSelection

/-!
# C28, C31: how a selection of neighbours can fail
-/

set_option linter.unusedSectionVars false

namespace Verif.Selection
open Verif.Catalog

variable {K : Type} [Field K] [LinearOrder K] [IsStrictOrderedRing K]
variable {g : Geometry K} {cfg : Config K} {cat : Catalog K} {refEv : Event K} {refCat : Catalog K}

/-- **C28** A selection that does not return a result ends with an exception, and only if the station of some phase is not known. -/
theorem selection_fails_cleanly (pop : KdTree.Pop K) (t : EventTree K) (ht : t.WF) :
    (∃ nb, selectNeighbours g cfg cat refEv refCat pop t = .ok nb) ∨
    selectNeighbours g cfg cat refEv refCat pop t = .throws ∧ ∃ kp ∈ cat.phases, cat.stations.find? kp.2.stationId = none := by
  have he := selectNeighbours_endsIn (g := g) (cfg := cfg) (refEv := refEv) (refCat := refCat) (cat := cat) ⟨rfl, fun _ h => h⟩ pop t ht
  cases h : selectNeighbours g cfg cat refEv refCat pop t with
  | ok nb => exact .inl ⟨nb, rfl⟩
  | throws => exact .inr ⟨rfl, he.2 h⟩
  | ub => exact (he.of_ub h).elim

/-- **C31** The selection for a whole catalog returns a result or ends with an exception, whatever the phases of the
catalog, the geometry and the iteration order: the loop ends, and an event that is looked up again is still in the
catalog.  It is an exception only if the station of some phase is not known. -/
theorem catalog_selection_fails_cleanly (pop : KdTree.Pop K) (t : EventTree K) (ht : t.WF) (minNumNeigh : Nat)
    (hu : cat.events.NodupKeys) (hk : ∀ id e, cat.events.find? id = some e → e.id = id)
    (order : AMap Nat Neighbours → List (Nat × Neighbours)) (ho : ∀ m, (order m).Perm m) :
    (∃ res, selectCatalog g cfg minNumNeigh pop t order cat = .ok res) ∨
    selectCatalog g cfg minNumNeigh pop t order cat = .throws ∧ ∃ kp ∈ cat.phases, cat.stations.find? kp.2.stationId = none := by
  cases h : selectCatalog g cfg minNumNeigh pop t order cat with
  | ok res => exact .inl ⟨res, rfl⟩
  | throws => exact .inr ⟨rfl, (selectCatalog_ends ht hu hk order ho).2 h⟩
  | ub => exact ((selectCatalog_ends ht hu hk order ho).of_ub h).elim

end Verif.Selection

namespace Verif.Selection.Example
open Verif.Catalog
/-- the catalog of the example without its stations: the selection throws, in both modes -/
def catNoStations : Catalog ℚ := { cat with stations := [] }

theorem selection_throws :
    selectNeighbours geo cfg catNoStations ref catNoStations KdTree.Example.sortingPop tree = .throws ∧
    selectNeighbours geo cfgE catNoStations ref catNoStations KdTree.Example.sortingPop tree = .throws := by
  constructor <;> decide +kernel

example := selection_fails_cleanly (g := geo) (cfg := cfgE) (cat := catNoStations) (refEv := ref) (refCat := catNoStations)
  KdTree.Example.sortingPop tree treeWF
example := catalog_selection_fails_cleanly (g := geo) (cfg := cfg) (cat := catNoStations) KdTree.Example.sortingPop tree treeWF 1
  (by unfold AMap.NodupKeys; decide +kernel) eventKeys (fun m => m) (fun _ => .refl _)

theorem catalog_selection_throws :
    selectCatalog geo cfg 1 KdTree.Example.sortingPop tree (fun m => m) catNoStations = .throws := by decide +kernel
end Verif.Selection.Example
