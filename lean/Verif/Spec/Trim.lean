import Verif.Props.Selection
import Verif.Spec.SelectionOrder

/-!
# Specification vocabulary for C130: events that may be left out of a catalog
-/

set_option linter.unusedSectionVars false

namespace Verif.Selection
open Verif.Catalog
variable {K : Type} [Field K] [LinearOrder K] [IsStrictOrderedRing K]

/-- The event `e` of the catalog is of no use to the reference event: it lies out of reach, or it has not enough usable phases. -/
def OfNoUse (g : Geometry K) (cfg : Config K) (cat : Catalog K) (refEv : Event K) (refCat : Catalog K) (e : Event K) : Prop :=
  InReach g cfg (eventPt refEv) (eventPt e) → ¬ Eligible g cfg cat refEv refCat e.id (g.dist (eventPt e) (eventPt refEv))

end Verif.Selection
