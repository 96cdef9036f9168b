import Verif.Model.Selection
import Verif.Model.RelocateTop

/-! Model of single-event relocation (libs/hdd/dd.cpp:534-650) from the event given by the caller to the catalog returned. -/

namespace Verif.SingleEvent
open Verif.Catalog

variable {K : Type} [Field K] [LinearOrder K]

/-- What single-event relocation uses besides the catalogs: the geometry, the clustering options but for the minimum number
of neighbours, the index of the background catalog, the names of the phases to use, the weight of a pick with a lower and an
upper uncertainty, and what the relocation itself needs. -/
structure Setup (K : Type) [LinearOrder K] where
  geo : Selection.Geometry K
  cfg : Selection.Config K
  pop : KdTree.Pop K
  tree : Selection.EventTree K
  validP : List String
  validS : List String
  pickWeight : K → K → K
  solve : Relocate.SingleArgs K

/-- dd.cpp:575-579 -/
def prepare (u : Setup K) (single : Catalog K) (isManual : Bool) : Catalog K :=
  single.fillProcessingInfo (if isManual then .rtEventManual else .rtEventAutomatic) u.validP u.validS
    (fun p => u.pickWeight p.lowerUncertainty p.upperUncertainty)

/-- dd.cpp:575-650. The first event of the given catalog is relocated (:582); without an event a reference to nothing is
used. Not modelled: files written when processing data are saved. -/
def relocateEvent (u : Setup K) (bg single : Catalog K) (isManual : Bool) :
    Outcome (Catalog K × List (Relocate.IterLog K)) :=
  match (prepare u single isManual).eventsSorted with
  | [] => .ub
  | kv :: _ =>
    match Selection.selectNeighbours u.geo u.cfg bg kv.2 (prepare u single isManual) u.pop u.tree with
    | .throws => .throws
    | .ub => .ub
    | .ok nb => Relocate.relocateSingleEvent u.solve bg (prepare u single isManual) kv.2.id nb

end Verif.SingleEvent
