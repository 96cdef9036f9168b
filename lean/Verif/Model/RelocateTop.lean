import Verif.Model.Relocate

/-! Model of single-event relocation (libs/hdd/dd.cpp:528-650) from the selected neighbours on. -/

namespace Verif.Relocate
open Verif.Catalog

variable {K : Type} [Field K] [LinearOrder K]

/-- `r.add(id, o, true)` -/
def copyStep (o : Catalog K) (r : Catalog K) (id : Nat) : Outcome (Catalog K) :=
  match r.addFrom id o true with
  | (r', .ok _) => .ok r'
  | (_, .throws) => .throws
  | (_, .ub) => .ub

/-- clustering.cpp:167-180, without the reference event -/
def toCatalog (nb : Neighbours) (cat : Catalog K) : Outcome (Catalog K) :=
  nb.ids.foldlM (copyStep cat) Catalog.init

/-- dd.cpp:605-608: the catalog of the neighbours and the event to relocate, and its new id -/
def singleEventCatalog (bg evCat : Catalog K) (evId : Nat) (nb : Neighbours) : Outcome (Catalog K × Nat) := do
  let c ← toCatalog nb bg
  match c.addFrom evId evCat false with
  | (c', .ok n) => .ok (c', n)
  | (_, .throws) => .throws
  | (_, .ub) => .ub

/-- What single-event relocation uses besides the catalogs. -/
structure SingleArgs (K : Type) where
  env : Env K
  so : SolverOptions K
  usePickUncertainties : Bool
  xcorrWeightScaler : K
  minCoef : PhaseType → Option K
  xcorr : Catalog K → Cluster → Outcome XCorr.Cache
  sol : SolverAnswers K
  minNumNeigh : Nat

/-- The arguments of `relocate` in single-event mode, dd.cpp:617-632. -/
def SingleArgs.toArgs (s : SingleArgs K) (xc : XCorr.Cache) (nb : Neighbours) (newId : Nat) : Args K :=
  ⟨s.env, s.so, ⟨true, s.usePickUncertainties, s.xcorrWeightScaler, s.minCoef⟩, xc,
    [(newId, { nb with refId := newId })], s.sol⟩

/-- dd.cpp:593-650: `bg` is the background catalog, `evCat` the catalog with the event to relocate
(after `fillProcessingInfo`), `nb` its selected neighbours. With too few neighbours the message is
built by adding the number to a pointer to a text of 33 characters (dd.cpp:598), which reads outside
of it for larger numbers. Not modelled: files written when processing data are saved. -/
def relocateSingleEvent (s : SingleArgs K) (bg evCat : Catalog K) (evId : Nat) (nb : Neighbours) :
    Outcome (Catalog K × List (IterLog K)) :=
  if nb.amount < s.minNumNeigh then
    if nb.amount ≤ 33 then .ok (Catalog.init, []) else .ub
  else do
    let (cat, newId) ← singleEventCatalog bg evCat evId nb
    let xc ← s.xcorr cat [(newId, { nb with refId := newId })]
    relocate (s.toArgs xc nb newId) cat

end Verif.Relocate
