import Verif.Model.SingleEvent
import Verif.Spec.RelocateOrder
import Verif.Spec.SelectionOrder

/-!
# Specification vocabulary for C131: single-event relocations with the same data
-/

namespace Verif.Relocate
open Verif.Catalog

variable {K : Type}

/-- Two iterations doing exactly the same with the same data: the same calls to the solver in the same order, the same
parameters, the same events restored, the same answer. -/
structure SameStep (l l' : IterLog K) : Prop where
  before : SameCatalog l.before l'.before
  after : SameCatalog l.after l'.after
  damping : l.damping = l'.damping
  downWeighting : l.downWeighting = l'.downWeighting
  absLoc : l.absLoc = l'.absLoc
  ops : l.ops = l'.ops
  reverted : l.reverted = l'.reverted
  answer : l.answer = l'.answer

/-- Both calls end the same way; if they return, they return the same catalog after the same iterations. -/
def SameResult : Outcome (Catalog K × List (IterLog K)) → Outcome (Catalog K × List (IterLog K)) → Prop
  | .ok x, .ok y => x.1 = y.1 ∧ List.Forall₂ SameStep x.2 y.2
  | .throws, .throws => True
  | .ub, .ub => True
  | _, _ => False

/-- If one of the calls returns, so does the other, with the same catalog after the same iterations. -/
def SameReturn (x y : Outcome (Catalog K × List (IterLog K))) : Prop :=
  (∀ r log, x = .ok (r, log) → ∃ log', y = .ok (r, log') ∧ List.Forall₂ SameStep log log') ∧
  ∀ r log', y = .ok (r, log') → ∃ log, x = .ok (r, log) ∧ List.Forall₂ SameStep log log'

/-- What the cross-correlation of an event with its neighbours finds does not depend on where the data are stored, nor on the order
of the neighbours. -/
def OrderBlind (xcorr : Catalog K → Cluster → Outcome XCorr.Cache) : Prop :=
  ∀ c c' nb nb', c.Sound → c'.Sound → SameCatalog c c' → Selection.SameNeighbours nb nb' → nb.ids.Nodup → nb.refId ∉ nb.ids →
    ∀ x, xcorr c [(nb.refId, nb)] = .ok x →
      ∃ y, xcorr c' [(nb.refId, nb')] = .ok y ∧ ∀ a b s p, XCorr.get x a b s p = XCorr.get y a b s p

/-- The same pairs of every event, the events in the same order. -/
def SamePairs (cl cl' : Cluster) : Prop :=
  List.Forall₂ (fun x y => x.1 = y.1 ∧ x.2.refId = y.2.refId ∧ x.2.phases.Perm y.2.phases) cl cl'

end Verif.Relocate
