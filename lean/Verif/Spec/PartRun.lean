import Verif.Model.XCorrBuild
import Verif.Spec.RelocateOrder
import Verif.Spec.SelectionOrder
import Verif.Spec.SingleOrder
import Verif.Spec.Relocate

/-!
# Specification vocabulary for C132: relocating a part of a catalog

`S` says which events belong to the part.
-/

namespace Verif.Relocate
open Verif.Catalog

variable {K : Type}

/-- The catalogs have the same events of the part with the same picks, and the same stations. -/
structure AgreeOn (S : Nat → Bool) (c c' : Catalog K) : Prop where
  events : ∀ k, S k = true → c.events.find? k = c'.events.find? k
  phases : ∀ k, S k = true → c.phasesOf k = c'.phasesOf k
  stations : ∀ s, c.stations.find? s = c'.stations.find? s

/-- The events of the cluster and all their neighbours belong to the part. -/
def Within (S : Nat → Bool) (cl : Cluster) : Prop :=
  ∀ kv ∈ cl, S kv.1 = true ∧ S kv.2.refId = true ∧ ∀ n ∈ kv.2.ids, S n = true

/-- Two iterations doing exactly the same to the events of the part. -/
structure SameStepOn (S : Nat → Bool) (l l' : IterLog K) : Prop where
  before : AgreeOn S l.before l'.before
  after : AgreeOn S l.after l'.after
  damping : l.damping = l'.damping
  downWeighting : l.downWeighting = l'.downWeighting
  absLoc : l.absLoc = l'.absLoc
  ops : l.ops = l'.ops
  reverted : l.reverted = l'.reverted
  answer : l.answer = l'.answer

/-- Both calls end the same way; if they return, they return the same catalog after iterations that did the same to the events of
the part. -/
def SameResultOn (S : Nat → Bool) : Outcome (Catalog K × List (IterLog K)) → Outcome (Catalog K × List (IterLog K)) → Prop
  | .ok x, .ok y => x.1 = y.1 ∧ List.Forall₂ (SameStepOn S) x.2 y.2
  | .throws, .throws => True
  | .ub, .ub => True
  | _, _ => False

/-- The correlation results are the same for pairs of events of the part. -/
def SameResultsOn (S : Nat → Bool) (x y : XCorr.Cache) : Prop :=
  ∀ a b, S a = true → S b = true → a ≠ b → ∀ s p, XCorr.get x a b s p = XCorr.get y a b s p

/-- every cluster belongs to the part with all its neighbours, or no event of it nor a neighbour does -/
def Split (S : Nat → Bool) (cls : List Cluster) : Prop := ∀ cl ∈ cls, Within S cl ∨ (cl ≠ [] ∧ Within (fun k => !S k) cl)

/-- the clusters of the part -/
def ofPart (S : Nat → Bool) (cls : List Cluster) : List Cluster := cls.filter (fun cl => cl.all (fun kv => S kv.1))

end Verif.Relocate
