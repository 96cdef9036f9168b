import Verif.Model.Neighbours
import Mathlib.Logic.Relation

/-!
# Specification of C32 and C33: the graph of neighbours
-/

namespace Verif.Clusters

/-- every event is filed under its own id, once -/
structure WF (G : AMap Nat Neighbours) : Prop where
  unique : G.NodupKeys
  key : ∀ id n, G.find? id = some n → n.refId = id

/-- event `b` is listed as neighbour of event `a` -/
def Lists (G : AMap Nat Neighbours) (a b : Nat) : Prop := ∃ n, G.find? a = some n ∧ b ∈ n.ids

/-- … and `b` is one of the events to be clustered -/
def Edge (G : AMap Nat Neighbours) (a b : Nat) : Prop := b ∈ G.keys ∧ Lists G a b

/-- a chain of neighbour relations, in any direction, joins the events -/
def Linked (G : AMap Nat Neighbours) : Nat → Nat → Prop := Relation.EqvGen (Edge G)

end Verif.Clusters
