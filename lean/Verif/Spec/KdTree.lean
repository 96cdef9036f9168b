import Verif.Model.KdTree

/-!
# What a spatial index must do (specification for C23–C26)
-/

set_option linter.unusedSectionVars false
set_option linter.unusedSimpArgs false

namespace Verif.KdTree
variable {C K : Type} [LinearOrder C] [LinearOrder K]

/-! ## Specification -/

/-- points stored in a tree -/
def contents : KdNode → List Nat
  | .nil => []
  | .node idx _ l r => contents l ++ idx :: contents r

/-- Every node separates its two sub-trees along its axis; the axes cycle with the depth. -/
def Ordered (pt : Nat → Pt C) : Nat → KdNode → Prop
  | _, .nil => True
  | depth, .node idx axis l r =>
    axis = depth % 3 ∧
    (∀ i ∈ contents l, coord axis (pt i) ≤ coord axis (pt idx)) ∧
    (∀ i ∈ contents r, coord axis (pt idx) ≤ coord axis (pt i)) ∧
    Ordered pt (depth + 1) l ∧ Ordered pt (depth + 1) r

/-- The axis distance to the splitting point `c` never exceeds the distance to a point `p` on the
other side. -/
def Admissible (dist : Pt C → Pt C → K) (axisDist : Nat → Pt C → Pt C → K) (q : Pt C) (S : List (Pt C)) : Prop :=
  ∀ axis < 3, ∀ c ∈ S, ∀ p ∈ S,
    (coord axis q < coord axis c ∧ coord axis c ≤ coord axis p) ∨
    (coord axis p ≤ coord axis c ∧ coord axis c ≤ coord axis q) →
      axisDist axis c q ≤ dist p q

/-- the points with their distance, for a list of indices -/
def withDist (pt : Nat → Pt C) (dist : Pt C → Pt C → K) (q : Pt C) (l : List Nat) : List (K × Nat) :=
  l.map (fun i => (dist (pt i) q, i))

/-- sorted by distance -/
def Sorted (l : List (K × Nat)) : Prop := l.Pairwise (fun a b => a.1 ≤ b.1)

/-- `queue` holds the `k` nearest of `all` (all of them if there are fewer), sorted. -/
def IsNearest (k : Nat) (all queue : List (K × Nat)) : Prop :=
  Sorted queue ∧ queue.length = min k all.length ∧
  ∃ rest, (queue ++ rest).Perm all ∧ ∀ x ∈ queue, ∀ y ∈ rest, x.1 ≤ y.1

/-- Deliver points one by one until the visitor stops. -/
def deliver {S : Type} (visit : S → Nat → K → S × Bool) : List (K × Nat) → S → S
  | [], s => s
  | (d, idx) :: l, s => if (visit s idx d).2 then (visit s idx d).1 else deliver visit l (visit s idx d).1

end Verif.KdTree
