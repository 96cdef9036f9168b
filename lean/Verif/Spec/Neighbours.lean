import Verif.Model.Neighbours

/-!
# What a list of neighbours remembers (specification of C79)
-/

namespace Verif.Neighbours.Spec

/-- a call that changes a list of neighbours -/
inductive Op where
  | add (id : Nat) (sp : StaPhase)
  | remove (id : Nat)

/-- the list after the call -/
def apply (n : Neighbours) : Op → Neighbours
  | .add id sp => n.add id sp
  | .remove id => n.remove id

/-- the list after all the calls, starting with an empty one -/
def run (refId : Nat) (ops : List Op) : Neighbours := ops.foldl apply (Neighbours.empty refId)

/-- The phase of the neighbour was added, and the neighbour was not removed after that. -/
def Recorded (ops : List Op) (id : Nat) (sp : StaPhase) : Prop :=
  ∃ pre post, ops = pre ++ .add id sp :: post ∧ .remove id ∉ post

end Verif.Neighbours.Spec
