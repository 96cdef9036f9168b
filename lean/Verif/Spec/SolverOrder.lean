import Verif.Spec.Solver

/-!
# Specification vocabulary for C107: the same calls in another order
-/

namespace Verif.Solver
variable {K : Type}

/-- The same calls, in any order and any number of times. -/
def SameCalls (ops ops' : List (SolverOp K)) : Prop := ∀ op, op ∈ ops ↔ op ∈ ops'

/-- Nothing is given twice with different values: an observation is known by its two events, station and phase,
observation parameters by event, station and phase. -/
structure Unambiguous (ops : List (SolverOp K)) : Prop where
  obs : ∀ o o', .obs o ∈ ops → .obs o' ∈ ops → o.e1 = o'.e1 → o.e2 = o'.e2 → o.sta = o'.sta → o.phase = o'.phase → o = o'
  params : ∀ p p', .params p ∈ ops → .params p' ∈ ops → p.ev = p'.ev → p.sta = p'.sta → p.phase = p'.phase → p = p'

end Verif.Solver
