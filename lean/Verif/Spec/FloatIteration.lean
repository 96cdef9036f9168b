import Verif.Model.FloatSolve
import Verif.Spec.Iteration

/-!
# The answers left open by the model of the solver (specification of C119 in a relocation)
-/

namespace Verif.FloatSolve
open Verif.Iteration

/-- The answers that `SolverSetup` leaves open are those of the solver that works with numbers, infinities and NaN: with a residual
weight that is not a number it gives up (C119f), with an infinite scaling factor it computes what it computes. Every setup can be
completed in this way (`faithful_exists`). -/
structure Faithful (su : Relocate.SolverSetup) (so : Relocate.SolverOptions ℝ) : Prop where
  weights : ∀ it ops, su.prepared ops (goalAt su so it).absLoc (goalAt su so it).down = .ok none → su.odd it ops = none
  scaling : ∀ it ops p, su.prepared ops (goalAt su so it).absLoc (goalAt su so it).down = .ok (some p) → su.normalize = true →
    Relocate.degenerate p.dd → su.odd it ops = floatSolved su ops p (goalAt su so it).damp

end Verif.FloatSolve
