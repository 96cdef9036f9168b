import Verif.Model.RealSolver
import Verif.Proofs.RelocateTotalMulti
import Verif.Props.Solver
import Verif.Props.SolveDD

/-! Helper lemmas for C101 and C102: the solver of a relocation. -/

set_option linter.unusedSectionVars false
set_option linter.unusedSimpArgs false

namespace Verif.Relocate
open Verif.Catalog Verif.Solver Verif.LeastSquares

/-- the containers are visited completely -/
structure SolverSetup.Visits (su : SolverSetup) : Prop where
  obs : ∀ m, (su.visitObs m).Perm m
  params : ∀ m, (su.visitParams m).Perm m

theorem prepared_total {su : SolverSetup} (hv : su.Visits) {ops : List (SolverOp ℝ)} (h1 : Fits ops) (h2 : NoSeparator ops)
    (h3 : Complete ops) (absLoc down : ℝ) : ∃ p, su.prepared ops absLoc down = .ok p := by
  rcases system_prepared ops h1 h2 h3 su.nth absLoc down _ _ (hv.obs _) (hv.params _) with ⟨p, h, -⟩ | ⟨h, -⟩
  · exact ⟨_, h⟩
  · exact ⟨_, h⟩

theorem realSolver_prepares {su : SolverSetup} (hv : su.Visits) (so : SolverOptions ℝ) : Prepares (realSolver su so) := by
  intro it ops absLoc down h1 h2 h3
  obtain ⟨p, hp⟩ := prepared_total hv h1 h2 h3 absLoc down
  obtain ⟨L, hL, -⟩ := first_observation_wins_partial ops h1 h2 _ (hv.obs _)
  unfold realSolver
  simp only [hp, Outcome.bind_ok, hL]
  split <;> rfl

end Verif.Relocate
