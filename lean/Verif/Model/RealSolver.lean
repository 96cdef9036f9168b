import Verif.Model.Relocate
import Verif.Model.SolveDD

/-!
# Model of the solver used by a relocation (libs/hdd/dd.cpp:732-764, libs/hdd/solver.cpp:591-897)

The parts are those of `Verif.Model.Solver` (preparation and results) and `Verif.Model.SolveDD` (the two solvers);
here they are put together into what `relocate` sees: `prepare`, `solve`, `getEventChanges` and `isEventPhaseUsed`.
Real numbers, no rounding.  Where the C++ code goes on with weights or scaling factors that are not numbers, the
answer is a parameter.  Logging is left out.
-/

namespace Verif.Relocate
open Verif.LeastSquares

/-- What the solver is told by its options (dd.cpp:696, :756-757), and what the model leaves open: the effect of
`std::nth_element`, the iteration orders of the two containers, and the answers for values that are not numbers. -/
structure SolverSetup where
  /-- `solverOpt.type`; `none` is a name other than LSQR and LSMR -/
  method : Option Method
  /-- `solverOpt.solverIterations` -/
  iterations : Nat
  /-- `solverOpt.L2normalization` -/
  normalize : Bool
  nth : NthElement (id : ℝ → ℝ)
  visitObs : AMap Nat (Obs ℝ) → List (Nat × Obs ℝ)
  visitParams : AMap (Nat × Nat) (ObsParams ℝ) → List ((Nat × Nat) × ObsParams ℝ)
  /-- `solve` when a weight or a scaling factor is not a number -/
  odd : Nat → List (SolverOp ℝ) → Option (Answer ℝ)

/-- solver.cpp:74-116: a column used by an observation with a weight other than zero has the norm zero; the products with its
scaling factor, an infinity, are not numbers -/
def degenerate (dd : DDSystem ℝ) : Prop :=
  ∃ r < dd.numRows, dd.W r ≠ 0 ∧ ∃ e k, k < 4 ∧ (dd.ev1 r = some e ∨ dd.ev2 r = some e) ∧ dd.colSq (e * 4 + k) = 0

/-- `prepare` for the calls `ops`, solver.cpp:591-812 -/
noncomputable def SolverSetup.prepared (su : SolverSetup) (ops : List (SolverOp ℝ)) (absLoc down : ℝ) :
    Outcome (Option (Solver.Prepared ℝ)) :=
  (Solver.run ops).prepare su.nth absLoc down (su.visitObs (Solver.run ops).observations) (su.visitParams (Solver.run ops).obsParams)

/-- solver.cpp:408-425, as numbers -/
def changesOf (s : Solver ℝ) (deltas : AMap Nat (Solver.Delta ℝ)) (k : Nat) : Option (Change ℝ) :=
  match s.getEventChanges deltas k with
  | some ⟨.num x, .num y, .num z, .num t⟩ => some ⟨x, y, z, t⟩
  | _ => none

/-- solver.cpp:891-896 with :449-505, and what can be asked afterwards (:408-447). `m` is the solution vector. -/
noncomputable def answerOf (s : Solver ℝ) (p : Solver.Prepared ℝ) (m : Nat → ℝ) : Option (Answer ℝ) :=
  let deltas := Solver.loadSolutions p.stats (fun c => .num (m c))
  if deltas.isEmpty then none
  else some ⟨changesOf s deltas, fun k sta ph => s.isEventPhaseUsed p.stats k sta.toList ph.toList⟩

open Classical in
/-- `solve` after `prepare`, solver.cpp:814-897; `none` is an exception. The solvers end (`solver_limit`). -/
noncomputable def SolverSetup.solved (su : SolverSetup) (it : Nat) (ops : List (SolverOp ℝ)) (p : Solver.Prepared ℝ) (damping : ℝ) :
    Option (Answer ℝ) :=
  if (Solver.run ops).observations.isEmpty then none
  else
    match su.method with
    | none => none
    | some method =>
      if su.normalize ∧ degenerate p.dd then su.odd it ops
      else
        match solveDD method p.dd su.iterations damping su.normalize with
        | .ok (_, m) => answerOf (Solver.run ops) p m
        | _ => none

/-- The solver of a relocation with options `so`, dd.cpp:732-764: `prepare` together with the double differences that
are fetched in the first and in the last iteration (dd.cpp:734-747), and `solve`, which works on the system of the last
`prepare`, whose parameters are those of the same iteration. -/
noncomputable def realSolver (su : SolverSetup) (so : SolverOptions ℝ) : SolverAnswers ℝ where
  prepare it ops absLoc down := do
    let _ ← su.prepared ops absLoc down
    if it = 0 ∨ it = so.algoIterations then do
      let _ ← (Solver.run ops).getDoubleDifferences (su.visitObs (Solver.run ops).observations)
      .ok ()
    else .ok ()
  solve it ops damping :=
    match su.prepared ops (interpolate so.algoIterations it so.absLocConstraintStart so.absLocConstraintEnd)
      (interpolate so.algoIterations it so.downWeightingByResidualStart so.downWeightingByResidualEnd) with
    | .ok (some p) => su.solved it ops p damping
    | .ok none => su.odd it ops
    | _ => none

end Verif.Relocate
