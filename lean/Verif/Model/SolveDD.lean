import Verif.Model.DDSystem
import Verif.Model.Lsqr
import Verif.Model.Lsmr

/-!
# Model of `Solver::_solve` (libs/hdd/solver.cpp:814-897) up to `loadSolutions`

Real numbers, no rounding.  The adapter (solver.cpp:49-239) and the normalisation are those of
`Verif.Model.DDSystem`, the solvers those of `Verif.Model.Lsqr` and `Verif.Model.Lsmr`.  Logging is left out.
-/

namespace Verif.LeastSquares

/-- The first elements of an array. -/
def first {K : Type} (n : Nat) (x : Nat → K) : Fin n → K := fun i => x i

/-- An array with the given elements; what lies behind is never read. -/
def array {K : Type} [Zero K] {n : Nat} (x : Fin n → K) : Nat → K := fun i => if h : i < n then x ⟨i, h⟩ else 0

/-- `Adapter<T>::Aprod1` and `Aprod2`, solver.cpp:140-238, as the solver sees them. It calls them with the sizes it
was given, `numRowsG` and `numColsG` (solver.cpp:869), so the size check does not fail. -/
noncomputable def ddProducts (dd : DDSystem ℝ) : Products dd.numRows dd.numCols ℝ where
  aprod1 x y := first _ (dd.aprod1 (array x) (array y))
  aprod2 x y := first _ (dd.aprod2 (array x) (array y))

/-- `_type`, solver.cpp:829-843 -/
inductive Method where
  | lsqr
  | lsmr
deriving DecidableEq

/-- `1e-30`, lsqr.cpp:556 -/
noncomputable def tiny30 : ℝ := 1 / 10 ^ 30

/-- `1e+100`, lsmr.cpp:387 -/
noncomputable def big100 : ℝ := 10 ^ 100

/-- `sqrt`, `abs` and the constant, for real numbers -/
noncomputable def realFns : Fns ℝ := ⟨Real.sqrt, fun x => |x|, tiny30⟩

/-- solver.cpp:857-864. `std::numeric_limits<double>::epsilon()` is 2⁻⁵². -/
noncomputable def settings (numCols numIterations : Nat) (damp : ℝ) : Settings ℝ where
  damp := damp
  atol := 1 / 10 ^ 6
  btol := 1 / 10 ^ 6
  conlim := 1 / (10 * Real.sqrt (1 / 2 ^ 52))
  itnlim := if numIterations ≠ 0 then numIterations else numCols / 2

/-- What a run of a solver leaves: the stopping reason, the number of iterations (both are logged, solver.cpp:873-876)
and the solution. -/
structure Run (n : Nat) where
  reason : Nat
  iterations : Nat
  x : Fin n → ℝ

/-- solver.cpp:869 `solver.Solve(numRowsG, numColsG, d, m)`; the number of iterations allowed is the limit (at least
one), which is never exceeded (`lsqr_ends`, `lsmr_ends`). -/
noncomputable def runSolver (method : Method) (dd : DDSystem ℝ) (o : Settings ℝ) : Option (Run dd.numCols) :=
  match method with
  | .lsqr => (Lsqr.solve realFns (ddProducts dd) o (first _ dd.d) (max 1 o.itnlim)).map (fun s => ⟨s.istop, s.itn, s.x⟩)
  | .lsmr => (Lsmr.solve realFns (ddProducts dd) big100 o (first _ dd.d) (max 1 o.itnlim)).map (fun s => ⟨s.istop, s.itn, s.x⟩)

/-- `rejectStoppingReasons`, solver.cpp:829-838 -/
def rejected : Method → Nat → Bool
  | .lsqr, r => r == 4
  | .lsmr, r => r == 3 || r == 6

/-- solver.cpp:878-889: the stopping reason (logged) and the array `m`. A solver that does not end is `ub`; it cannot
happen. -/
noncomputable def deliver (method : Method) (a : DDSystem ℝ) (normalize : Bool) :
    Option (Run a.numCols) → Outcome (Nat × (Nat → ℝ))
  | none => .ub
  | some r =>
    if rejected method r.reason then .throws
    else .ok (r.reason, if normalize then a.l2denormalize (array r.x) else array r.x)

/-- solver.cpp:846-889 -/
noncomputable def solveDD (method : Method) (dd : DDSystem ℝ) (numIterations : Nat) (damp : ℝ) (normalize : Bool) :
    Outcome (Nat × (Nat → ℝ)) :=
  let a := dd.adapter
  let a := if normalize then a.l2normalize else a
  deliver method a normalize (runSolver method a (settings a.numCols numIterations damp))

end Verif.LeastSquares
