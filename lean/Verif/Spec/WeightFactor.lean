import Verif.Model.XCorrBuild
import Verif.Model.RealSolver
import Mathlib.Data.Real.Basic

/-!
# What it means that all weights are multiplied by the same factor (specification of C136)

`c` is the factor. `κ` is the new class weight of a phase, as a function of the old one.
-/

namespace Verif.Weights
open Verif.Catalog Verif.Relocate

/-- What the solver is told, with the weight of the observation multiplied. -/
def call (c : ℝ) : SolverOp ℝ → SolverOp ℝ
  | .obs o => .obs { o with weight := c * o.weight }
  | op => op

/-- An observation of the solver with its weight multiplied. -/
def obs (c : ℝ) (o : Obs ℝ) : Obs ℝ := { o with weight := c * o.weight }

/-- The order in which the observations are visited does not depend on their weights. -/
def VisitsAlike (c : ℝ) (su : SolverSetup) : Prop :=
  ∀ m : AMap Nat (Obs ℝ), su.visitObs (m.map (fun x => (x.1, obs c x.2))) = (su.visitObs m).map (fun x => (x.1, obs c x.2))

/-- A phase with another class weight; the weight it was given by a relocation is multiplied. -/
def phase (c : ℝ) (κ : ℝ → ℝ) (p : Phase ℝ) : Phase ℝ := { p with classWeight := κ p.classWeight, weight := c * p.weight }

/-- The same catalog with other weights: stations and events are the same. -/
def catalog (c : ℝ) (κ : ℝ → ℝ) (cat : Catalog ℝ) : Catalog ℝ :=
  { cat with phases := cat.phases.map (fun kp => (kp.1, phase c κ kp.2)) }

/-- What an iteration did, with other weights: the same answer of the solver. -/
def log (c : ℝ) (κ : ℝ → ℝ) (l : IterLog ℝ) : IterLog ℝ :=
  { l with before := catalog c κ l.before, after := catalog c κ l.after, ops := l.ops.map (call c) }

/-- The result of a relocation, with other weights. -/
def result (c : ℝ) (κ : ℝ → ℝ) (x : Catalog ℝ × List (IterLog ℝ)) : Catalog ℝ × List (IterLog ℝ) :=
  (catalog c κ x.1, x.2.map (log c κ))

/-- The weight of a pick: its class weight, or 1 if pick uncertainties are not used. -/
def pickWeight (usePickUncertainties : Bool) (classWeight : ℝ) : ℝ := if usePickUncertainties then classWeight else 1

/-- With the setting `u'` and the new class weights every pick weighs `c` times what it weighed with the setting `u`. -/
def Multiplied (c : ℝ) (κ : ℝ → ℝ) (u u' : Bool) : Prop := ∀ x, pickWeight u' (κ x) = c * pickWeight u x

/-- The solver does not depend on a common factor of the weights. -/
structure SolverIgnores (c : ℝ) (sol : SolverAnswers ℝ) : Prop where
  prepare : ∀ it ops absLoc down, sol.prepare it (ops.map (call c)) absLoc down = sol.prepare it ops absLoc down
  solve : ∀ it ops damping, sol.solve it (ops.map (call c)) damping = sol.solve it ops damping

/-- The correlation of two waveforms does not depend on the weights of the picks. -/
def XcorrIgnores (c : ℝ) (κ : ℝ → ℝ) (x : XcorrArgs ℝ) : Prop :=
  ∀ n e p f q, x.correlate n e (phase c κ p) f (phase c κ q) = x.correlate n e p f q

/-- A call of the cross-correlation, with other weights: the same result. -/
def asked (c : ℝ) (κ : ℝ → ℝ) (x : XcorrCall ℝ) : XcorrCall ℝ := { x with refPhase := phase c κ x.refPhase, phase := phase c κ x.phase }

/-- The result of a multi-event relocation, with other weights. -/
def multi (c : ℝ) (κ : ℝ → ℝ) (s : MultiState ℝ) : MultiState ℝ :=
  { s with
    reloc := catalog c κ s.reloc
    calls := s.calls.map (asked c κ)
    done := s.done.map (fun d => (d.1, result c κ d.2)) }

end Verif.Weights
