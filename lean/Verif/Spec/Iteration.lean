import Verif.Spec.Solver
import Verif.Model.RealSolver
import Mathlib.Analysis.SpecialFunctions.Sqrt
import Mathlib.Algebra.BigOperators.Group.Finset.Basic

/-!
# What one iteration of a relocation should minimise (specification of C102)

In terms of what the solver is told (observations with their time differences and weights, parameters with travel times,
residuals and derivatives) and of changes of the events. No indices, rows or columns.
-/

namespace Verif.Iteration
open Verif.Solver

/-- Changes of the events: to the east, to the north and up (km), and of the origin time (s). -/
abbrev Changes := Nat → Fin 4 → ℝ

/-- the observations that count: the first one for each pair of events, station and phase -/
def distinctObs (ops : List (SolverOp ℝ)) : List (ObsArg ℝ) := firstBy ObsArg.quad (obsOf ops)

/-- the parameters that count: the first ones for each event, station and phase -/
def distinctPars (ops : List (SolverOp ℝ)) : List (ParArg ℝ) := firstBy ParArg.triple (parOf ops)

/-- the events mentioned in a call -/
def mentioned : SolverOp ℝ → List Nat
  | .event id _ _ _ => [id]
  | .station _ _ _ _ => []
  | .obs o => [o.e1, o.e2]
  | .params p => [p.ev]

def events (ops : List (SolverOp ℝ)) : Finset Nat := (ops.flatMap mentioned).toFinset

/-- Change of the arrival time when the event changes by `c`; none for an event that is kept fixed. -/
def effect (q : ParArg ℝ) (c : Fin 4 → ℝ) : ℝ :=
  if q.free then q.dx * c 0 + q.dy * c 1 + q.dz * c 2 + c 3 else 0

/-- The same for the parameters given for an event, station and phase. -/
def effectAt (ops : List (SolverOp ℝ)) (δ : Changes) (ev : Nat) (sta phase : List Char) : ℝ :=
  match paramsOf ops ev sta phase with
  | some q => effect q (δ ev)
  | none => 0

/-- travel time given for an event, station and phase -/
def timeAt (ops : List (SolverOp ℝ)) (ev : Nat) (sta phase : List Char) : ℝ :=
  match paramsOf ops ev sta phase with
  | some q => q.tt
  | none => 0

/-- The double difference: observed minus computed difference of the travel times. -/
def residual (ops : List (SolverOp ℝ)) (o : ObsArg ℝ) : ℝ :=
  o.timeDiff - (timeAt ops o.e1 o.sta o.phase - timeAt ops o.e2 o.sta o.phase)

/-- What the changes predict for it. -/
def predicted (ops : List (SolverOp ℝ)) (δ : Changes) (o : ObsArg ℝ) : ℝ :=
  effectAt ops δ o.e1 o.sta o.phase - effectAt ops δ o.e2 o.sta o.phase

/-- The options of an iteration. -/
structure Goal where
  nth : NthElement (id : ℝ → ℝ)
  /-- weight of the absolute locations -/
  absLoc : ℝ
  /-- cut-off of the residual weights, none if zero -/
  down : ℝ
  normalize : Bool
  damp : ℝ

variable (g : Goal) (ops : List (SolverOp ℝ))

/-- median absolute deviation of the double differences -/
noncomputable def deviation : ℝ :=
  Stats.computeMAD g.nth ((distinctObs ops).map (residual ops))
    (Stats.computeMedian g.nth ((distinctObs ops).map (residual ops)))

/-- Weight of an observation: the given one, times a factor that decreases with the residual. -/
noncomputable def obsWeight (o : ObsArg ℝ) : ℝ :=
  o.weight * if 0 < g.down then max 0 (1 - (residual ops o / (g.down * deviation g ops / 0.67449)) ^ 2) ^ 2 else 1

/-- The weights, other than zero, of the observations that use the event, station and phase. -/
noncomputable def weightsOf (q : ParArg ℝ) : List ℝ :=
  (((distinctObs ops).filter (fun o => o.sta = q.sta ∧ o.phase = q.phase ∧ (o.e1 = q.ev ∨ o.e2 = q.ev))).map
    (obsWeight g ops)).filter (· ≠ 0)

/-- Weight of the travel-time residual of an event at a station: the weight of the absolute locations times the mean weight
of the observations (zero without such observations). -/
noncomputable def conWeight (q : ParArg ℝ) : ℝ :=
  if 0 < g.absLoc ∧ q.free then g.absLoc * ((weightsOf g ops q).sum / (weightsOf g ops q).length) else 0

/-- Sum of the squares of what the changes alone do to the weighted observations. -/
noncomputable def influence (δ : Changes) : ℝ :=
  ((distinctObs ops).map (fun o => (obsWeight g ops o * predicted ops δ o) ^ 2)).sum +
  ((distinctPars ops).map (fun q => (conWeight g ops q * effect q (δ q.ev)) ^ 2)).sum

/-- a change of one component of one event by one unit -/
def single (k : Nat) (c : Fin 4) : Changes := fun k' c' => if k' = k ∧ c' = c then 1 else 0

/-- The unit in which the damping measures a component of a change: its influence on the observations, with normalisation. -/
noncomputable def unitOf (k : Nat) (c : Fin 4) : ℝ := if g.normalize then √(influence g ops (single k c)) else 1

/-- **What an iteration should minimise**: the squares of the weighted differences between double differences and their
predictions, the same for the travel-time residuals of the events themselves, and the squares of the damped changes. -/
noncomputable def objective (δ : Changes) : ℝ :=
  ((distinctObs ops).map (fun o => (obsWeight g ops o * (residual ops o - predicted ops δ o)) ^ 2)).sum +
  ((distinctPars ops).map (fun q => (conWeight g ops q * (q.ttRes - effect q (δ q.ev))) ^ 2)).sum +
  g.damp ^ 2 * ∑ k ∈ events ops, ∑ c, (δ k c * unitOf g ops k c) ^ 2

/-- The sum of the influences of all components, each in its unit. -/
noncomputable def total : ℝ := ∑ k ∈ events ops, ∑ c, influence g ops (single k c) / unitOf g ops k c ^ 2

/-- The event may move and some observation with a weight depends on it. -/
def Active (k : Nat) : Prop :=
  ∃ o ∈ distinctObs ops, obsWeight g ops o ≠ 0 ∧ ∃ q, paramsOf ops k o.sta o.phase = some q ∧ q.free = true ∧
    (o.e1 = k ∨ o.e2 = k)

/-- Weights and scaling factors are numbers: the double differences are not (mostly) the same when residuals are weighted, and
the observations depend on all components of the active events when these are scaled. -/
structure Regular : Prop where
  deviation : 0 < g.down → deviation g ops ≠ 0
  units : g.normalize = true → ∀ k, Active g ops k → ∀ c, influence g ops (single k c) ≠ 0

/-- The changes an answer of the solver stands for; without an answer for an event, none. -/
def changes (ans : Relocate.Answer ℝ) : Changes := fun k c =>
  match ans.changes k with
  | some d => match c with
    | 0 => d.x
    | 1 => d.y
    | 2 => d.z
    | 3 => d.t
  | none => 0

/-- How good the changes are, depending on the reason for which the solver stopped. Reason 0: they are the best ones. The
least-squares criterion (reason 3 of LSQR, reason 2 of LSMR): no other changes are better by more than about `10⁻¹²`, relative
to the squares of the damping factor and of the influences. Reason 1: what is left is small relative to the double differences.
(The other reasons are the limit of iterations and, for LSQR without damping, its least-squares criterion.) -/
def Guarantee (method : LeastSquares.Method) (reason : Nat) (δ : Changes) : Prop :=
  (reason = 0 → ∀ δ', objective g ops δ ≤ objective g ops δ') ∧
  match method with
  | .lsqr =>
    (reason = 0 ∨ reason = 1 ∨ reason = 2 ∨ reason = 3 ∨ reason = 5) ∧
    objective g ops δ ≤ objective g ops 0 ∧
    (reason = 1 → g.damp * √(objective g ops δ) ≤
      1 / 10 ^ 6 * (g.damp + √(total g ops + ((events ops).card * 4) * g.damp ^ 2)) * √(objective g ops 0)) ∧
    (reason = 2 → g.damp = 0) ∧
    (reason = 3 → 0 < g.damp ∧ ∀ δ', g.damp ^ 2 * objective g ops δ ≤ g.damp ^ 2 * objective g ops δ' +
      (1 / 10 ^ 6) ^ 2 * (total g ops + ((events ops).card * 4) * g.damp ^ 2) * (√(objective g ops 0) + 1 / 10 ^ 30) ^ 2)
  | .lsmr =>
    (reason = 0 ∨ reason = 1 ∨ reason = 2 ∨ reason = 7) ∧
    (reason = 1 → (g.damp - 1 / 10 ^ 6 * √(total g ops)) * √(objective g ops δ) ≤ 1 / 10 ^ 6 * g.damp * √(objective g ops 0)) ∧
    (reason = 2 → ∀ δ', (g.damp ^ 2 - (1 / 10 ^ 6) ^ 2 * total g ops) * objective g ops δ ≤ g.damp ^ 2 * objective g ops δ')

/-- The damping is strong enough: no estimate of the condition number of the damped problem, bounded by the quotient of the
largest possible singular value and the damping factor (LSMR), or by the norms the solver adds up (LSQR), reaches the limit
`2²⁶ / 10` at which the solvers give up. -/
def Damped (method : LeastSquares.Method) : Prop :=
  0 < g.damp ∧
  match method with
  | .lsqr => (total g ops + ((events ops).card * 4) * g.damp ^ 2) * ((events ops).card * 4) < (2 ^ 26 / 10 * g.damp) ^ 2
  | .lsmr => g.damp ≤ 10 ^ 100 ∧ 1 < 2 ^ 26 / 10 * g.damp ∧ total g ops + g.damp ^ 2 < (2 ^ 26 / 10 * g.damp) ^ 2

/-- The options of iteration `it` of a relocation. -/
noncomputable def goalAt (su : Relocate.SolverSetup) (so : Relocate.SolverOptions ℝ) (it : Nat) : Goal where
  nth := su.nth
  absLoc := Relocate.interpolate so.algoIterations it so.absLocConstraintStart so.absLocConstraintEnd
  down := Relocate.interpolate so.algoIterations it so.downWeightingByResidualStart so.downWeightingByResidualEnd
  normalize := su.normalize
  damp := Relocate.interpolate so.algoIterations it so.dampingFactorStart so.dampingFactorEnd

end Verif.Iteration
