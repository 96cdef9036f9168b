import Verif.Spec.Relocate
import Verif.Spec.Solver

/-!
# Vocabulary of the statements about residuals and parameters (C70, C83)
-/

namespace Verif.Relocate
open Verif.Catalog Verif.Solver

variable {K : Type} [Field K] [LinearOrder K]

/-- The residual the solver was given for a pick of event `k`: that of the first parameters given for the
event, the station and the phase. -/
def givenResidual (ops : List (SolverOp K)) (k : Nat) (p : Phase K) : Option K :=
  (paramsOf ops k p.stationId.toList p.type.toList).map (·.ttRes)

/-- The a-priori weight of a pick. -/
def pickWeight (o : ObsOptions K) (p : Phase K) : K := if o.usePickUncertainties then p.classWeight else 1

/-- Residual and weight of the picks of event `k` for which the solver was given a residual. -/
def residualsOf (o : ObsOptions K) (x : IterLog K) (k : Nat) : List (K × K) :=
  (x.after.phasesOf k).filterMap (fun p => (givenResidual x.ops k p).map (fun r => (r, pickWeight o p)))

/-- `v` is the weighted root mean square of the residuals, 0 if there is none with a weight. -/
def IsRms (sqrt : K → K) (l : List (K × K)) (v : K) : Prop :=
  v = if 0 < (l.map (fun x => x.2 ^ 2)).sum
      then sqrt ((l.map (fun x => (x.1 * x.2) ^ 2)).sum / (l.map (fun x => x.2 ^ 2)).sum) else 0

/-- The parameters `q` are those of a pick of event `q.ev`, as the event and the pick are in catalog `c`: the
travel time of the model, the residual observed minus computed, and the derivatives by east, north and up. -/
def ParametersAt (env : Env K) (c : Catalog K) (q : ParArg K) : Prop :=
  ∃ ev p st name tt, c.events.find? q.ev = some ev ∧ p ∈ c.phasesOf q.ev ∧
    c.stations.find? p.stationId = some st ∧ q.sta = p.stationId.toList ∧ q.phase = p.type.toList ∧
    (name = if env.psTableOnly ∧ p.procType = .P then "P"
            else if env.psTableOnly ∧ p.procType = .S then "S" else p.type) ∧
    env.ttt ev st name = some tt ∧
    q.tt = tt.tt ∧ q.ttRes = travelTime ev p - tt.tt ∧
    q.dx = -(tt.dtdd / env.kmOfDegree) * env.cosDeg (90 - tt.azim) ∧
    q.dy = -(tt.dtdd / env.kmOfDegree) * env.sinDeg (90 - tt.azim) ∧ q.dz = -tt.dtdh

/-- In an iteration before number `n` the solver gave a solution for event `k` that used the phase, and the
event was not restored in the next iteration. -/
def KeptUse (log : List (IterLog K)) (n k : Nat) (sta phase : String) : Prop :=
  ∃ (i : Nat) (x : IterLog K) (ans : Answer K), i < n ∧ log[i]? = some x ∧ x.answer = some ans ∧
    (ans.changes k).isSome = true ∧ ans.used k sta phase = true ∧ ∀ y, log[i + 1]? = some y → k ∉ y.reverted

end Verif.Relocate
