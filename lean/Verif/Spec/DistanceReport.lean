import Verif.Model.DistanceReport
import Verif.Spec.DDFile

/-!
# Vocabulary of the statements about the summary by inter-event distance (C109)
-/

namespace Verif.DistanceReport
open Verif.Solver Verif.DDFile Verif.Stats

variable {K : Type} [Field K] [LinearOrder K]

/-- the distance of the two events of an observation -/
def IsDistance (dist : K × K × K → K × K × K → K) (ops : List (SolverOp K)) (o : ObsArg K) (d : K) : Prop :=
  ∃ a b, positionOf ops o.e1 = some a ∧ positionOf ops o.e2 = some b ∧ d = dist a b

/-- smallest, largest and the values at a quarter, half and three quarters of the sorted values -/
def IsSummary (values : List K) (s : Summary K) : Prop :=
  ∃ l : List K, l.Pairwise (· ≤ ·) ∧ l.Perm values ∧ s =
    { min := l.getD 0 0
      q1 := l.getD (values.length / 4) 0
      q2 := l.getD (values.length / 2) 0
      q3 := l.getD (values.length / 4 + values.length / 2) 0
      max := l.getD (values.length - 1) 0 }

/-- What a line says of a group of observations. -/
structure IsGroup (dist : K × K × K → K × K × K → K) (ops : List (SolverOp K)) (g : List (ObsArg K)) (l : Line K) : Prop where
  fromDist : ∃ o, g.head? = some o ∧ IsDistance dist ops o l.fromDist
  toDist : ∃ o, g.getLast? = some o ∧ IsDistance dist ops o l.toDist
  count : l.count = g.length
  residuals : ∃ res, List.Forall₂ (IsResidual ops) g res ∧ IsSummary res l.residuals
  noCoeffs : l.coeffs = none ↔ ∀ o ∈ g, o.xcorrCoeff = 0
  coeffs : ∀ n s, l.coeffs = some (n, s) →
    n = (g.filter (fun o => o.xcorrCoeff ≠ 0)).length ∧
    IsSummary ((g.filter (fun o => o.xcorrCoeff ≠ 0)).map (fun o => |o.xcorrCoeff|)) s

/-- The observations, sorted by distance, are cut into at most twenty groups of the same size (the last one may be smaller). -/
def IsGrouping (dist : K × K × K → K × K × K → K) (ops : List (SolverOp K)) (gs : List (List (ObsArg K))) : Prop :=
  let obs := firstBy ObsArg.quad (obsOf ops)
  gs.flatten.Perm obs ∧
    gs.flatten.Pairwise (fun a b => ∀ da db, IsDistance dist ops a da → IsDistance dist ops b db → da ≤ db) ∧
    gs.length ≤ 20 ∧ (∀ g ∈ gs, g ≠ []) ∧ (∀ g ∈ gs.dropLast, g.length = obs.length / 20 + 1) ∧
    (∀ g ∈ gs, g.length ≤ obs.length / 20 + 1)

/-- There is one line for each group. -/
def IsReport (dist : K × K × K → K × K × K → K) (ops : List (SolverOp K)) (lines : List (Line K)) : Prop :=
  ∃ gs : List (List (ObsArg K)), IsGrouping dist ops gs ∧ List.Forall₂ (IsGroup dist ops) gs lines

/-- A group with at least four observations, of which none or at least four have a coefficient. -/
def Describable (g : List (ObsArg K)) : Prop :=
  4 ≤ g.length ∧ ((∀ o ∈ g, o.xcorrCoeff = 0) ∨ 4 ≤ (g.filter (fun o => o.xcorrCoeff ≠ 0)).length)

/-- No two observations have the same distance. -/
def DistinctDistances (dist : K × K × K → K × K × K → K) (ops : List (SolverOp K)) : Prop :=
  ∀ a ∈ firstBy ObsArg.quad (obsOf ops), ∀ b ∈ firstBy ObsArg.quad (obsOf ops), ∀ d,
    IsDistance dist ops a d → IsDistance dist ops b d → a = b

end Verif.DistanceReport
