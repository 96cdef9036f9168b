import Mathlib.Analysis.SpecialFunctions.Sqrt
import Mathlib.Algebra.BigOperators.Group.List.Basic

/-!
# Specification: correlation coefficient of two series
-/

namespace Verif.XCorr.Spec

noncomputable def mean (X : List ℝ) : ℝ := X.sum / X.length

/-- `∑ (xᵢ - mean x) (yᵢ - mean y)` -/
noncomputable def cov (X Y : List ℝ) : ℝ := (List.zipWith (fun x y => (x - mean X) * (y - mean Y)) X Y).sum

/-- Pearson's correlation coefficient -/
noncomputable def pearson (X Y : List ℝ) : ℝ := cov X Y / (Real.sqrt (cov X X) * Real.sqrt (cov Y Y))

/-- all the samples are the same: the coefficient is not defined -/
def Constant (X : List ℝ) : Prop := ∀ x ∈ X, ∀ y ∈ X, x = y

/-- the part of a trace that is `n` samples long and starts at sample `i` -/
def window (L : List ℝ) (i n : Nat) : List ℝ := (L.drop i).take n

end Verif.XCorr.Spec
