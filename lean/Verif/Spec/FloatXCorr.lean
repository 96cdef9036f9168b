import Verif.Spec.XCorr
import Verif.Spec.Double

/-!
# Cross-correlation in double precision (specification of C126)
-/

namespace Verif.FloatXCorrSpec
open Verif.XCorr.Spec

/-- `sq` is the square root up to half a unit in the last of 53 bits -/
def Roots (sq : ℚ → ℚ) : Prop := ∀ x : ℚ, 0 ≤ x → |((sq x : ℚ) : ℝ) - Real.sqrt x| ≤ 1 / 2 ^ 53 * Real.sqrt x

/-- the samples as real numbers -/
def real (X : List ℚ) : List ℝ := X.map (↑)

/-- the part of a waveform that is `n` samples long and starts at sample `i` -/
def part (X : List ℚ) (i n : ℕ) : List ℚ := (X.drop i).take n

/-- No sample is larger than `A`, and the variance is at least `A² / rho`: the signal is not small compared with its largest
sample, with its offset in particular. -/
def Loud (A rho : ℚ) (X : List ℚ) : Prop :=
  (∀ x ∈ X, |x| ≤ A) ∧ (A : ℝ) ^ 2 / rho ≤ cov (real X) (real X) / X.length

end Verif.FloatXCorrSpec
