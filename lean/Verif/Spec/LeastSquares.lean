import Mathlib.Data.Real.Basic
import Mathlib.LinearAlgebra.Matrix.Notation
import Mathlib.Data.Matrix.Mul

/-!
# Damped least squares, in plain terms

`A` is the matrix, `b` the right hand side, `d` the damping; a solution `x` is judged by the misfit
`|b - A x|^2 + d^2 |x|^2`.
-/

namespace Verif.LeastSquares.Spec
open Matrix

variable {m n : Nat}

/-- the sum of the squares -/
def normSq (x : Fin n → ℝ) : ℝ := ∑ i, x i ^ 2

/-- the sum of the squares of the entries of the matrix -/
def frobSq (A : Matrix (Fin m) (Fin n) ℝ) : ℝ := ∑ i, normSq (A i)

/-- what is minimised -/
def misfit (A : Matrix (Fin m) (Fin n) ℝ) (b : Fin m → ℝ) (d : ℝ) (x : Fin n → ℝ) : ℝ :=
  normSq (b - A *ᵥ x) + d ^ 2 * normSq x

/-- minus half the gradient of the misfit -/
def descent (A : Matrix (Fin m) (Fin n) ℝ) (b : Fin m → ℝ) (d : ℝ) (x : Fin n → ℝ) : Fin n → ℝ :=
  Aᵀ *ᵥ (b - A *ᵥ x) - d ^ 2 • x

/-- the directions `(AᵀA)^j Aᵀ b` -/
def krylov (A : Matrix (Fin m) (Fin n) ℝ) (b : Fin m → ℝ) : Nat → (Fin n → ℝ)
  | 0 => Aᵀ *ᵥ b
  | j + 1 => Aᵀ *ᵥ (A *ᵥ krylov A b j)

/-- `x` solves the damped least squares problem -/
def Minimises (A : Matrix (Fin m) (Fin n) ℝ) (b : Fin m → ℝ) (d : ℝ) (x : Fin n → ℝ) : Prop :=
  ∀ y, misfit A b d x ≤ misfit A b d y

end Verif.LeastSquares.Spec
