import Mathlib.Algebra.Order.Field.Basic
import Mathlib.Algebra.BigOperators.Group.Finset.Basic
import Mathlib.Data.Finset.Range

/-!
# Specification vocabulary for grid files

A grid file is the plain concatenation of the encoded node values, x slowest and z fastest.
Linear interpolation is the sum over all nodes of value times the tensor product of hat functions.
-/

namespace Verif.GridSpec

/-- the bytes written by three nested loops over x, y and z -/
def layout (nx ny nz : Nat) (encode : Nat → Nat → Nat → List UInt8) : List UInt8 :=
  (List.range nx).flatMap fun x =>
    (List.range ny).flatMap fun y =>
      (List.range nz).flatMap fun z => encode x y z

section
variable {K : Type} [Field K] [LinearOrder K]

/-- the hat function: 1 at 0, linear down to 0 at distance 1 -/
def hat (t : K) : K := max 0 (1 - |t|)

/-- piecewise linear interpolation of node values, coordinates counted in cells from the origin -/
def interpolant3 (nx ny nz : Nat) (f : Nat → Nat → Nat → K) (x y z : K) : K :=
  ∑ i ∈ Finset.range nx, ∑ j ∈ Finset.range ny, ∑ k ∈ Finset.range nz,
    f i j k * (hat (x - (i : K)) * hat (y - (j : K)) * hat (z - (k : K)))

def interpolant2 (ny nz : Nat) (f : Nat → Nat → K) (y z : K) : K :=
  ∑ j ∈ Finset.range ny, ∑ k ∈ Finset.range nz, f j k * (hat (y - (j : K)) * hat (z - (k : K)))

end

end Verif.GridSpec
