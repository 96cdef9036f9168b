import Verif.Model.FloatSolve

/-!
# Values that are not numbers (specification of C119)
-/

namespace Verif.FloatSolve
open Verif.LeastSquares

variable {K : Type} [Add K] [Sub K] [Mul K] [Div K] [Neg K] [Zero K] [One K] [BEq K] [LT K] [LE K]

/-- `bad` are the values that are not numbers (IEEE 754): every operation on one of them gives one of them, and every comparison with
one of them is false. Nothing is said about the other values, which may be rounded in any way. -/
structure NaN (F : Fns K) (bad : K → Prop) : Prop where
  add : ∀ a b, bad a ∨ bad b → bad (a + b)
  sub : ∀ a b, bad a ∨ bad b → bad (a - b)
  mul : ∀ a b, bad a ∨ bad b → bad (a * b)
  div : ∀ a b, bad a ∨ bad b → bad (a / b)
  neg : ∀ a, bad a → bad (-a)
  sqrt : ∀ a, bad a → bad (F.sqrt a)
  abs : ∀ a, bad a → bad (F.abs a)
  lt : ∀ a b, bad a ∨ bad b → ¬ a < b
  le : ∀ a b, bad a ∨ bad b → ¬ a ≤ b
  eq : ∀ a b, bad a ∨ bad b → (a == b) = false

/-- A row whose weight, or whose weighted datum, is not a number. -/
def BadRow (bad : K → Prop) (dd : DDSystem K) (ob : Nat) : Prop :=
  ob < dd.nObs + dd.nTT ∧ (dd.W ob == 0) = false ∧ (bad (dd.W ob) ∨ bad (dd.d ob))

/-- A row with a weight and an event one of whose scaled derivatives is not a number. -/
def BadDerivative (bad : K → Prop) (dd : DDSystem K) (ob : Nat) : Prop :=
  ob < dd.nObs + dd.nTT ∧ (dd.W ob == 0) = false ∧ ∃ e k, k < 4 ∧ (dd.ev1 ob = some e ∨ dd.ev2 ob = some e) ∧
    bad (dd.G (e * dd.nPhStas + dd.phSta ob) k * dd.scaler (e * 4 + k))

end Verif.FloatSolve
