import Verif.Model.XCorrCache

/-!
# Specification of the cross-correlation cache

What a user sees: a partial function from ordered event pairs (per station and phase type) to
results.  `recorded f a b` says what a write does to that function: the pair is stored in both
directions, the opposite one with negated lag.  Only the type `Entry` is shared with the model.
-/

namespace Verif.XCorrSpec
open XCorr (Entry Cache)

/-- the visible contents: `view a b station phase` -/
abbrev View := Nat → Nat → String → String → Option Entry

def View.empty : View := fun _ _ _ _ => none

/-- the same result seen in the opposite direction -/
def flip (e : Entry) : Entry := { valid := e.valid, coeff := e.coeff, lag := -e.lag }

/-- a result recorded for the pair (a,b) -/
def View.record (f : View) (a b : Nat) (s p : String) (e : Entry) : View := fun a' b' s' p' =>
  if s' = s ∧ p' = p then
    if a' = a ∧ b' = b then some e
    else if a' = b ∧ b' = a then some (flip e)
    else f a' b' s' p'
  else f a' b' s' p'

/-- the pair (a,b) forgotten -/
def View.forget (f : View) (a b : Nat) (s p : String) : View := fun a' b' s' p' =>
  if s' = s ∧ p' = p ∧ ((a' = a ∧ b' = b) ∨ (a' = b ∧ b' = a)) then none else f a' b' s' p'

/-- everything in `g` takes precedence over `f` -/
def View.overlay (f g : View) : View := fun a b s p =>
  match g a b s p with
  | some e => some e
  | none => f a b s p

end Verif.XCorrSpec
