import Mathlib.Data.List.Basic

/-!
# Specification vocabulary for an LRU cache, independent of the implementation

A history is a list of operations, *newest first*.
-/

namespace Verif.LruSpec

variable {K V : Type} [DecidableEq K]

inductive Op (K V : Type) where
  | put (k : K) (v : V)
  | get (k : K)
  | clear

/-- the distinct elements of a list, in order of first occurrence -/
def distinct : List K → List K
  | [] => []
  | a :: l => a :: (distinct l).filter (· ≠ a)

/-- Keys in order of use, most recent first, since the last `clear`. A `put` uses its key;
a `get` uses its key if the key is among the `n` most recently used distinct keys. -/
def uses (n : Nat) : List (Op K V) → List K
  | [] => []
  | Op.put k _ :: h => k :: uses n h
  | Op.get k :: h => if k ∈ (distinct (uses n h)).take n then k :: uses n h else uses n h
  | Op.clear :: _ => []

/-- the `n` most recently used distinct keys -/
def resident (n : Nat) (h : List (Op K V)) : List K := (distinct (uses n h)).take n

/-- value of the most recent `put` of `k` since the last `clear` -/
def lastPut : List (Op K V) → K → Option V
  | [], _ => none
  | Op.put k' v :: h, k => if k' = k then some v else lastPut h k
  | Op.get _ :: h, k => lastPut h k
  | Op.clear :: _, _ => none

end Verif.LruSpec

namespace Verif.LruSpec
variable {K V : Type} [DecidableEq K]

/-- number of times `k` was inserted while absent (newest-first history) -/
def insertions (n : Nat) : List (Op K V) → K → Nat
  | [], _ => 0
  | Op.put k' _ :: h, k => (if k' = k ∧ k ∉ resident n h then 1 else 0) + insertions n h k
  | Op.get _ :: h, k => insertions n h k
  | Op.clear :: h, k => insertions n h k

/-- a history without `clear` -/
def NoClear (h : List (Op K V)) : Prop := ∀ o ∈ h, o ≠ Op.clear

end Verif.LruSpec
