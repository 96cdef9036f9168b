import Verif.Model.DDFile
import Verif.Model.Stats
import Mathlib.Data.List.Sort

/-!
# Model of the summary by inter-event distance

What `Solver::prepare` prints of a system (libs/hdd/solver.cpp:757-811, with :507-544).  It is the last thing `prepare` does;
`Verif.Model.Solver.prepare` leaves it out.  Printing the numbers is left out here.
-/

namespace Verif.DistanceReport
open Verif.Stats Verif.Solver

variable {K : Type} [Field K] [LinearOrder K]

/-- what is printed of a group of observations, solver.cpp:784-800 -/
structure Line (K : Type) where
  fromDist : K
  toDist : K
  count : Nat
  residuals : Summary K
  coeffs : Option (Nat × Summary K)
deriving DecidableEq

/-- solver.cpp:763-781: the loops take groups of `q + 1` observations until there is none left -/
def groups {A : Type} (q : Nat) : List A → List (List A)
  | [] => []
  | a :: l => (a :: l.take q) :: groups q (l.drop q)
termination_by l => l.length
decreasing_by simp

/-- solver.cpp:769-800: a group, with the distances; an observation is its index and what is stored of it -/
def line (nth : NthElement (id : K → K)) (p : Prepared K) (first : K × Nat × Obs K) (others : List (K × Nat × Obs K)) :
    Outcome (Line K) := do
  let g := first :: others
  let r ← fiveNumberSummary nth (g.map (fun x => p.dd.d x.2.1))
  let cs := (g.map (fun x => |x.2.2.xcorrCoeff|)).filter (· ≠ 0)
  let last := (g.getLast?.map (·.1)).getD first.1
  if cs.isEmpty then .ok ⟨first.1, last, g.length, r, none⟩
  else do
    let c ← fiveNumberSummary nth cs
    .ok ⟨first.1, last, g.length, r, some (cs.length, c)⟩

/-- one round of the loop of solver.cpp:763 -/
def lineOf (nth : NthElement (id : K → K)) (p : Prepared K) : List (K × Nat × Obs K) → Outcome (Line K)
  | [] => .ub
  | x :: l => line nth p x l

/-- solver.cpp:518-541: the distances of the observations, in the order in which they are visited -/
def distances (s : Solver K) (dist : K × K × K → K × K × K → K) (io : List (Nat × Obs K)) : Outcome (List (K × Nat × Obs K)) :=
  io.mapM (fun x => (s.interEventDistance dist x.2).map (fun d => (d, x)))

/-- solver.cpp:757-802; a `multimap` keeps elements with the same key in the order of insertion -/
def report (s : Solver K) (nth : NthElement (id : K → K)) (dist : K × K × K → K × K × K → K) (p : Prepared K)
    (io : List (Nat × Obs K)) : Outcome (List (Line K)) := do
  let ds ← distances s dist io
  let sorted := ds.insertionSort (fun a b => a.1 ≤ b.1)
  (groups (sorted.length / 20) sorted).mapM (lineOf nth p)

end Verif.DistanceReport
