import Verif.Base.NthElement
import Verif.Base.Outcome
import Verif.Base.Fl

/-!
# Model of the statistics in `libs/hdd/utils.cpp:299-367`

Values are elements of an ordered field (no rounding). `std::nth_element` is any function meeting
its contract (`Verif.NthElement`).
-/

namespace Verif.Stats

variable {K : Type} [Field K] [LinearOrder K]

/-- `std::max_element` dereferenced, on a non-empty range -/
def maxElement : List K → K → K
  | [], m => m
  | x :: l, m => maxElement l (if m < x then x else m)

/-- `std::min_element` dereferenced, on a non-empty range -/
def minElement : List K → K → K
  | [], m => m
  | x :: l, m => minElement l (if x < m then x else m)

/-- `*std::max_element(range)`; the empty range makes it read the element at `past` -/
def maxOf (past : K) : List K → K
  | [] => past
  | x :: l => maxElement l x

/-- `*std::min_element(range)`; the empty range makes it read the element at `past` -/
def minOf (past : K) : List K → K
  | [] => past
  | x :: l => minElement l x

/-- libs/hdd/utils.cpp:325-339 -/
def computeMedian (nth : NthElement (id : K → K)) (values : List K) : K :=
  if values.isEmpty then 0
  else
    let mid := values.length / 2
    let tmp := nth.run values mid
    let median := tmp.getD mid 0
    if tmp.length % 2 = 0 then (maxOf median (tmp.take mid) + median) / 2 else median

/-- libs/hdd/utils.cpp:341-350 -/
def computeMAD (nth : NthElement (id : K → K)) (values : List K) (center : K) : K :=
  computeMedian nth (values.map (fun v => |v - center|))

/-- libs/hdd/utils.cpp:352-356 -/
def computeMean (values : List K) : K :=
  if values.isEmpty then 0 else values.foldl (· + ·) 0 / values.length

/-- libs/hdd/utils.cpp:358-367 -/
def computeMeanAD (values : List K) (center : K) : K :=
  computeMean (values.map (fun v => |v - center|))

structure Summary (K : Type) where
  min : K
  max : K
  q1 : K
  q2 : K
  q3 : K
deriving DecidableEq, Repr

/-- `nth_element(begin + first, begin + k, end)`: undefined unless `first ≤ k ≤ size`
(calls at utils.cpp:315-317) -/
def nthFrom (nth : NthElement (id : K → K)) (first k : Nat) (l : List K) : Outcome (List K) :=
  if first ≤ k ∧ k ≤ l.length then
    .ok (l.take first ++ nth.run (l.drop first) (k - first))
  else .ub

/-- libs/hdd/utils.cpp:299-323 -/
def fiveNumberSummary (nth : NthElement (id : K → K)) (values : List K) : Outcome (Summary K) :=
  if values.isEmpty then .ok ⟨0, 0, 0, 0, 0⟩
  else
    let q1 := values.length / 4
    let q2 := values.length / 2
    let q3 := q1 + q2
    do
      let t1 ← nthFrom nth 0 q1 values
      let t2 ← nthFrom nth (q1 + 1) q2 t1
      let t3 ← nthFrom nth (q2 + 1) q3 t2
      .ok { q1 := t3.getD q1 0
            q2 := t3.getD q2 0
            q3 := t3.getD q3 0
            min := minOf (t3.getD q1 0) (t3.take q1)
            max := maxOf 0 (t3.drop q3) }

end Verif.Stats
