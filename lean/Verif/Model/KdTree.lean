import Verif.Base.NthElement
import Verif.Base.Outcome

/-!
# Model of `HDD::KDTree` (libs/hdd/kdtree.h)

Coordinates and distances are elements of linear orders (no NaN).  The distance between two points and
the distance along one axis are parameters; `Verif.Model.Geo` models the ones used by the code.  The
points are given by a function from the index, and nodes refer to points by their index; the pointers
of the tree become an inductive type.  `std::nth_element` is any implementation of its contract.
-/

namespace Verif

/-- kdtree.h:45-51; the data carried by a point is not used by the tree -/
structure Pt (C : Type) where
  lat : C
  lon : C
  depth : C
deriving DecidableEq

/-- kdtree.h:228-233; a null pointer is `nil` -/
inductive KdNode where
  | nil
  | node (idx axis : Nat) (left right : KdNode)
deriving DecidableEq

namespace KdTree
variable {C K : Type} [LinearOrder C] [LinearOrder K]

/-- coordinate of an axis, kdtree.h:244-249 -/
def coord (axis : Nat) (p : Pt C) : C :=
  match axis with
  | 0 => p.lat
  | 1 => p.lon
  | _ => p.depth

/-- kdtree.h:235-264, on the sub-array `indices` -/
def build (pt : Nat → Pt C) (nth : (axis : Nat) → NthElement (fun i => coord axis (pt i)))
    (indices : List Nat) (depth : Nat) : KdNode :=
  if h : indices = [] then .nil
  else
    let axis := depth % 3
    let mid := (indices.length - 1) / 2
    let r := (nth axis).run indices mid
    .node (r.getD mid 0) axis (build pt nth (r.take mid) (depth + 1))
      (build pt nth (r.drop (mid + 1)) (depth + 1))
termination_by indices.length
decreasing_by
  · have h1 : 0 < indices.length := List.length_pos_iff.2 h
    simp only [List.length_take]
    omega
  · have h1 : 0 < indices.length := List.length_pos_iff.2 h
    have hlen := ((nth (depth % 3)).ok indices ((indices.length - 1) / 2) (by omega)).perm.length_eq
    simp only [List.length_drop, hlen]
    omega

/-- kdtree.h:53-62: tree of the points with indices 0..n-1 -/
def ofPoints (pt : Nat → Pt C) (nth : (axis : Nat) → NthElement (fun i => coord axis (pt i))) (n : Nat) :
    KdNode := build pt nth (List.range n) 0

/-- kdtree.h:266-311 -/
def search (pt : Nat → Pt C) (q : Pt C) : KdNode → Option Nat
  | .nil => none
  | .node idx axis l r =>
    if (pt idx).lat = q.lat ∧ (pt idx).lon = q.lon ∧ (pt idx).depth = q.depth then some idx
    else
      let near := if coord axis q < coord axis (pt idx) then search pt q l else search pt q r
      let far := if coord axis q < coord axis (pt idx) then search pt q r else search pt q l
      if near.isNone ∧ coord axis q = coord axis (pt idx) then far else near

/-- `queue.emplace` of a `std::multimap`: after the entries with the same key -/
def emplace (queue : List (K × Nat)) (d : K) (idx : Nat) : List (K × Nat) :=
  queue.takeWhile (fun x => x.1 ≤ d) ++ (d, idx) :: queue.dropWhile (fun x => x.1 ≤ d)

section
variable (pt : Nat → Pt C) (dist : Pt C → Pt C → K) (axisDist : Nat → Pt C → Pt C → K) (q : Pt C)

/-- kdtree.h:424-474 -/
def radius (rad : K) : KdNode → List (K × Nat) → List (K × Nat)
  | .nil, queue => queue
  | .node idx axis l r, queue =>
    let queue := if dist (pt idx) q ≤ rad then emplace queue (dist (pt idx) q) idx else queue
    if coord axis q < coord axis (pt idx) then
      let queue := radius rad l queue
      if axisDist axis (pt idx) q ≤ rad then radius rad r queue else queue
    else
      let queue := radius rad r queue
      if axisDist axis (pt idx) q ≤ rad then radius rad l queue else queue

/-- kdtree.h:122-135 -/
def radiusSearch (tree : KdNode) (rad : K) : List (K × Nat) := radius pt dist axisDist q rad tree []

/-- `d < minDist`, where the initial value `DBL_MAX` is `none` (kdtree.h:102; the distances are
smaller) -/
def below (d : K) : Option (Nat × K) → Bool
  | none => true
  | some b => d < b.2

/-- kdtree.h:313-365: `idx` and `minDist` together -/
def nn : KdNode → Option (Nat × K) → Option (Nat × K)
  | .nil, best => best
  | .node idx axis l r, best =>
    let best := if below (dist (pt idx) q) best then some (idx, dist (pt idx) q) else best
    if coord axis q < coord axis (pt idx) then
      let best := nn l best
      if below (axisDist axis (pt idx) q) best then nn r best else best
    else
      let best := nn r best
      if below (axisDist axis (pt idx) q) best then nn l best else best

/-- kdtree.h:94-108 -/
def nnSearch (tree : KdNode) : Outcome (Nat × K) := .ofOption (nn pt dist axisDist q tree none)

/-- kdtree.h:383-391; `rbegin()` of an empty multimap is undefined behaviour -/
def knnAdd (k : Nat) (queue : List (K × Nat)) (d : K) (idx : Nat) : Outcome (List (K × Nat)) :=
  if queue.length < k then .ok (emplace queue d idx)
  else match queue.getLast? with
    | none => .ub
    | some last => if d < last.1 then .ok ((emplace queue d idx).dropLast) else .ok queue

/-- kdtree.h:418 -/
def knnFar (k : Nat) (queue : List (K × Nat)) (d : K) : Outcome Bool :=
  if queue.length < k then .ok true
  else match queue.getLast? with
    | none => .ub
    | some last => .ok (decide (d < last.1))

/-- kdtree.h:367-422 -/
def knn (k : Nat) : KdNode → List (K × Nat) → Outcome (List (K × Nat))
  | .nil, queue => .ok queue
  | .node idx axis l r, queue => do
    let queue ← knnAdd k queue (dist (pt idx) q) idx
    if coord axis q < coord axis (pt idx) then do
      let queue ← knn k l queue
      let far ← knnFar k queue (axisDist axis (pt idx) q)
      if far then knn k r queue else .ok queue
    else do
      let queue ← knn k r queue
      let far ← knnFar k queue (axisDist axis (pt idx) q)
      if far then knn k l queue else .ok queue

/-- kdtree.h:110-120 -/
def knnSearch (tree : KdNode) (k : Nat) : Outcome (List (K × Nat)) := knn pt dist axisDist q k tree []

end

/-! ## best-first enumeration -/

/-- kdtree.h:145-157: a node to expand or a point to deliver -/
inductive Item (K : Type) where
  | sub (minDist : K) (node : KdNode)
  | point (d : K) (idx : Nat)

def Item.key : Item K → K
  | .sub d _ => d
  | .point d _ => d

def size : KdNode → Nat
  | .nil => 0
  | .node _ _ l r => size l + size r + 1

/-- bound on the number of steps an item gives rise to -/
def Item.weight : Item K → Nat
  | .sub _ n => 2 * size n
  | .point _ _ => 1

/-- `top` and `pop` of `std::priority_queue`: any implementation that returns some smallest item -/
structure Pop (K : Type) [LinearOrder K] where
  run : List (Item K) → Option (Item K × List (Item K))
  empty : run [] = none
  ok : ∀ l, l ≠ [] → ∃ x rest, run l = some (x, rest) ∧ (x :: rest).Perm l ∧ ∀ y ∈ l, x.key ≤ y.key

section
variable (pt : Nat → Pt C) (dist : Pt C → Pt C → K) (axisDist : Nat → Pt C → Pt C → K) (q : Pt C)

/-- a child is pushed if the pointer is not null, kdtree.h:211,217 -/
def push (d : K) (n : KdNode) (pq : List (Item K)) : List (Item K) :=
  match n with
  | .nil => pq
  | n => .sub d n :: pq

/-- kdtree.h:181-223 -/
def expand (minDist : K) (n : KdNode) (pq : List (Item K)) : List (Item K) :=
  match n with
  | .nil => pq
  | .node idx axis l r =>
    let pq := .point (dist (pt idx) q) idx :: pq
    let far := max minDist (axisDist axis (pt idx) q)
    if coord axis q < coord axis (pt idx) then push far r (push minDist l pq)
    else push far l (push minDist r pq)

/-- kdtree.h:166-224. The visitor keeps a state and says whether to stop. `fuel` bounds the number of
iterations; `bestFirst` gives enough (`none` = not enough, shown impossible). -/
def loop (pop : Pop K) {S : Type} (visit : S → Nat → K → S × Bool) :
    Nat → List (Item K) → S → Option S
  | 0, pq, s => match pop.run pq with
    | none => some s
    | some _ => none
  | fuel + 1, pq, s =>
    match pop.run pq with
    | none => some s
    | some (.point d idx, pq) =>
      let (s, stop) := visit s idx d
      if stop then some s else loop pop visit fuel pq s
    | some (.sub d n, pq) => loop pop visit fuel (expand pt dist axisDist q d n pq) s

/-- kdtree.h:137-225; `zero` is the distance 0.0 -/
def bestFirst (pop : Pop K) (zero : K) {S : Type} (visit : S → Nat → K → S × Bool) (tree : KdNode) (s : S) :
    Option S :=
  match tree with
  | .nil => some s
  | tree => loop pt dist axisDist q pop visit (2 * size tree) [.sub zero tree] s

end
end KdTree
end Verif
