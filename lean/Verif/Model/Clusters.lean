import Verif.Model.Neighbours
import Verif.Base.Outcome

/-!
# Model of `clusterizeNeighbouringEvents` (libs/hdd/clustering.cpp:700-800)

The iteration order of the `unordered_` containers is a parameter: `Pick` is any choice of the element
that `begin()` refers to.  Simplification: cluster ids are not bounded by the size of `unsigned`.
-/

namespace Verif.Clusters

/-- the first element of an unordered container: any of its elements -/
structure Pick where
  first : List Nat → Nat
  mem : ∀ l, l ≠ [] → first l ∈ l

/-- the variables of the traversal, clustering.cpp:718-725 -/
structure Walk where
  todo : AMap Nat Neighbours
  frontier : List Nat
  /-- `discoveredPairs` -/
  pairs : List (Nat × Nat)
  cluster : List Neighbours
  /-- `connectedClusters` -/
  connected : List Nat

/-- insertion into a set -/
def insertId (l : List Nat) (i : Nat) : List Nat := if i ∈ l then l else l ++ [i]

/-- clustering.cpp:732-735 -/
def noteCluster (clusterId : AMap Nat Nat) (ev : Nat) (connected : List Nat) : List Nat :=
  match clusterId.find? ev with
  | some k => insertId connected k
  | none => connected

/-- clustering.cpp:748-755: the pairs seen in the other direction are dropped -/
def dropSeen (pairs : List (Nat × Nat)) (n : Neighbours) : Neighbours :=
  (pairs.filter (fun p => p.1 = n.refId)).foldl (fun n p => n.remove p.2) n

/-- clustering.cpp:729-763, one turn of the inner loop -/
def walkStep (pick : Pick) (clusterId : AMap Nat Nat) (w : Walk) : Walk :=
  let ev := pick.first w.frontier
  let frontier := w.frontier.filter (fun i => i ≠ ev)
  let connected := noteCluster clusterId ev w.connected
  match w.todo.find? ev with
  | none => { w with frontier := frontier, connected := connected }
  | some n =>
    let n' := dropSeen w.pairs n
    { todo := w.todo.erase n.refId
      frontier := n.ids.foldl insertId frontier
      pairs := w.pairs ++ n'.ids.map (fun i => (i, n'.refId))
      cluster := w.cluster ++ [n']
      connected := connected }

/-- clustering.cpp:727-764. `ub` stands for running out of fuel, shown impossible. -/
def walk (pick : Pick) (clusterId : AMap Nat Nat) : Nat → Walk → Outcome Walk
  | 0, w => if w.frontier = [] then .ok w else .ub
  | fuel + 1, w => if w.frontier = [] then .ok w else walk pick clusterId fuel (walkStep pick clusterId w)

/-- clustering.cpp:766-774; `at` throws if there is no such cluster -/
def merge : List Nat → List Neighbours → AMap Nat (List Neighbours) → Outcome (List Neighbours × AMap Nat (List Neighbours))
  | [], cur, clusters => .ok (cur, clusters)
  | k :: ks, cur, clusters =>
    match clusters.find? k with
    | none => .throws
    | some c => merge ks (cur ++ c) (clusters.erase k)

/-- clustering.cpp:777-778 -/
def newId (clusters : AMap Nat (List Neighbours)) : Nat := clusters.keys.foldl max 0 + 1

/-- clustering.cpp:710-711 -/
structure State where
  todo : AMap Nat Neighbours
  clusters : AMap Nat (List Neighbours)
  clusterId : AMap Nat Nat

/-- the number of steps one traversal can take at most -/
def budget (todo : AMap Nat Neighbours) : Nat := 1 + (todo.map (fun kv => kv.2.ids.length)).sum

/-- clustering.cpp:718-785, one turn of the outer loop -/
def traverse (pick : Pick) (s : State) : Outcome State :=
  let start := pick.first s.todo.keys
  match walk pick s.clusterId (budget s.todo) ⟨s.todo, [start], [], [], []⟩ with
  | .throws => .throws
  | .ub => .ub
  | .ok w =>
    match merge w.connected w.cluster s.clusters with
    | .throws => .throws
    | .ub => .ub
    | .ok (cur, clusters) =>
      let id := newId clusters
      .ok ⟨w.todo, clusters.insertNew id cur, cur.foldl (fun m n => m.set n.refId id) s.clusterId⟩

/-- clustering.cpp:716-786 -/
def outer (pick : Pick) : Nat → State → Outcome State
  | 0, s => if s.todo = [] then .ok s else .ub
  | fuel + 1, s =>
    if s.todo = [] then .ok s
    else match traverse pick s with
      | .ok s => outer pick fuel s
      | .throws => .throws
      | .ub => .ub

/-- clustering.cpp:792-796 -/
def toMap (l : List Neighbours) : AMap Nat Neighbours := l.foldl (fun m n => m.insertNew n.refId n) []

/-- clustering.cpp:707-800; `std::map` is visited in the order of its keys -/
def clusterize (pick : Pick) (neighbours : AMap Nat Neighbours) : Outcome (List (AMap Nat Neighbours)) :=
  (outer pick neighbours.length ⟨neighbours, [], []⟩).map (fun s =>
    ((s.clusters : List (Nat × List Neighbours)).insertionSort (fun a b => a.1 ≤ b.1)).map (fun kv => toMap kv.2))

end Verif.Clusters
