import Verif.Model.KdTree
import Verif.Model.Neighbours
import Mathlib.Algebra.Order.Field.Basic

/-!
# Model of `selectNeighbouringEvents` and `selectNeighbouringEventsCatalog`
(libs/hdd/clustering.cpp:283-698)

`double` is a linearly ordered field `K`: no rounding, no NaN.  The distances between events, between
an event and a station, and the tests on ellipsoids are the parameter `Geometry`;
`Verif.Model.Ellipsoid` gives the ones of the code.  The spatial index is that of
`Verif.Model.KdTree`.
-/

namespace Verif.Selection
open Verif.Catalog

/-- the arguments of clustering.cpp:301-308 -/
structure Config (K : Type) where
  minESdist : K
  maxESdist : K
  minEStoIEratio : K
  minPhase : Nat
  maxPhase : Nat
  maxNumNeigh : Nat
  numEllipsoids : Nat
  maxNeighbourDist : K

/-- functions of coordinates used by the selection -/
structure Geometry (K : Type) where
  /-- distance between two points of the index -/
  dist : Pt K → Pt K → K
  /-- distance along an axis in the index -/
  axisDist : Nat → Pt K → Pt K → K
  /-- `computeDistance(event, station)` -/
  staDist : Event K → Station K → K
  /-- `Ellipsoid::isInside` for a vertical semi-axis, a centre and a point; the horizontal semi-axes
  are half the vertical one (ellipsoid.h:110-116) -/
  inside : K → Pt K → Pt K → Bool
  /-- `HddEllipsoid::isInQuadrant` for a centre, a point and a quadrant 1-8 -/
  inQuadrant : Pt K → Pt K → Nat → Bool

/-- `EventTree`: the points with the ids of their events, and the tree over them -/
structure EventTree (K : Type) where
  points : List (Pt K × Nat)
  tree : KdNode

/-- the default is never used: the tree only holds indices of points -/
def EventTree.pt {K : Type} [Zero K] (t : EventTree K) (i : Nat) : Pt K := (t.points.getD i (⟨0, 0, 0⟩, 0)).1
def EventTree.data {K : Type} [Zero K] (t : EventTree K) (i : Nat) : Nat := (t.points.getD i (⟨0, 0, 0⟩, 0)).2

variable {K : Type} [Field K] [LinearOrder K]

def eventPt (e : Event K) : Pt K := ⟨e.latitude, e.longitude, e.depth⟩

/-- clustering.cpp:283-295, kdtree.h:53-62 -/
def createEventTree (nth : (pt : Nat → Pt K) → (axis : Nat) → NthElement (fun i => KdTree.coord axis (pt i)))
    (cat : Catalog K) : EventTree K :=
  let points := cat.eventsSorted.map (fun kv => (eventPt kv.2, kv.2.id))
  let pt := fun i => (points.getD i (⟨0, 0, 0⟩, 0)).1
  ⟨points, KdTree.ofPoints pt (nth pt) points.length⟩

/-- catalog.cpp:349-361: the first phase of the event with that station and type -/
def searchPhase (cat : Catalog K) (eventId : Nat) (sp : StaPhase) : Option (Phase K) :=
  (cat.phasesOf eventId).find? (fun p => p.stationId = sp.1 ∧ p.type = sp.2)

/-- `a / b < r` for doubles with `0 ≤ a`, `0 ≤ b`: with `b = 0` the quotient is ∞ or NaN and the test fails -/
def ratioBelow (a b r : K) : Bool := b ≠ 0 ∧ a / b < r

/-- clustering.cpp:329-330 -/
def validStation (cfg : Config K) (d : K) : Bool :=
  (cfg.maxESdist ≤ 0 ∨ d ≤ cfg.maxESdist) ∨ cfg.minESdist ≤ d

section
variable (g : Geometry K) (cfg : Config K) (cat : Catalog K) (refEv : Event K) (refCat : Catalog K)

/-- clustering.cpp:363-415: the entry of `staPhByDistance` for a phase, if it passes.
`validatedStationDistance` (319-334) is inlined: its entry for a station of the catalog is the distance
to the reference event when `validStation` holds. -/
def matchPhase (event : Event K) (eventDistance : K) (phase : Phase K) : Outcome (Option (K × StaPhase)) :=
  match cat.stations.find? phase.stationId with
  | none => .throws
  | some station =>
    let staRef := g.staDist refEv station
    let sta := g.staDist event station
    .ok <|
      if phase.procType = .NO then none
      else if ¬ validStation cfg staRef then none
      else if ratioBelow staRef eventDistance cfg.minEStoIEratio then none
      else if (0 < cfg.maxESdist ∨ 0 < cfg.minESdist ∨ 0 < cfg.minEStoIEratio) ∧
          ((0 < cfg.maxESdist ∧ cfg.maxESdist < sta) ∨ sta < cfg.minESdist ∨
            ratioBelow sta eventDistance cfg.minEStoIEratio) then none
      else match searchPhase refCat refEv.id (phase.stationId, phase.type) with
        | none => none
        | some p => if p.procType = .NO then none else some (staRef, (phase.stationId, phase.type))

/-- `emplace` of a `std::multimap` -/
def insertByKey (l : List (K × StaPhase)) (x : K × StaPhase) : List (K × StaPhase) :=
  l.takeWhile (fun y => y.1 ≤ x.1) ++ x :: l.dropWhile (fun y => y.1 ≤ x.1)

/-- clustering.cpp:355-416 -/
def matchPhases (event : Event K) (eventDistance : K) : List (Phase K) → List (K × StaPhase) →
    Outcome (List (K × StaPhase))
  | [], acc => .ok acc
  | p :: ps, acc =>
    match matchPhase g cfg cat refEv refCat event eventDistance p with
    | .ok none => matchPhases event eventDistance ps acc
    | .ok (some x) => matchPhases event eventDistance ps (insertByKey acc x)
    | .throws => .throws
    | .ub => .ub

/-- clustering.cpp:340-439 -/
def addNeighbour (nb : Neighbours) (eventId : Nat) (eventDistance : K) : Outcome (Neighbours × Bool) :=
  if eventId = refEv.id then .ok (nb, false)
  else match cat.events.find? eventId with
    | none => .ok (nb, false)
    | some event =>
      match matchPhases g cfg cat refEv refCat event eventDistance (cat.phasesOf event.id) [] with
      | .throws => .throws
      | .ub => .ub
      | .ok found =>
        if found.length < cfg.minPhase then .ok (nb, false)
        else
          let kept := if 0 < cfg.maxPhase then found.take cfg.maxPhase else found
          .ok (kept.foldl (fun nb x => nb.add event.id x.2) nb, true)

/-! ## nearest neighbours -/

/-- clustering.cpp:450-468; an exception of `addNeighbour` ends the search -/
def nearestVisit (t : EventTree K) (s : Outcome Neighbours) (i : Nat) (d : K) : Outcome Neighbours × Bool :=
  match s with
  | .ok nb =>
    if cfg.maxNeighbourDist < d then (.ok nb, true)
    else match addNeighbour g cfg cat refEv refCat nb (t.data i) d with
      | .ok (nb, added) => (.ok nb, decide (added ∧ 0 < cfg.maxNumNeigh ∧ cfg.maxNumNeigh ≤ nb.amount))
      | .throws => (.throws, true)
      | .ub => (.ub, true)
  | s => (s, true)

/-- clustering.cpp:447-474 -/
def nearest (pop : KdTree.Pop K) (t : EventTree K) : Outcome Neighbours :=
  match KdTree.bestFirst t.pt g.dist g.axisDist (eventPt refEv) pop 0 (nearestVisit g cfg cat refEv refCat t)
      t.tree (.ok (Neighbours.empty refEv.id)) with
  | some r => r
  | none => .ub

/-! ## concentric ellipsoids -/

/-- the (inner, outer) vertical semi-axes of the layers, from the innermost, clustering.cpp:480-489 -/
def layersFrom (v : K) : Nat → List (K × K)
  | 0 => []
  | 1 => [(0, v)]
  | n + 2 => layersFrom (v / 2) (n + 1) ++ [(v / 2, v)]

/-- clustering.cpp:529,537: the combinations of a layer and a quadrant in the order they are visited -/
def cells (v : K) (n : Nat) : List ((K × K) × Nat) :=
  (layersFrom v n).flatMap (fun l => [1, 2, 3, 4, 5, 6, 7, 8].map (fun q => (l, q)))

/-- ellipsoid.h:149-161 -/
def inCell (center : Pt K) (cell : (K × K) × Nat) (p : Pt K) : Bool :=
  g.inQuadrant center p cell.2 && (g.inside cell.1.2 center p && !g.inside cell.1.1 center p)

/-- range `[lower_bound, upper_bound)` of clustering.cpp:531-534; the multimap is sorted, so the
iterators delimit the entries whose distance is in the range -/
def inRange (cell : (K × K) × Nat) (d : K) : Bool := cell.1.1 / 2 ≤ d ∧ d ≤ cell.1.2

/-- clustering.cpp:541-570: remaining entries, neighbours, whether an event was tried -/
def scanCell (t : EventTree K) (cell : (K × K) × Nat) :
    List (K × Nat) → Neighbours → Outcome (List (K × Nat) × Neighbours × Bool)
  | [], nb => .ok ([], nb, false)
  | (d, i) :: rest, nb =>
    if inRange cell d && inCell g (eventPt refEv) cell (t.pt i) then
      match addNeighbour g cfg cat refEv refCat nb (t.data i) d with
      | .ok (nb, true) => .ok (rest, nb, true)
      | .ok (nb, false) =>
        match scanCell t cell rest nb with
        | .ok (rest, nb, _) => .ok (rest, nb, true)
        | .throws => .throws
        | .ub => .ub
      | .throws => .throws
      | .ub => .ub
    else
      match scanCell t cell rest nb with
      | .ok (rest, nb, m) => .ok ((d, i) :: rest, nb, m)
      | .throws => .throws
      | .ub => .ub

/-- one pass of the `while` loop, clustering.cpp:526-582: remaining entries, neighbours, `match`,
whether to go on -/
def sweep (t : EventTree K) : List ((K × K) × Nat) → List (K × Nat) → Neighbours → Bool →
    Outcome (List (K × Nat) × Neighbours × Bool × Bool)
  | [], pts, nb, m => .ok (pts, nb, m, true)
  | c :: cs, pts, nb, m =>
    match scanCell g cfg cat refEv refCat t c pts nb with
    | .ok (pts, nb, m') =>
      if pts = [] ∨ (0 < cfg.maxNumNeigh ∧ cfg.maxNumNeigh ≤ nb.amount) then .ok (pts, nb, m || m', false)
      else sweep t cs pts nb (m || m')
    | .throws => .throws
    | .ub => .ub

/-- why the round robin ended: nothing left or enough neighbours, or the "safety belt" of
clustering.cpp:584-590 with the entries that remained -/
inductive RoundEnd (K : Type) where
  | finished
  | stuck (remaining : List (K × Nat))
  | outOfFuel

/-- clustering.cpp:524-591; `fuel` bounds the passes (`outOfFuel` is shown impossible) -/
def rounds (t : EventTree K) (cs : List ((K × K) × Nat)) :
    Nat → List (K × Nat) → Neighbours → Outcome (Neighbours × RoundEnd K)
  | 0, _, nb => .ok (nb, .outOfFuel)
  | fuel + 1, pts, nb =>
    match sweep g cfg cat refEv refCat t cs pts nb false with
    | .ok (_, nb, _, false) => .ok (nb, .finished)
    | .ok (pts, nb, false, true) => .ok (nb, .stuck pts)
    | .ok (pts, nb, true, true) => rounds t cs fuel pts nb
    | .throws => .throws
    | .ub => .ub

/-- clustering.cpp:480-516: events in the radius of the outermost ellipsoid and inside of it -/
def candidates (t : EventTree K) : List (K × Nat) :=
  (KdTree.radiusSearch t.pt g.dist g.axisDist (eventPt refEv) t.tree (cfg.maxNeighbourDist * 2)).filter
    (fun x => g.inside (cfg.maxNeighbourDist * 2) (eventPt refEv) (t.pt x.2))

/-- clustering.cpp:475-592 -/
def ellipsoids (t : EventTree K) : Outcome (Neighbours × RoundEnd K) :=
  let pts := candidates g cfg refEv t
  if pts = [] then .ok (Neighbours.empty refEv.id, .finished)
  else rounds g cfg cat refEv refCat t (cells (cfg.maxNeighbourDist * 2) cfg.numEllipsoids) (pts.length + 1) pts
    (Neighbours.empty refEv.id)

/-- clustering.cpp:297-595 -/
def selectNeighbours (pop : KdTree.Pop K) (t : EventTree K) : Outcome Neighbours :=
  let numEllipsoids := if cfg.maxNumNeigh = 0 then 0 else cfg.numEllipsoids
  if numEllipsoids = 0 then nearest g cfg cat refEv refCat pop t
  else (ellipsoids g cfg cat refEv refCat t).map (·.1)

end

/-! ## the whole catalog -/

section
variable (g : Geometry K) (cfg : Config K) (minNumNeigh : Nat) (pop : KdTree.Pop K) (t : EventTree K)

/-- the variables of clustering.cpp:612-619 -/
structure CatState (K : Type) where
  valid : Catalog K
  removed : List Nat
  found : AMap Nat Neighbours

/-- clustering.cpp:622-641 -/
def firstPass : List (Nat × Event K) → CatState K → Outcome (CatState K)
  | [], s => .ok s
  | (_, event) :: rest, s =>
    match selectNeighbours g cfg s.valid event s.valid pop t with
    | .ok nb =>
      if minNumNeigh ≤ nb.amount then firstPass rest { s with found := s.found.insertNew nb.refId nb }
      else firstPass rest { s with removed := event.id :: s.removed, valid := s.valid.removeEvent event.id }
    | .throws => .throws
    | .ub => .ub

/-- clustering.cpp:651-691: `found` collects `validNeighbours`; the result is the state and `redo`.
The dereference of `find(...)` (671) is undefined if the event is missing. -/
def redoPass : List (Nat × Neighbours) → CatState K → Bool → Outcome (CatState K × Bool)
  | [], s, redo => .ok (s, redo)
  | (_, nb) :: rest, s, redo =>
    if nb.ids.any (fun i => decide (i ∈ s.removed)) then
      match s.valid.events.find? nb.refId with
      | none => .ub
      | some event =>
        match selectNeighbours g cfg s.valid event s.valid pop t with
        | .ok nb =>
          if nb.amount < minNumNeigh then
            redoPass rest { s with removed := nb.refId :: s.removed, valid := s.valid.removeEvent nb.refId } true
          else redoPass rest { s with found := s.found.insertNew nb.refId nb } redo
        | .throws => .throws
        | .ub => .ub
    else redoPass rest { s with found := s.found.insertNew nb.refId nb } redo

/-- clustering.cpp:646-695. `order` is the iteration order of the `std::unordered_map`. `fuel` bounds the
iterations (`ub` is the result when it runs out, shown impossible). -/
def redoLoop (order : AMap Nat Neighbours → List (Nat × Neighbours)) :
    Nat → CatState K → Outcome (AMap Nat Neighbours)
  | 0, _ => .ub
  | fuel + 1, s =>
    match redoPass g cfg minNumNeigh pop t (order s.found) { s with found := [] } false with
    | .ok (s, true) => redoLoop order fuel s
    | .ok (s, false) => .ok s.found
    | .throws => .throws
    | .ub => .ub

/-- clustering.cpp:597-698 -/
def selectCatalog (order : AMap Nat Neighbours → List (Nat × Neighbours)) (cat : Catalog K) :
    Outcome (AMap Nat Neighbours) :=
  match firstPass g cfg minNumNeigh pop t cat.eventsSorted ⟨cat, [], []⟩ with
  | .ok s => redoLoop g cfg minNumNeigh pop t order (s.found.length + 1) s
  | .throws => .throws
  | .ub => .ub

end
end Verif.Selection
