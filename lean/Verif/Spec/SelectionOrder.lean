import Verif.Spec.Selection

/-!
# Specification vocabulary for C111: the same data in another order, and the same neighbours
-/

namespace Verif.Selection
open Verif.Catalog
variable {K : Type} [Field K] [LinearOrder K]

/-- the same events, stations and picks, in any order -/
structure SameData (c c' : Catalog K) : Prop where
  events : ∀ id, c.events.find? id = c'.events.find? id
  stations : ∀ s, c.stations.find? s = c'.stations.find? s
  phases : ∀ id, (c.phasesOf id).Perm (c'.phasesOf id)

/-- the same neighbours of the same event, with the same stations and phase types -/
structure SameNeighbours (nb nb' : Neighbours) : Prop where
  ref : nb.refId = nb'.refId
  ids : nb.ids.Perm nb'.ids
  phases : ∀ id, (nb.phasesOf id).Perm (nb'.phasesOf id)

/-- The maximum number of phases per neighbour leaves no choice for the event `id`: there is no maximum, or it cannot be
exceeded, or no two of the picks are made at stations equally far from the reference event. -/
def PhasesDecided (g : Geometry K) (cfg : Config K) (cat : Catalog K) (refEv : Event K) (id : Nat) : Prop :=
  cfg.maxPhase = 0 ∨ (cat.phasesOf id).length ≤ cfg.maxPhase ∨
  ∀ p ∈ cat.phasesOf id, ∀ q ∈ cat.phasesOf id, ∀ s s', cat.stations.find? p.stationId = some s →
    cat.stations.find? q.stationId = some s' → g.staDist refEv s = g.staDist refEv s' →
    p.stationId = q.stationId ∧ p.type = q.type

/-- no two events of the index are equally far from the reference event -/
def NoTies (g : Geometry K) (refEv : Event K) (t : EventTree K) : Prop :=
  ∀ x ∈ t.points, ∀ y ∈ t.points, g.dist x.1 (eventPt refEv) = g.dist y.1 (eventPt refEv) → x = y

/-- the catalog with the events of a set only -/
def restrict (cat : Catalog K) (S : Nat → Bool) : Catalog K :=
  { cat with events := cat.events.filter (fun kv => S kv.1), phases := cat.phases.filter (fun kp => S kp.1) }

end Verif.Selection
