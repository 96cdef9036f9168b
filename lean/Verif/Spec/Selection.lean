import Verif.Model.Selection
import Verif.Spec.Catalog
import Verif.Spec.KdTree

/-!
# What the selection of neighbours must satisfy (specification of C28–C31, C34)
-/

set_option linter.unusedSectionVars false

namespace Verif.Selection
open Verif.Catalog
variable {K : Type} [Field K] [LinearOrder K]

/-- the event has a phase of that type at that station which is used (not discarded) -/
def UsedPhase (c : Catalog K) (eventId : Nat) (sp : StaPhase) : Prop :=
  ∃ p ∈ c.phasesOf eventId, p.procType ≠ .NO ∧ p.stationId = sp.1 ∧ p.type = sp.2

/-- no two phases of the event are of the same type at the same station -/
def UniquePhases (c : Catalog K) (eventId : Nat) : Prop :=
  ((c.phasesOf eventId).map (fun p => (p.stationId, p.type))).Nodup

/-- the ratio `a / b` is at least `r`; a zero distance between the events is never too large -/
def RatioOk (r a b : K) : Prop := b = 0 ∨ r ≤ a / b

/-- A distance within the configured limits; a limit that is not positive is no limit. -/
def WithinLimits (cfg : Config K) (d : K) : Prop :=
  (0 < cfg.maxESdist → d ≤ cfg.maxESdist) ∧ (0 < cfg.minESdist → cfg.minESdist ≤ d)

/-- A station/phase type for which the pair of events at distance `d` may be used: both events have a
used phase, the neighbour's distance from the station is within limits, and both distances from the
station are large enough in comparison with the distance between the events.  The last clause is all
that the code asks of the distance of the reference event from the station (see C30). -/
def Usable (g : Geometry K) (cfg : Config K) (cat : Catalog K) (refEv : Event K) (refCat : Catalog K)
    (event : Event K) (d : K) (sp : StaPhase) : Prop :=
  ∃ station, cat.stations.find? sp.1 = some station ∧
    UsedPhase cat event.id sp ∧ UsedPhase refCat refEv.id sp ∧
    WithinLimits cfg (g.staDist event station) ∧
    (0 < cfg.minEStoIEratio → RatioOk cfg.minEStoIEratio (g.staDist refEv station) d ∧
      RatioOk cfg.minEStoIEratio (g.staDist event station) d) ∧
    ¬ (0 < cfg.maxESdist ∧ cfg.maxESdist < g.staDist refEv station ∧ g.staDist refEv station < cfg.minESdist)

/-- What is recorded for a neighbour at distance `d` with the phases `phs`. -/
structure Chosen (g : Geometry K) (cfg : Config K) (cat : Catalog K) (refEv : Event K) (refCat : Catalog K)
    (id : Nat) (event : Event K) (d : K) (phs : List StaPhase) : Prop where
  /-- the neighbour is another event -/
  other : id ≠ refEv.id
  /-- it belongs to the catalog -/
  inCatalog : cat.events.find? id = some event
  nonempty : phs ≠ []
  nodup : phs.Nodup
  usable : ∀ sp ∈ phs, Usable g cfg cat refEv refCat event d sp
  atMost : 0 < cfg.maxPhase → phs.length ≤ cfg.maxPhase
  /-- phases are left out only if there are too many, and those of the nearest stations are kept -/
  nearestStations : UniquePhases refCat refEv.id → ∀ sp, Usable g cfg cat refEv refCat event d sp → sp ∉ phs →
    0 < cfg.maxPhase ∧ ∀ sp' ∈ phs, ∀ s s', cat.stations.find? sp.1 = some s → cat.stations.find? sp'.1 = some s' →
      g.staDist refEv s' ≤ g.staDist refEv s
  atLeast : UniquePhases cat id → cfg.maxPhase = 0 ∨ cfg.minPhase ≤ cfg.maxPhase → cfg.minPhase ≤ phs.length

/-- An event which may be a neighbour: another event of the catalog with enough usable phases. -/
def Eligible (g : Geometry K) (cfg : Config K) (cat : Catalog K) (refEv : Event K) (refCat : Catalog K)
    (id : Nat) (d : K) : Prop :=
  id ≠ refEv.id ∧ ∃ event, cat.events.find? id = some event ∧
    ∃ phs : List StaPhase, phs.Nodup ∧ phs ≠ [] ∧ cfg.minPhase ≤ phs.length ∧
      ∀ sp ∈ phs, Usable g cfg cat refEv refCat event d sp

/-- the distances met by the selection are not negative -/
structure Geometry.Nonneg (g : Geometry K) (cat : Catalog K) (refEv : Event K) (t : EventTree K) : Prop where
  dist : ∀ x ∈ t.points, 0 ≤ g.dist x.1 (eventPt refEv)
  refSta : ∀ k s, cat.stations.find? k = some s → 0 ≤ g.staDist refEv s
  evSta : ∀ k s id e, cat.stations.find? k = some s → cat.events.find? id = some e → 0 ≤ g.staDist e s

/-- The index refers to its points, every point belongs to a different event, and the nodes separate
their sub-trees. -/
structure EventTree.WF (t : EventTree K) : Prop where
  indices : (KdTree.contents t.tree).Perm (List.range t.points.length)
  ids : (t.points.map (·.2)).Nodup
  ordered : KdTree.Ordered t.pt 0 t.tree

end Verif.Selection
