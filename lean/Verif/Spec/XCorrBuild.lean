import Verif.Model.XCorrBuild
import Verif.Spec.Relocate

/-!
# Vocabulary of the statements about cross-correlating a cluster (C60) and multi-event relocation (C72)
-/

namespace Verif.Relocate
open Verif.Catalog

variable {K : Type} [Field K] [LinearOrder K]

/-- a distance limit: a negative one is no limit -/
def WithinLimit (d limit : K) : Prop := d ≤ limit ∨ limit < 0

/-- The cluster asks for the correlation of event `a` with its neighbour `b` for the picks `sp`: `a` has
such a pick at a station within the distance limits, and `b` is listed as a neighbour of `a` for it, not
too far away. -/
def Wanted (x : XcorrArgs K) (cat : Catalog K) (cluster : Cluster) (a b : Nat) (sp : StaPhase) : Prop :=
  ∃ kv ∈ cluster, kv.2.refId = a ∧ ∃ ea eb st, cat.events.find? a = some ea ∧ cat.events.find? b = some eb ∧
    cat.stations.find? sp.1 = some st ∧ (∃ p, IsPick cat a sp p) ∧
    x.minEvStaDist ≤ x.evSta ea st ∧ WithinLimit (x.evSta ea st) x.maxEvStaDist ∧
    WithinLimit (x.evEv ea eb) x.maxInterEvDist ∧ b ∈ kv.2.ids ∧ sp ∈ kv.2.phasesOf b

/-- No event is its own neighbour. -/
def NoSelf (cluster : Cluster) : Prop := ∀ kv ∈ cluster, kv.2.refId ∉ kv.2.ids

/-- The same two events (in either order), station and phase type. -/
def SamePair (c d : XcorrCall K) : Prop :=
  ((c.refEv.id = d.refEv.id ∧ c.ev.id = d.ev.id) ∨ (c.refEv.id = d.ev.id ∧ c.ev.id = d.refEv.id)) ∧
  c.refPhase.stationId = d.refPhase.stationId ∧ c.refPhase.type = d.refPhase.type

/-- The call was for event `a` and its neighbour `b` and picks `sp`, with answer `e`. -/
def Answered (c : XcorrCall K) (a b : Nat) (sp : StaPhase) (e : XCorr.Entry) : Prop :=
  c.refEv.id = a ∧ c.ev.id = b ∧ (c.refPhase.stationId, c.refPhase.type) = sp ∧ c.result = e

/-- The `i`-th call was made with two events of the catalog and a pick of each, of the same station and
type, the second one from the catalog; and this is what it answered. -/
structure GoodCall (x : XcorrArgs K) (cat : Catalog K) (i : Nat) (c : XcorrCall K) : Prop where
  ref : cat.events.find? c.refEv.id = some c.refEv
  ev : cat.events.find? c.ev.id = some c.ev
  refPick : c.refPhase ∈ cat.phasesOf c.refEv.id
  pick : IsPick cat c.ev.id (c.refPhase.stationId, c.refPhase.type) c.phase
  source : c.phase.source = Source.catalog
  answer : x.correlate i c.refEv c.refPhase c.ev c.phase = .ok c.result

end Verif.Relocate
