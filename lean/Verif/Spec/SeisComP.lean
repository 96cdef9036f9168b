import Verif.Model.SeisComP
import Mathlib.Data.Finset.Card

/-!
# What adding origins to a catalog means
-/

namespace Verif.SeisComP.Spec
open Verif.Catalog

/-- the pick with this id: that of the event parameters, otherwise that of the cache -/
def pickOf (cache : Option ObjCache) (ep : Option EventParameters) (id : String) : Option Pick :=
  (ep.bind (·.picks id)).or (cache.bind (·.picks id))

/-- the origin with this id: that of the event parameters, otherwise that of the cache -/
def originOf (cache : Option ObjCache) (ep : Option EventParameters) (id : String) : Option Origin :=
  (ep.bind (·.origins id)).or (cache.bind (·.origins id))

/-- the origin with its arrivals, from the database if it has none -/
def loaded (query : Option Query) (org : Origin) : Origin :=
  match query with
  | none => org
  | some q => if org.arrivals = [] then { org with arrivals := q.arrivals org.publicID } else org

/-- the preferred magnitude of the event of the origin, which is looked up in the cache only -/
def magnitudeOf (query : Option Query) (cache : Option ObjCache) (ep : Option EventParameters) (org : Origin) : Option Num :=
  ((ep.bind (fun ep => ep.events.find? (fun ev => org.publicID ∈ ev.originReferences))).or
    (query.bind (fun q => q.event org.publicID))).bind (fun ev => cache.bind (·.magnitudes ev.preferredMagnitudeID))

/-- an automatic pick the origin was located without: its weight is zero, or it has a weight but is marked as not used -/
def Unused (arr : Arrival) (pick : Pick) : Prop :=
  pick.manual = some false ∧ (arr.weight = some (.num 0) ∨ (arr.weight ≠ none ∧ arr.timeUsed = some false))

/-- the phase of a pick -/
structure PhaseFrom (eventId : Nat) (x : Arrival × Pick) (ph : Phase Num) : Prop where
  eventId : ph.eventId = eventId
  stationId : ph.stationId = Catalog.stationIdOf x.2.networkCode x.2.stationCode x.2.locationCode
  time : ph.time = x.2.time
  type : ph.type = x.1.phase
  codes : ph.networkCode = x.2.networkCode ∧ ph.stationCode = x.2.stationCode ∧ ph.locationCode = x.2.locationCode ∧
    ph.channelCode = x.2.channelCode
  symmetric : ∀ u, x.2.uncertainty = some u → ph.lowerUncertainty = u ∧ ph.upperUncertainty = u
  asymmetric : ∀ l u, x.2.uncertainty = none → x.2.lowerUncertainty = some l → x.2.upperUncertainty = some u →
    ph.lowerUncertainty = l ∧ ph.upperUncertainty = u
  unknown : x.2.uncertainty = none → x.2.lowerUncertainty = none → x.2.upperUncertainty = none →
    ph.lowerUncertainty = .nan ∧ ph.upperUncertainty = .nan
  isRelocated : ph.isRelocated = false

/-- the event of an origin -/
structure EventFrom (magnitude : Option Num) (org : Origin) (e : Event Num) : Prop where
  time : e.time = org.time
  latitude : e.latitude = org.latitude
  longitude : e.longitude = org.longitude
  depth : org.depth = some e.depth
  magnitude : e.magnitude = magnitude.getD .nan
  isRelocated : e.isRelocated = false

/-- the station has the coordinates of the inventory at some time -/
def FromInventory (inv : Inventory) (s : Station Num) : Prop :=
  ∃ t loc, inv s.networkCode s.stationCode s.locationCode t = some loc ∧ loc.latitude = some s.latitude ∧
    loc.longitude = some s.longitude ∧ loc.elevation = some s.elevation

/-- the picks of the arrivals that can be found -/
def picked (pick : String → Option Pick) (arrs : List Arrival) : List (Arrival × Pick) :=
  arrs.filterMap (fun a => (pick a.pickID).map (fun p => (a, p)))

/-! ## from the catalog to an origin -/

/-- time and channel -/
def SamePick (ph : Phase Num) (p : Pick) : Prop :=
  ph.time = p.time ∧ ph.networkCode = p.networkCode ∧ ph.stationCode = p.stationCode ∧ ph.locationCode = p.locationCode ∧
    ph.channelCode = p.channelCode

instance (ph : Phase Num) (p : Pick) : Decidable (SamePick ph p) := by unfold SamePick; infer_instance

/-- the picks of the arrivals of the source origin -/
def sourcePicks (cache : Option ObjCache) (ep : Option EventParameters) (org : Option Origin) : List Pick :=
  (picked (pickOf cache ep) ((org.map (·.arrivals)).getD [])).map Prod.snd

/-- the value, if it is a number -/
def IfFinite (x : Num) (o : Option Num) : Prop := (∀ a, x = .num a → o = some x) ∧ ((∀ a, x ≠ .num a) → o = none)

/-- an automatic pick made from a phase -/
structure MadeFrom (ph : Phase Num) (p : Pick) : Prop where
  automatic : p.manual = some false
  phaseHint : p.phaseHint = some ph.type
  lower : IfFinite ph.lowerUncertainty p.lowerUncertainty
  upper : IfFinite ph.upperUncertainty p.upperUncertainty

/-- the arrival of a phase and its pick.  The pick is one of those of the source origin if any of them has the time and the
channel of the phase. -/
structure Converted (cache : Option ObjCache) (ep : Option EventParameters) (org : Option Origin) (delazi : Station Num → ℚ × ℚ)
    (stations : AMap String (Station Num)) (ph : Phase Num) (x : Arrival × Pick) : Prop where
  pickID : x.1.pickID = x.2.publicID
  same : SamePick ph x.2
  pick : x.2 ∈ sourcePicks cache ep org ∨
    ((∀ p ∈ sourcePicks cache ep org, ¬ SamePick ph p) ∧ pickOf cache ep x.2.publicID = none ∧ MadeFrom ph x.2)
  phase : x.1.phase = ph.type
  timeUsed : x.1.timeUsed = some ph.isRelocated
  used : ph.isRelocated = true → x.1.weight = some ph.weight ∧ x.1.timeResidual = some ph.finalResidual
  unused : ph.isRelocated = false → x.1.weight = some (.num 0) ∧ x.1.timeResidual = some (.num 0)
  distance : ∀ s, stations.find? ph.stationId = some s → x.1.distance = some (.num (delazi s).1)
  azimuth : ∀ s, stations.find? ph.stationId = some s → ∃ az, x.1.azimuth = some (.num az) ∧ (∃ n : ℤ, az = (delazi s).2 + 360 * n) ∧
    (-360 ≤ (delazi s).2 → (delazi s).2 < 720 → 0 ≤ az ∧ az < 360)

/-- the number of different values -/
def distinct (l : List String) : Nat := l.toFinset.card

end Verif.SeisComP.Spec
