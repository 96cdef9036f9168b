import Verif.Model.Catalog

/-!
# What a well formed catalog is (specification of C11–C13)
-/

namespace Verif.Catalog.Catalog
variable {D : Type}

/-- Every station, event and phase is stored under its own id, ids are unique and are values of
`unsigned`; a station's id is made of its codes. -/
structure WF (c : Catalog D) : Prop where
  stationsUnique : c.stations.NodupKeys
  stationKey : ∀ id s, c.stations.find? id = some s →
    s.id = id ∧ stationIdOf s.networkCode s.stationCode s.locationCode = id
  eventsUnique : c.events.NodupKeys
  eventKey : ∀ id e, c.events.find? id = some e → e.id = id ∧ id < uintMod
  phaseKey : ∀ kp ∈ c.phases, kp.2.eventId = kp.1

/-- Moreover every phase belongs to a station of the catalog. -/
structure Placed (c : Catalog D) : Prop extends WF c where
  phaseStation : ∀ kp ∈ c.phases, (c.stations.find? kp.2.stationId).isSome

/-- Moreover every phase belongs to an event and to a station of the catalog. -/
structure Sound (c : Catalog D) : Prop extends WF c where
  phaseEvent : ∀ kp ∈ c.phases, (c.events.find? kp.1).isSome
  phaseStation : ∀ kp ∈ c.phases, (c.stations.find? kp.2.stationId).isSome

/-- Every catalog a program can obtain from the public interface (after a throw the catalog is the
partially updated one).  Event ids are values of `unsigned`; `updateStation` is called with a
station whose id is made of its codes. -/
inductive Reachable : Catalog D → Prop where
  | init : Reachable Catalog.init
  | ofLists {ss es ps c} (hid : ∀ e ∈ es, e.id < uintMod) (h : ofLists ss es ps = .ok c) : Reachable c
  | ofRows {ss es ps c} (hid : ∀ e ∈ es, e.id < uintMod) (h : ofRows ss es ps = .ok c) : Reachable c
  | addStation {c} (s : Station D) (h : Reachable c) : Reachable (c.addStation s)
  | addEvent {c} (e : Event D) (keep : Bool) (hid : e.id < uintMod) (h : Reachable c) :
      Reachable (c.addEvent e keep).1
  | addPhase {c} (p : Phase D) (h : Reachable c) : Reachable (c.addPhase p)
  | addFrom {c o} (id : Nat) (keep : Bool) (h : Reachable c) (ho : Reachable o) :
      Reachable (c.addFrom id o keep).1
  | addAll {c o} (keep : Bool) (h : Reachable c) (ho : Reachable o) :
      Reachable (c.addAll o keep).1
  | extractEvent {c x} (id : Nat) (keep : Bool) (h : Reachable c)
      (hx : c.extractEvent id keep = .ok x) : Reachable x
  | removeEvent {c} (id : Nat) (h : Reachable c) : Reachable (c.removeEvent id)
  | removePhase {c} (id : Nat) (sta type : String) (h : Reachable c) :
      Reachable (c.removePhase id sta type)
  | updateStation {c} (s : Station D) (add : Bool)
      (hs : s.id = stationIdOf s.networkCode s.stationCode s.locationCode) (h : Reachable c) :
      Reachable (c.updateStation s add).1
  | updateEvent {c} (e : Event D) (add keep : Bool) (hid : e.id < uintMod) (h : Reachable c) :
      Reachable (c.updateEvent e add keep).1
  | fillProcessingInfo {c} (src : Source) (vp vs : List String) (w : Phase D → D)
      (h : Reachable c) : Reachable (c.fillProcessingInfo src vp vs w)

end Verif.Catalog.Catalog
