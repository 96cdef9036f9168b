import Verif.Base.AMap
import Verif.Base.Outcome
import Mathlib.Data.Rat.Floor
import Mathlib.Data.List.Sort

/-!
# Model of `libs/hdd/catalog.{h,cpp}`

`D` is the type of the double valued attributes (latitude, magnitude, …): the catalog only copies
them, so the theorems hold for any type, IEEE doubles with NaN included.

* `std::map<unsigned, Event>`: `AMap Nat Event`; iteration in ascending order is `eventsSorted`.
* `std::unordered_map<string, Station>`: `AMap String Station`; iteration order is never used.
* `std::unordered_multimap<unsigned, Phase>`: list of key/phase pairs, `equal_range(k)` are the
  pairs with key `k`.  The order of equal keys is unspecified in C++, so property theorems speak
  about membership or up to permutation.
* `unsigned` is a `Nat` below 2³²; the one place where arithmetic is done on it wraps explicitly.
* A member function returns the catalog after the call together with its outcome, because a throw
  can leave the catalog partially updated.  Simplification: the argument catalog of `add` is not
  the catalog itself.
-/

namespace Verif.Catalog

/-- catalog.h:45-67 -/
structure Station (D : Type) where
  id : String
  latitude : D
  longitude : D
  elevation : D
  networkCode : String
  stationCode : String
  locationCode : String
deriving DecidableEq, Repr

/-- catalog.h:69-95 -/
structure Event (D : Type) where
  id : Nat
  time : Int
  latitude : D
  longitude : D
  depth : D
  magnitude : D
  isRelocated : Bool
  startRms : D
  finalRms : D
deriving DecidableEq, Repr

/-- catalog.h:110-115 -/
inductive PhaseType where
  | P
  | S
  | NO
deriving DecidableEq, Repr

/-- catalog.h:117-122 -/
inductive Source where
  | catalog
  | rtEventManual
  | rtEventAutomatic
deriving DecidableEq, Repr

/-- catalog.h:97-158 -/
structure Phase (D : Type) where
  eventId : Nat
  stationId : String
  time : Int
  lowerUncertainty : D
  upperUncertainty : D
  type : String
  networkCode : String
  stationCode : String
  locationCode : String
  channelCode : String
  procType : PhaseType
  classWeight : D
  source : Source
  isRelocated : Bool
  weight : D
  startResidual : D
  finalResidual : D
deriving DecidableEq, Repr

/-- catalog.h:243-245 -/
structure Catalog (D : Type) where
  stations : AMap String (Station D)
  events : AMap Nat (Event D)
  phases : List (Nat × Phase D)

variable {D : Type}

/-- 2³², the number of values of `unsigned` -/
def uintMod : Nat := 4294967296

namespace Catalog

/-- catalog.h:160 -/
def init : Catalog D := ⟨[], [], []⟩

/-- `_phases.equal_range(id)` -/
def phasesOf (c : Catalog D) (id : Nat) : List (Phase D) :=
  (c.phases.filter (fun kp => kp.1 = id)).map (·.2)

/-- iteration over `std::map`: ascending ids -/
def eventsSorted (c : Catalog D) : List (Nat × Event D) :=
  c.events.insertionSort (fun a b => a.1 ≤ b.1)

/-- the id of a station, catalog.cpp:365-366, :345, :108, :184 -/
def stationIdOf (net sta loc : String) : String := net ++ "." ++ sta ++ "." ++ loc

/-- catalog.cpp:363-374 -/
def addStation (c : Catalog D) (s : Station D) : Catalog D :=
  let id := stationIdOf s.networkCode s.stationCode s.locationCode
  match c.stations.find? id with
  | some _ => c
  | none => { c with stations := c.stations.set id { s with id := id } }

/-- `_events.rbegin()->first`, or 0 when empty (catalog.cpp:389-390) -/
def maxKey (c : Catalog D) : Nat := c.events.keys.foldl max 0

/-- catalog.cpp:376-396; `maxKey + 1` is computed in `unsigned` -/
def addEvent (c : Catalog D) (e : Event D) (keepEvId : Bool) : Catalog D × Outcome Nat :=
  if keepEvId then
    match c.events.find? e.id with
    | some _ => (c, .throws)
    | none => ({ c with events := c.events.set e.id e }, .ok e.id)
  else
    let newId := (c.maxKey + 1) % uintMod
    ({ c with events := c.events.set newId { e with id := newId } }, .ok newId)

/-- catalog.cpp:398-401 -/
def addPhase (c : Catalog D) (p : Phase D) : Catalog D :=
  { c with phases := c.phases ++ [(p.eventId, p)] }

/-- loop body of catalog.cpp:250-260 and :271-281: copy one phase and its station from the catalog
with stations `sts` -/
def copyPhase (sts : AMap String (Station D)) (newId : Nat) (c : Catalog D) (p : Phase D) :
    Catalog D × Outcome Unit :=
  match sts.find? p.stationId with
  | none => (c, .throws)
  | some s => ((c.addStation s).addPhase { p with eventId := newId }, .ok ())

/-- the loop of catalog.cpp:250-260 and :271-281 -/
def copyPhases (sts : AMap String (Station D)) (newId : Nat) (c : Catalog D) :
    List (Phase D) → Catalog D × Outcome Unit
  | [] => (c, .ok ())
  | p :: ps =>
    match copyPhase sts newId c p with
    | (c', .ok ()) => copyPhases sts newId c' ps
    | (c', .throws) => (c', .throws)
    | (c', .ub) => (c', .ub)

/-- catalog.cpp:265-284; dereferencing the end iterator when `evId` is not in `evCat` is undefined
behaviour -/
def addFrom (c : Catalog D) (evId : Nat) (evCat : Catalog D) (keepEvId : Bool) :
    Catalog D × Outcome Nat :=
  match evCat.events.find? evId with
  | none => (c, .ub)
  | some e =>
    match c.addEvent e keepEvId with
    | (c', .ok newId) =>
      match copyPhases evCat.stations newId c' (evCat.phasesOf e.id) with
      | (c'', .ok ()) => (c'', .ok newId)
      | (c'', .throws) => (c'', .throws)
      | (c'', .ub) => (c'', .ub)
    | (c', .throws) => (c', .throws)
    | (c', .ub) => (c', .ub)

/-- loop of catalog.cpp:224-233 -/
def addAllLoop (other : Catalog D) (keepEvId : Bool) (c : Catalog D) :
    List (Nat × Event D) → Catalog D × Outcome Unit
  | [] => (c, .ok ())
  | kv :: kvs =>
    if keepEvId = true ∧ (c.events.find? kv.2.id).isSome then addAllLoop other keepEvId c kvs
    else
      match c.addFrom kv.2.id other keepEvId with
      | (c', .ok _) => addAllLoop other keepEvId c' kvs
      | (c', .throws) => (c', .throws)
      | (c', .ub) => (c', .ub)

/-- catalog.cpp:222-234 -/
def addAll (c : Catalog D) (other : Catalog D) (keepEvId : Bool) : Catalog D × Outcome Unit :=
  addAllLoop other keepEvId c other.eventsSorted

/-- catalog.cpp:236-263 -/
def extractEvent (c : Catalog D) (eventId : Nat) (keepEvId : Bool) : Outcome (Catalog D) :=
  match c.events.find? eventId with
  | none => .throws
  | some e =>
    match init.addEvent e keepEvId with
    | (x, .ok newId) =>
      match copyPhases c.stations newId x (c.phasesOf e.id) with
      | (x', .ok ()) => .ok x'
      | (_, .throws) => .throws
      | (_, .ub) => .ub
    | (_, .throws) => .throws
    | (_, .ub) => .ub

/-- catalog.cpp:286-295 -/
def removeEvent (c : Catalog D) (eventId : Nat) : Catalog D :=
  { c with
    events := c.events.erase eventId
    phases := c.phases.filter (fun kp => kp.1 ≠ eventId) }

/-- catalog.cpp:349-361 and :297-307: erases the first phase found.  Simplification: "first" is the
order of insertion; C++ leaves it unspecified. -/
def removePhase (c : Catalog D) (eventId : Nat) (stationId type : String) : Catalog D :=
  { c with
    phases := c.phases.eraseP
      (fun kp => decide (kp.1 = eventId ∧ kp.2.stationId = stationId ∧ kp.2.type = type)) }

/-- catalog.cpp:340-347 -/
def searchStation (c : Catalog D) (net sta loc : String) : Option (Station D) := c.stations.find? (stationIdOf net sta loc)

/-- catalog.cpp:309-323 -/
def updateStation (c : Catalog D) (s : Station D) (addIfMissing : Bool) : Catalog D × Bool :=
  match c.stations.find? s.id with
  | some _ => ({ c with stations := c.stations.set s.id s }, true)
  | none => (if addIfMissing then c.addStation s else c, false)

/-- catalog.cpp:325-338 -/
def updateEvent (c : Catalog D) (e : Event D) (addIfMissing keepEvId : Bool) :
    Catalog D × Outcome Bool :=
  match c.events.find? e.id with
  | some _ => ({ c with events := c.events.set e.id e }, .ok true)
  | none =>
    if addIfMissing then
      match c.addEvent e keepEvId with
      | (c', .ok _) => (c', .ok false)
      | (c', .throws) => (c', .throws)
      | (c', .ub) => (c', .ub)
    else (c, .ok false)

/-- catalog.cpp:52-68 -/
def addEvents (c : Catalog D) : List (Event D) → Catalog D × Outcome Unit
  | [] => (c, .ok ())
  | e :: es =>
    match c.addEvent e true with
    | (c', .ok _) => addEvents c' es
    | (c', .throws) => (c', .throws)
    | (c', .ub) => (c', .ub)

/-- catalog.cpp:52-68 -/
def ofLists (stations : List (Station D)) (events : List (Event D)) (phases : List (Phase D)) :
    Outcome (Catalog D) :=
  match (stations.foldl addStation init).addEvents events with
  | (c, .ok ()) => .ok (phases.foldl addPhase c)
  | (_, .throws) => .throws
  | (_, .ub) => .ub

/-- catalog.cpp:109, :149, :206: the assignments of the constructor that reads CSV files, given the
parsed rows (the files themselves are modelled in `Verif.CatalogFile`).  A phase of an unknown station throws, a phase of an unknown event is kept. -/
def ofRows (stations : List (Station D)) (events : List (Event D)) (phases : List (Phase D)) :
    Outcome (Catalog D) :=
  let sts := stations.foldl (fun (m : AMap String (Station D)) s =>
    let id := stationIdOf s.networkCode s.stationCode s.locationCode
    m.set id { s with id := id }) ([] : AMap String (Station D))
  let evs := events.foldl (fun (m : AMap Nat (Event D)) e => m.set e.id e) ([] : AMap Nat (Event D))
  let phs := phases.map fun p =>
    { p with stationId := stationIdOf p.networkCode p.stationCode p.locationCode }
  if phs.all (fun p => (sts.find? p.stationId).isSome) then
    .ok ⟨sts, evs, phs.map fun p => (p.eventId, p)⟩
  else .throws

/-! ## processing information -/

/-- catalog.cpp:534-550 -/
def classify (validP validS : List String) (type : String) : PhaseType :=
  if type ∈ validP then .P else if type ∈ validS then .S else .NO

/-- catalog.cpp:513-556; `pickWeight` is `computePickWeight` below -/
def fillProcessingInfo (c : Catalog D) (source : Source) (validP validS : List String)
    (pickWeight : Phase D → D) : Catalog D :=
  { c with
    phases := c.eventsSorted.flatMap fun kv =>
      (c.phasesOf kv.2.id).map fun p =>
        let p' := { p with
          classWeight := pickWeight p, source := source, procType := classify validP validS p.type }
        (p'.eventId, p') }

/-- loop of catalog.cpp:576-585: index of the first class interval `[l₀,l₁]` containing `u`,
counting from `curr` -/
def classLoop (u : ℚ) (curr : Nat) : List ℚ → Option Nat
  | l₀ :: l₁ :: rest =>
    if u ≥ l₀ ∧ u ≤ l₁ then some curr else classLoop u (curr + 1) (l₁ :: rest)
  | _ => none

/-- catalog.cpp:558-589.  The mean of the two uncertainties is `none` when it is not a finite
number (missing uncertainties are NaN, catalog.cpp:174-178). -/
def computePickWeight (uncertainty : Option ℚ) (classes : List ℚ) : ℚ :=
  if classes.length < 2 then 1
  else
    let lowest := classes.length - 1
    let cls :=
      match uncertainty with
      | none => lowest
      | some u =>
        if u ≥ 0 ∧ u < classes.getLast?.getD 0 then (classLoop u 0 classes).getD lowest else lowest
    1 / 2 ^ cls

end Catalog
end Verif.Catalog
