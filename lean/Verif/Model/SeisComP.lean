import Verif.Model.Csv
import Verif.Model.Catalog
import Verif.Model.AzGap
import Verif.Model.Stats
import Mathlib.Data.Rat.Floor

/-!
# Model of the SeisComP adapter (libs/hddsc/utils.{h,cpp})

The SeisComP data model is external: an object is the attributes scrtdd reads or writes.  Optional attributes are
`Option`; reading one that is not set throws.  Doubles are `Fl ℚ`.  Times are microseconds: the conversions `toSC` and
`fromSC` (utils.h:101-113) are taken to be exact.
-/

namespace Verif.SeisComP
open Verif.Catalog

abbrev Num := Fl ℚ

/-- `DataModel::Pick`; `manual` is the evaluation mode -/
structure Pick where
  publicID : String
  time : Int
  networkCode : String
  stationCode : String
  locationCode : String
  channelCode : String
  manual : Option Bool
  uncertainty : Option Num
  lowerUncertainty : Option Num
  upperUncertainty : Option Num
  phaseHint : Option String
deriving DecidableEq, Repr

/-- `DataModel::Arrival` -/
structure Arrival where
  pickID : String
  phase : String
  weight : Option Num
  timeUsed : Option Bool
  timeResidual : Option Num
  azimuth : Option Num
  distance : Option Num
deriving DecidableEq, Repr

/-- `DataModel::Origin` -/
structure Origin where
  publicID : String
  time : Int
  latitude : Num
  longitude : Num
  depth : Option Num
  arrivals : List Arrival
deriving DecidableEq, Repr

/-- `DataModel::SensorLocation` -/
structure SensorLocation where
  latitude : Option Num
  longitude : Option Num
  elevation : Option Num
deriving DecidableEq, Repr

/-- `DataModel::getSensorLocation` of the inventory, by codes and time -/
abbrev Inventory := String → String → String → Int → Option SensorLocation

/-- `DataModel::Event`: its origins and preferred magnitude -/
structure ScEvent where
  originReferences : List String
  preferredMagnitudeID : String

/-- `DataModel::EventParameters`, as far as `getObject` and `getParentEvent` look into it -/
structure EventParameters where
  picks : String → Option Pick
  origins : String → Option Origin
  events : List ScEvent

/-- the object cache, which also loads from the database -/
structure ObjCache where
  picks : String → Option Pick
  origins : String → Option Origin
  magnitudes : String → Option Num

/-- `DataModel::DatabaseQuery` -/
structure Query where
  arrivals : String → List Arrival
  event : String → Option ScEvent

/-- a raw pointer; `wild` is an uninitialised one -/
inductive Ptr (A : Type) where
  | null
  | obj (a : A)
  | wild

namespace Ptr
variable {A : Type}
/-- testing a pointer and using what it points to; reading an uninitialised pointer is undefined behaviour -/
def get : Ptr A → Outcome (Option A)
  | null => .ok none
  | obj a => .ok (some a)
  | wild => .ub

def ofOption : Option A → Ptr A
  | none => null
  | some a => obj a
end Ptr

/-- utils.h:73-75 -/
structure DataSource where
  query : Ptr Query
  cache : Ptr ObjCache
  eventParameters : Ptr EventParameters

namespace DataSource

/-- utils.cpp:111-114: `_eventParameters` is not initialised -/
def ofDatabase (query : Option Query) (cache : Option ObjCache) : DataSource :=
  ⟨Ptr.ofOption query, Ptr.ofOption cache, .wild⟩

/-- utils.cpp:116-118: `_query` and `_cache` are not initialised -/
def ofEventParameters (ep : Option EventParameters) : DataSource := ⟨.wild, .wild, Ptr.ofOption ep⟩

/-- utils.cpp:120-124 -/
def ofAll (query : Option Query) (cache : Option ObjCache) (ep : Option EventParameters) : DataSource :=
  ⟨Ptr.ofOption query, Ptr.ofOption cache, Ptr.ofOption ep⟩

/-- utils.cpp:126-149: first the event parameters, which are searched only for picks, amplitudes, origins and events,
then the cache -/
def getObject {A : Type} (src : DataSource) (fromParameters : EventParameters → Option A) (fromCache : ObjCache → Option A) :
    Outcome (Option A) := do
  let ep ← src.eventParameters.get
  let ret := ep.bind fromParameters
  let cache ← src.cache.get
  .ok (match ret with
    | some a => some a
    | none => cache.bind fromCache)

def getPick (src : DataSource) (id : String) : Outcome (Option Pick) := src.getObject (·.picks id) (·.picks id)
def getOrigin (src : DataSource) (id : String) : Outcome (Option Origin) := src.getObject (·.origins id) (·.origins id)
/-- the class `Magnitude` is not searched in the event parameters -/
def getMagnitude (src : DataSource) (id : String) : Outcome (Option Num) := src.getObject (fun _ => none) (·.magnitudes id)

/-- utils.cpp:151-157 -/
def loadArrivals (src : DataSource) (org : Origin) : Outcome Origin := do
  let query ← src.query.get
  match query with
  | none => .ok org
  | some q => .ok (if org.arrivals.length = 0 then { org with arrivals := q.arrivals org.publicID } else org)

/-- utils.cpp:184-207 -/
def getParentEvent (src : DataSource) (originID : String) : Outcome (Option ScEvent) := do
  let ep ← src.eventParameters.get
  let ret := ep.bind (fun ep => ep.events.find? (fun ev => ev.originReferences.any (fun ref => ref = originID)))
  let query ← src.query.get
  .ok (match ret with
    | some ev => some ev
    | none => query.bind (fun q => q.event originID))

end DataSource

/-- utils.cpp:56-78.  A lower uncertainty without an upper one is kept: only the second assignment throws. -/
def getPickUncertainty (pick : Pick) : Num × Num :=
  match pick.uncertainty with
  | some u => (u, u)
  | none =>
    match pick.lowerUncertainty with
    | none => (.nan, .nan)
    | some l =>
      match pick.upperUncertainty with
      | none => (l, .nan)
      | some u => (l, u)

/-- utils.cpp:276-290: the condition of the `if`; an attribute that is not set throws, which is ignored -/
def discarded (pick : Pick) (arr : Arrival) : Bool :=
  match pick.manual with
  | none => false
  | some manual =>
    if manual then false
    else
      match arr.weight with
      | none => false
      | some w =>
        if w = .num 0 then true
        else
          match arr.timeUsed with
          | none => false
          | some used => !used

/-- utils.cpp:292-319: the catalog with the station of the pick, or `none` if it is not known -/
def withStation (inv : Inventory) (cat : Catalog Num) (pick : Pick) : Outcome (Option (Catalog Num)) :=
  match cat.stations.find? (Catalog.stationIdOf pick.networkCode pick.stationCode pick.locationCode) with
  | some _ => .ok (some cat)
  | none =>
    match inv pick.networkCode pick.stationCode pick.locationCode pick.time with
    | none => .ok none
    | some loc => do
      let latitude ← Outcome.ofOption loc.latitude
      let longitude ← Outcome.ofOption loc.longitude
      let elevation ← Outcome.ofOption loc.elevation
      .ok (some (cat.addStation ⟨"", latitude, longitude, elevation, pick.networkCode, pick.stationCode, pick.locationCode⟩))

/-- utils.cpp:324-335; `u` has the values of the members that are not set -/
def phaseFrom (u : Phase Num) (eventId : Nat) (stationId : String) (pick : Pick) (arr : Arrival) : Phase Num :=
  { u with
    eventId := eventId, stationId := stationId, time := pick.time, lowerUncertainty := (getPickUncertainty pick).1,
    upperUncertainty := (getPickUncertainty pick).2, type := arr.phase, networkCode := pick.networkCode,
    stationCode := pick.stationCode, locationCode := pick.locationCode, channelCode := pick.channelCode,
    isRelocated := false }

/-- utils.cpp:257-336 -/
def addArrival (src : DataSource) (inv : Inventory) (u : Phase Num) (eventId : Nat) (cat : Catalog Num) (arr : Arrival) :
    Outcome (Catalog Num) := do
  let pick ← src.getPick arr.pickID
  match pick with
  | none => .ok cat
  | some pick =>
    if discarded pick arr then .ok cat
    else do
      let c ← withStation inv cat pick
      match c with
      | none => .ok cat
      | some cat =>
        match cat.stations.find? (Catalog.stationIdOf pick.networkCode pick.stationCode pick.locationCode) with
        | none => .ub
        | some sta => .ok (cat.addPhase (phaseFrom u eventId sta.id pick arr))

def addArrivals (src : DataSource) (inv : Inventory) (u : Phase Num) (eventId : Nat) :
    List Arrival → Catalog Num → Outcome (Catalog Num)
  | [], cat => .ok cat
  | arr :: arrs, cat => do
    let cat ← addArrival src inv u eventId cat arr
    addArrivals src inv u eventId arrs cat

/-- utils.cpp:234-249: the preferred magnitude of the event -/
def preferredMagnitude (src : DataSource) : Option ScEvent → Outcome (Option Num)
  | none => .ok none
  | some ev => src.getMagnitude ev.preferredMagnitudeID

/-- utils.cpp:215-338: one origin.  Simplification: after an exception the partially filled catalog is not described. -/
def addOrigin (src : DataSource) (inv : Inventory) (u : Event Num) (v : Phase Num) (org : Origin)
    (s : Catalog Num × AMap Nat Origin) : Outcome (Catalog Num × AMap Nat Origin) := do
  let org ← src.loadArrivals org
  if org.arrivals.length = 0 then .ok s
  else do
    let depth ← Outcome.ofOption org.depth
    let parent ← src.getParentEvent org.publicID
    let mag ← preferredMagnitude src parent
    let ev : Event Num :=
      { u with
        id := 0, time := org.time, latitude := org.latitude, longitude := org.longitude, depth := depth,
        magnitude := mag.getD .nan, isRelocated := false }
    let (cat, r) := s.1.addEvent ev false
    let newEventId ← r
    let cat ← addArrivals src inv v newEventId org.arrivals cat
    .ok (cat, s.2.set newEventId org)

/-- utils.cpp:209-340 -/
def addToCatalog (src : DataSource) (inv : Inventory) (u : Event Num) (v : Phase Num) :
    List Origin → Catalog Num × AMap Nat Origin → Outcome (Catalog Num × AMap Nat Origin)
  | [], s => .ok s
  | org :: origins, s => do
    let s ← addOrigin src inv u v org s
    addToCatalog src inv u v origins s

/-- utils.cpp:347-356 -/
def originsOf (src : DataSource) : List String → Outcome (List Origin)
  | [] => .ok []
  | id :: ids => do
    let org ← src.getOrigin id
    let rest ← originsOf src ids
    .ok (match org with
      | none => rest
      | some org => org :: rest)

/-- utils.cpp:342-359 -/
def addIds (src : DataSource) (inv : Inventory) (u : Event Num) (v : Phase Num) (ids : List String)
    (s : Catalog Num × AMap Nat Origin) : Outcome (Catalog Num × AMap Nat Origin) := do
  let origins ← originsOf src ids
  addToCatalog src inv u v origins s

/-- utils.cpp:377-381; `at` throws when there is no such column -/
def idsOf : List (AMap Csv.Str Csv.Str) → Outcome (List String)
  | [] => .ok []
  | row :: rows =>
    match row.find? "origin".toList with
    | none => .throws
    | some id => do
      let rest ← idsOf rows
      .ok (String.ofList id :: rest)

/-- utils.cpp:361-384; `file` is the content of the file, if it exists -/
def addIdFile (src : DataSource) (inv : Inventory) (u : Event Num) (v : Phase Num) (file : Option Csv.Str)
    (s : Catalog Num × AMap Nat Origin) : Outcome (Catalog Num × AMap Nat Origin) :=
  match file with
  | none => .throws
  | some text => do
    let rows ← Csv.readWithHeader text
    let ids ← idsOf rows
    addIds src inv u v ids s

/-! ## from the catalog to an origin -/

/-- `DataModel::OriginQuality` -/
structure Quality where
  associatedPhaseCount : Nat
  usedPhaseCount : Nat
  associatedStationCount : Nat
  usedStationCount : Nat
  standardError : Num
  medianDistance : ℚ
  minimumDistance : ℚ
  maximumDistance : ℚ
  azimuthalGap : ℚ
  secondaryAzimuthalGap : ℚ
deriving DecidableEq, Repr

/-- the new origin; `sourceOrigin` is the comment at utils.cpp:427-434 -/
structure NewOrigin where
  author : String
  agencyID : String
  methodID : String
  earthModelID : String
  time : Int
  latitude : Num
  longitude : Num
  depth : Num
  sourceOrigin : Option String
  arrivals : List Arrival
  quality : Quality
deriving DecidableEq, Repr

/-- `std::fmod` -/
def fmod (x y : ℚ) : ℚ := x - y * (if 0 ≤ x / y then (⌊x / y⌋ : ℚ) else (⌈x / y⌉ : ℚ))

/-- libs/hdd/utils.h:89-92 -/
def normalizeLon : Num → Num
  | .num lon => .num (fmod (fmod (lon + 180) 360 + 360) 360 - 180)
  | _ => .nan

/-- utils.cpp:47-54 -/
def normalizeAz (az : ℚ) : ℚ := if az < 0 then az + 360 else if az ≥ 360 then az - 360 else az

/-- `std::isfinite` -/
def finite? : Num → Option Num
  | .num x => some (.num x)
  | _ => none

/-- utils.cpp:457-479: the pick among those of the arrivals of the origin with the time and the channel of the phase -/
def existingPick (src : DataSource) (phase : Phase Num) : List Arrival → Outcome (Option Pick)
  | [] => .ok none
  | arr :: arrs => do
    let pick ← src.getPick arr.pickID
    match pick with
    | none => existingPick src phase arrs
    | some pick =>
      if phase.time = pick.time ∧ phase.networkCode = pick.networkCode ∧ phase.stationCode = pick.stationCode ∧
          phase.locationCode = pick.locationCode ∧ phase.channelCode = pick.channelCode then .ok (some pick)
      else existingPick src phase arrs

/-- utils.cpp:481-505; `id` is the generated public id -/
def newPick (id : String) (phase : Phase Num) : Pick :=
  ⟨id, phase.time, phase.networkCode, phase.stationCode, phase.locationCode, phase.channelCode, some false, none,
    finite? phase.lowerUncertainty, finite? phase.upperUncertainty, some phase.type⟩

/-- utils.cpp:439-443 and :394-395: what the loop collects -/
structure Conv where
  arrivals : List Arrival := []
  picks : List Pick := []
  usedPhaseCount : Nat := 0
  azi : List ℚ := []
  staDistances : List ℚ := []
  associatedStations : List String := []
  usedStations : List String := []
deriving DecidableEq, Repr

/-- `DataModel::Origin::add(Arrival*)`: an arrival with the pick of another arrival is not added -/
def addNew (arrs : List Arrival) (a : Arrival) : List Arrival := if arrs.any (fun b => b.pickID = a.pickID) then arrs else arrs ++ [a]

/-- `set::insert` -/
def insertSet (s : List String) (x : String) : List String := if x ∈ s then s else s ++ [x]

/-- the origin the phase comes from -/
def searchPick (src : DataSource) (org : Option Origin) (phase : Phase Num) : Outcome (Option Pick) :=
  match org with
  | none => .ok none
  | some org => existingPick src phase org.arrivals

/-- utils.cpp:446-551.  `delazi` gives distance and azimuth (degrees) from the event to a station, `fresh n` is the public id
of the n-th new pick.  The arrival is added to the origin before distance and azimuth are set through the pointer
(:515-541), which is visible in the origin only if the arrival was added. -/
def convertPhase (src : DataSource) (stations : AMap String (Station Num)) (org : Option Origin) (includeExisting : Bool)
    (fresh : Nat → String) (delazi : Station Num → ℚ × ℚ) (s : Conv) (phase : Phase Num) : Outcome Conv := do
  let found ← searchPick src org phase
  let (pickID, picks) := (match found with
    | some pick => (pick.publicID, if includeExisting then s.picks ++ [pick] else s.picks)
    | none => (fresh s.picks.length, s.picks ++ [newPick (fresh s.picks.length) phase]))
  let arr : Arrival :=
    ⟨pickID, phase.type, some (if phase.isRelocated then phase.weight else .num 0), some phase.isRelocated,
      some (if phase.isRelocated then phase.finalResidual else .num 0), none, none⟩
  let s := { s with picks := picks, associatedStations := insertSet s.associatedStations (phase.networkCode ++ "." ++ phase.stationCode) }
  match stations.find? phase.stationId with
  | none => .ok { s with arrivals := addNew s.arrivals arr }
  | some station =>
    let (distance, az) := delazi station
    let arr := { arr with azimuth := some (.num (normalizeAz az)), distance := some (.num distance) }
    let s := { s with arrivals := addNew s.arrivals arr }
    .ok (if phase.isRelocated then
        { s with
          usedPhaseCount := s.usedPhaseCount + 1, staDistances := s.staDistances ++ [distance], azi := s.azi ++ [az],
          usedStations := insertSet s.usedStations phase.stationId }
      else s)

def convertPhases (src : DataSource) (stations : AMap String (Station Num)) (org : Option Origin) (includeExisting : Bool)
    (fresh : Nat → String) (delazi : Station Num → ℚ × ℚ) : List (Phase Num) → Conv → Outcome Conv
  | [], s => .ok s
  | p :: ps, s => do
    let s ← convertPhase src stations org includeExisting fresh delazi s p
    convertPhases src stations org includeExisting fresh delazi ps s

/-- utils.cpp:386-585: the new origin and the picks to be added.  `phases` are the phases of the event in iteration order.
The first event of an empty catalog, and the nearest station when no phase is used (:580-581), are undefined behaviour. -/
def convertOrigin (src : DataSource) (cat : Catalog Num) (phases : List (Phase Num)) (org : Option Origin)
    (author agencyID methodID earthModelID : String) (includeExisting : Bool) (fresh : Nat → String)
    (delazi : Event Num → Station Num → ℚ × ℚ) (nth : NthElement (id : ℚ → ℚ)) : Outcome (NewOrigin × List Pick) :=
  match cat.eventsSorted with
  | [] => .ub
  | (_, event) :: _ => do
    let s ← convertPhases src cat.stations org includeExisting fresh (delazi event) phases {}
    let gaps := AzGap.gaps s.azi
    match s.staDistances with
    | [] => .ub
    | d :: ds =>
      .ok (⟨author, agencyID, methodID, earthModelID, event.time, event.latitude, normalizeLon event.longitude, event.depth,
        org.map (·.publicID), s.arrivals,
        ⟨s.arrivals.length, s.usedPhaseCount, s.associatedStations.length, s.usedStations.length,
          if event.isRelocated then event.finalRms else .num 0, Stats.computeMedian nth s.staDistances,
          Stats.minElement ds d, Stats.maxElement ds d, gaps.1, gaps.2⟩⟩, s.picks)

end Verif.SeisComP
