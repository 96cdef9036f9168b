import Verif.Model.SeisComP
import Verif.Model.Scheduler

/-!
# Model of the real-time application (apps/scrtdd/rtddtool.{h,cpp}): from an arriving object to the published origin

On top of the scheduler (`Model/Scheduler.lean`) this describes what a job does: which origin is relocated and with which
profile, the two relocation steps, what is published, and when profiles are loaded, unloaded and their memory freed.

External things are in a `World`, which may be different at every step: the database, the object cache, the inventory, the
result of loading a profile.  Message objects are values: an object that arrives again does not change the earlier one.
Clock readings are whole seconds.  Not modelled: log messages, the diagnostics directory, the waveform disk cache.
-/

namespace Verif.Daemon
open Verif.Catalog

abbrev Num := SeisComP.Num

/-- `DataModel::Origin`, with the attributes that decide if it is processed; `manual` is the evaluation mode, which has two
values. Simplification: the coordinates are set (without them there is no profile, C53). -/
structure Origin where
  org : SeisComP.Origin
  manual : Option Bool
  author : Option String
  agencyID : String
deriving DecidableEq

/-- `DataModel::Event` -/
structure EventObj where
  publicID : String
  preferredOriginID : String
deriving DecidableEq, Repr

/-- rtddtool.h:197 `Process::obj`: only origins and events are added (rtddtool.cpp:1388-1410) -/
inductive Obj where
  | origin (o : Origin)
  | event (e : EventObj)

def Obj.publicID : Obj → String
  | .origin o => o.org.publicID
  | .event e => e.publicID

/-- libs/hdd/dd.h:65-93 -/
structure ClusteringOptions where
  minNumNeigh : Nat
  maxNumNeigh : Nat
  minNumPhases : Nat
  maxNumPhases : Nat
  numEllipsoids : Nat
  minEvStaDist : Num
  maxEvStaDist : Num
  minEvStaToInterEvRatio : Num
  maxNeighbourDist : Num
deriving DecidableEq

/-- libs/hdd/dd.h:101-110 -/
structure XcorrPhase where
  minCoef : Num
  startOffset : Num
  endOffset : Num
  winScaling : Num
  maxDelay : Num
  components : List String
deriving DecidableEq

/-- libs/hdd/dd.h:95-114 -/
structure XcorrOptions where
  enable : Bool
  minEvStaDist : Num
  maxEvStaDist : Num
  maxInterEvDist : Num
  p : XcorrPhase
  s : XcorrPhase
deriving DecidableEq

/-- `HDD::DD`: the stations of the background catalog and the single-event relocation from the point where the event is
known (dd.cpp:584-650, `Model/RelocateTop.lean`); the arguments are the catalog with the event, if the origin is manual and
the options. Simplification: the result depends on nothing else, in particular not on the waveforms in memory (C37). -/
structure DD where
  stations : AMap String (Station Num)
  relocate : Catalog Num → Bool → ClusteringOptions → XcorrOptions → Outcome (Catalog Num)

/-- dd.cpp:528-582: the first event of a catalog without events is undefined behaviour -/
def DD.relocateSingleEvent (dd : DD) (cat : Catalog Num) (isManual : Bool) (clust : ClusteringOptions) (xcorr : XcorrOptions) :
    Outcome (Catalog Num) :=
  match cat.eventsSorted with
  | [] => .ub
  | _ :: _ => dd.relocate cat isManual clust xcorr

/-- rtddtool.h:161-178: the configuration of a profile; `inside` is the region test (`Model/Region.lean`) -/
structure Profile where
  name : String
  methodID : String
  tttType : String
  tttModel : String
  autoPMap : String
  autoSMap : String
  inside : Num → Num → Bool
  clustering : ClusteringOptions
  xcorr : XcorrOptions

/-- rtddtool.h:183-185 -/
structure ProfileState where
  loaded : Bool
  dd : Option DD
  lastUsage : Int

/-- rtddtool.h:105-136 -/
structure Config where
  onlyPreferredOrigin : Bool
  allowAutomaticOrigin : Bool
  allowManualOrigin : Bool
  acceptedOriginAuthors : List String
  profileTimeAlive : Int
  forceProcessing : Bool
  testMode : Bool
  forceProfile : String
  author : String
  agencyID : String
  sched : Scheduler.Config

/-- What the application sees of its surroundings at one moment. -/
structure World where
  /-- `query()`, null without database -/
  query : Option SeisComP.Query
  /-- the preferred origin of the event of an origin, in the database -/
  preferredOf : String → Option String
  /-- `_cache.get<Origin>` -/
  origins : String → Option Origin
  cache : SeisComP.ObjCache
  eventParameters : Option SeisComP.EventParameters
  inventory : SeisComP.Inventory
  /-- rtddtool.cpp:1909-1984: what loading a profile gives, `none` if it throws -/
  load : Profile → Option DD
  /-- `isAgencyIDBlocked` -/
  blocked : String → Bool
  /-- there is a messaging connection -/
  connected : Bool
  /-- values of members that are not initialised (catalog.h) -/
  rawEvent : Event Num
  rawPhase : Phase Num
  /-- iteration order of the phases -/
  order : List (Phase Num) → List (Phase Num)
  /-- new public ids -/
  fresh : Nat → String
  delazi : Event Num → Station Num → ℚ × ℚ
  nth : NthElement (id : ℚ → ℚ)
  /-- what is left in a catalog that was moved from, which the language does not specify -/
  afterMove : Catalog Num → Catalog Num

/-- rtddtool.cpp:1728 and :2046 -/
def World.source (w : World) : SeisComP.DataSource := SeisComP.DataSource.ofAll w.query (some w.cache) w.eventParameters

/-- catalog.cpp:217-220 -/
def isEmpty (c : Catalog Num) : Bool := c.stations.isEmpty && c.events.isEmpty && c.phases.isEmpty

/-- the reference to the first event, `getEvents().begin()->second` -/
def firstEvent (c : Catalog Num) : Outcome (Event Num) :=
  match c.eventsSorted with
  | [] => .ub
  | kv :: _ => .ok kv.2

/-! ## profiles -/

namespace ProfileState

/-- rtddtool.cpp:1998-2004 -/
def unload (now : Int) (_ : ProfileState) : ProfileState := ⟨false, none, now⟩

/-- rtddtool.cpp:1893-1996 -/
def load (w : World) (now : Int) (p : Profile) (s : ProfileState) : ProfileState :=
  if s.loaded then s
  else
    match w.load p with
    | none => s.unload now
    | some dd => ⟨true, some dd, now⟩

/-- rtddtool.cpp:2019-2024; using the pointer when nothing is loaded is undefined behaviour -/
def freeResources (now : Int) (s : ProfileState) : Outcome ProfileState :=
  if !s.loaded then .ok s
  else
    match s.dd with
    | none => .ub
    | some _ => .ok { s with lastUsage := now }

end ProfileState

/-- rtddtool.cpp:2066-2074: the types of the phases of automatic origins -/
def renamePhase (p : Profile) (ph : Phase Num) : Phase Num :=
  if ph.type = "P" ∧ p.autoPMap ≠ "" then { ph with type := p.autoPMap }
  else if ph.type = "S" ∧ p.autoSMap ≠ "" then { ph with type := p.autoSMap }
  else ph

/-- rtddtool.cpp:2060-2078 -/
def renamePhases (p : Profile) (isManual : Bool) (cat : Catalog Num) : Catalog Num :=
  if !isManual && (p.autoPMap ≠ "" || p.autoSMap ≠ "") then
    { cat with phases := cat.phases.map (fun kv => (kv.1, renamePhase p kv.2)) }
  else cat

/-- rtddtool.cpp:2080-2150: the two steps. The first event of the result of step 1 is read for a log message (:2099). After
`std::move` (:2105) the result of step 1 is read again (:2135-2138). -/
def twoSteps (w : World) (p : Profile) (dd : DD) (isManual : Bool) (cat : Catalog Num) : Outcome (Catalog Num) := do
  let r1 ← dd.relocateSingleEvent cat isManual { p.clustering with minEvStaToInterEvRatio := .num 1 } { p.xcorr with enable := false }
  let (single, left) ← (if isEmpty r1 then .ok (cat, r1) else do
    let _ ← firstEvent r1
    .ok (r1, w.afterMove r1))
  let r2 ← dd.relocateSingleEvent single isManual { p.clustering with numEllipsoids := 1 } p.xcorr
  if isEmpty r2 then .ok r2
  else do
    let ev ← firstEvent r2
    if isEmpty left then .ok r2
    else do
      let prev ← firstEvent left
      if prev.isRelocated then
        match r2.updateEvent { ev with startRms := prev.startRms } false false with
        | (c, .ok _) => .ok c
        | (_, .throws) => .throws
        | (_, .ub) => .ub
      else .ok r2

/-- rtddtool.cpp:2045-2055: the event to relocate, with the stations of the background catalog, and if it is manual -/
def singleEvent (w : World) (dd : DD) (o : Origin) : Outcome (Catalog Num × Bool) := do
  let r ← SeisComP.addToCatalog w.source w.inventory w.rawEvent w.rawPhase [o.org] (⟨dd.stations, [], []⟩, [])
  let isManual ← Outcome.ofOption o.manual
  .ok (r.1, isManual)

/-- rtddtool.cpp:2026-2151 -/
def relocateOrigin (w : World) (now : Int) (p : Profile) (s : ProfileState) (o : Origin) : Outcome (ProfileState × Catalog Num) :=
  if !s.loaded then .ok (s, Catalog.init)
  else
    match s.dd with
    | none => .ub
    | some dd => do
      let (cat, isManual) ← singleEvent w dd o
      let r ← twoSteps w p dd isManual (renamePhases p isManual cat)
      .ok ({ s with lastUsage := now }, r)

/-! ## processing -/

abbrev Published := SeisComP.NewOrigin × List SeisComP.Pick

/-- rtddtool.cpp:1651-1707: the origin is not ignored -/
def accepted (cfg : Config) (w : World) (o : Origin) : Bool :=
  if !cfg.forceProcessing && o.manual.getD false && !cfg.allowManualOrigin then false
  else if !cfg.forceProcessing && !o.manual.getD false && !cfg.allowAutomaticOrigin then false
  else if !cfg.acceptedOriginAuthors.isEmpty && !cfg.forceProcessing &&
      !cfg.acceptedOriginAuthors.any (fun a => o.author = some a) then false
  else if w.blocked o.agencyID && !cfg.forceProcessing then false
  else true

/-- rtddtool.cpp:1640-1775. The result tells if the process can run again, the state of the profile and what is published. -/
def processOrigin (cfg : Config) (w : World) (now : Int) (p : Profile) (s : ProfileState) (o : Origin) :
    Outcome (Bool × ProfileState × Option Published) :=
  if !accepted cfg w o then .ok (false, s, none)
  else do
    let s := s.load w now p
    let (s, cat) ← relocateOrigin w now p s o
    if isEmpty cat then .ok (true, s, none)
    else do
      let ev ← firstEvent cat
      let new ← SeisComP.convertOrigin w.source cat (w.order (cat.phasesOf ev.id)) (some o.org) cfg.author cfg.agencyID p.methodID
        (p.tttType ++ ":" ++ p.tttModel) false w.fresh w.delazi w.nth
      .ok (true, s, some new)

/-- rtddtool.cpp:1856-1878: the position of the first profile with the forced name or around the epicentre -/
def selectProfile (cfg : Config) (o : Origin) (profs : List (Profile × ProfileState)) : Option Nat :=
  profs.findIdx? (fun p => if cfg.forceProfile ≠ "" then p.1.name = cfg.forceProfile else p.1.inside o.org.latitude o.org.longitude)

/-- rtddtool.cpp:1562-1589: the origin and if it is the preferred one; `query()` is used without a check -/
def originOf (w : World) : Obj → Outcome (Option Origin × Bool)
  | .event e => .ok (w.origins e.preferredOriginID, true)
  | .origin o =>
    match w.query with
    | none => .ub
    | some _ => .ok (some o, w.preferredOf o.org.publicID = some o.org.publicID)

/-- rtddtool.cpp:1562-1624 -/
def startProcess (cfg : Config) (w : World) (now : Int) (obj : Obj) (profs : List (Profile × ProfileState)) :
    Outcome (Bool × List (Profile × ProfileState) × Option Published) := do
  let (org, isPreferred) ← originOf w obj
  if cfg.onlyPreferredOrigin && !cfg.forceProcessing && !isPreferred then .ok (false, profs, none)
  else
    match org with
    | none => .ok (false, profs, none)
    | some o =>
      match selectProfile cfg o profs with
      | none => .ok (false, profs, none)
      | some i =>
        match profs[i]? with
        | none => .ub
        | some (p, s) => do
          let (again, s, new) ← processOrigin cfg w now p s o
          .ok (again, profs.set i (p, s), new)

/-! ## the application -/

/-- rtddtool.h:202-219; `objs` are the objects of the processes, by the number of the process. The other members are the
observable effects: origins added to the event parameters (:1739-1745), origins sent (:1747-1772), profiles whose memory was
freed. -/
structure State where
  sched : Scheduler.State
  objs : AMap Nat Obj
  profs : List (Profile × ProfileState)
  stored : List Published
  sent : List Published
  freed : List (Int × String)

/-- rtddtool.cpp:1883 and :1070; `start` is the time of the start, which is not used before a profile is loaded -/
def init (cfg : Config) (profiles : List Profile) (start : Int) : State :=
  ⟨Scheduler.init cfg.sched, [], profiles.map (fun p => (p, ⟨false, none, start⟩)), [], [], []⟩

/-- rtddtool.cpp:1427-1447: one profile; the flag tells if its memory was freed -/
def checkProfile (cfg : Config) (w : World) (now : Int) (ps : Profile × ProfileState) : Outcome ((Profile × ProfileState) × Bool) :=
  let s := ps.2.load w now ps.1
  if 0 ≤ cfg.profileTimeAlive ∧ s.loaded ∧ now - s.lastUsage > cfg.profileTimeAlive then do
    let s ← s.freeResources now
    .ok ((ps.1, s), true)
  else .ok ((ps.1, s), false)

/-- rtddtool.cpp:1425-1448 -/
def checkProfileStatus (cfg : Config) (w : World) (now : Int) :
    List (Profile × ProfileState) → Outcome (List (Profile × ProfileState) × List (Int × String))
  | [] => .ok ([], [])
  | ps :: rest => do
    let (ps, freed) ← checkProfile cfg w now ps
    let (rest, log) ← checkProfileStatus cfg w now rest
    .ok (ps :: rest, if freed then (now, ps.1.name) :: log else log)

/-- rtddtool.cpp:1454-1495: the processes after the crontab was updated -/
def afterCrontab (cfg : Scheduler.Config) (now : Int) (s : Scheduler.State) : Scheduler.State :=
  let s := { s with cron := cfg.wakeupInterval }
  let (s, toRemove) := (Scheduler.sorted s.procs).foldl (Scheduler.cronStep now) (s, [])
  toRemove.foldl Scheduler.removeProcess s

/-- rtddtool.cpp:1739-1772: where the relocated origin goes -/
def publish (cfg : Config) (w : World) (new : Option Published) (s : State) : State :=
  match new with
  | none => s
  | some x =>
    { s with
      stored := if w.eventParameters.isSome then s.stored ++ [x] else s.stored,
      sent := if w.connected && !cfg.testMode then s.sent ++ [x] else s.sent }

/-- rtddtool.cpp:1502-1514; a process in the queue has an object -/
def runFront (cfg : Config) (w : World) (now : Int) (s : State) : Outcome State :=
  match s.sched.queue with
  | [] => .ok s
  | r :: _ =>
    match s.objs.find? r.uid with
    | none => .ub
    | some obj => do
      let (again, profs, new) ← startProcess cfg w now obj s.profs
      .ok (publish cfg w new { s with sched := Scheduler.startNext now again s.sched, profs := profs })

/-- rtddtool.cpp:1450-1516 -/
def runNewJobs (cfg : Config) (w : World) (now : Int) (s : State) : Outcome State :=
  let sched := { s.sched with cron := s.sched.cron - 1 }
  if sched.cron ≤ 0 then runFront cfg w now { s with sched := afterCrontab cfg.sched now sched }
  else .ok { s with sched := sched }

/-- rtddtool.cpp:1413-1417 -/
def handleTimeout (cfg : Config) (w : World) (now : Int) (s : State) : Outcome State := do
  let (profs, freed) ← checkProfileStatus cfg w now s.profs
  runNewJobs cfg w now { s with profs := profs, freed := s.freed ++ freed }

/-- rtddtool.cpp:1522-1554: an existing process keeps the object it was created with -/
def schedule (cfg : Config) (t : Int) (obj : Obj) (s : State) : State :=
  { s with
    sched := Scheduler.schedule cfg.sched t obj.publicID s.sched,
    objs := match s.sched.procs.find? obj.publicID with
      | some _ => s.objs
      | none => s.objs.set s.sched.nextUid obj }

/-- rtddtool.cpp:1518-1558 -/
def addProcess (cfg : Config) (w : World) (t now : Int) (obj : Obj) (s : State) : Outcome State :=
  handleTimeout cfg w now (schedule cfg t obj s)

/-- rtddtool.cpp:1357-1362: the profile with a name is unloaded -/
def reload (now : Int) (name : String) (profs : List (Profile × ProfileState)) : List (Profile × ProfileState) :=
  if name = "" then profs
  else
    match profs.findIdx? (fun p => p.1.name = name) with
    | none => profs
    | some i => profs.modify i (fun p => (p.1, p.2.unload now))

/-- What happens to the application: the timer fires, an object is added for processing (rtddtool.cpp:1347) or a request to
reload a profile arrives (:1350-1371) -/
inductive Op where
  | tick (now : Int) (w : World)
  | add (t now : Int) (obj : Obj) (w : World)
  | reload (now : Int) (name : String)

def step (cfg : Config) (s : State) : Op → Outcome State
  | .tick now w => handleTimeout cfg w now s
  | .add t now obj w => addProcess cfg w t now obj s
  | .reload now name => .ok { s with profs := reload now name s.profs }

/-- The application from its start; an exception or undefined behaviour ends it. -/
def run (cfg : Config) (profiles : List Profile) (start : Int) (ops : List Op) : Outcome State :=
  ops.foldlM (step cfg) (init cfg profiles start)

/-- rtddtool.cpp:1379-1411: the arriving objects that are added for processing. They are added one after the other in the
order of their addresses (:1347, `Todos` is a set of pointers). -/
def todos (cfg : Config) (objs : List Obj) : List Obj :=
  objs.filter (fun | .origin _ => !cfg.onlyPreferredOrigin | .event _ => cfg.onlyPreferredOrigin)

end Verif.Daemon
