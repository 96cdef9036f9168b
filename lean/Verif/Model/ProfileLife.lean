import Verif.Model.Configuration
import Verif.Model.Tables

/-!
# Model of the life of a profile  (apps/scrtdd/rtddtool.cpp:1127-1156, :1199-1217, :1880-2036, :2153-2161, :2200-2223)

What a profile is loaded from, when it is usable, and the commands that load a profile for one task.

The travel-time table is that of `Model/Tables.lean`, the catalogs are read as in `Model/CatalogFile.lean` and
`Model/SeisComP.lean`.  What the tasks do with a loaded profile is modelled elsewhere (`Model/Daemon.lean`,
`Model/ClusterFiles.lean`, `Model/DumpWaveforms.lean`, `Model/WaveformAccess.lean`); here they are named (`Task`), and the
reply tells the object they were given to.  Simplifications: the object is never changed by a task, because the members of
`HDD::DD` that are set by its constructor are not assigned later; the search tree over the events (dd.cpp:140) and the
waveform cache in memory are left out, and so are log messages.
-/

namespace Verif.ProfileLife
open Verif.Catalog Verif.Configuration
open Verif.Csv (Str)
open Verif.Daemon (Num)

/-- rtddtool.h:105-136: the options of the waveform disk cache -/
structure CacheConfig where
  cacheDirectory : Str
  cacheWaveforms : Bool
  cachedWaveformLength : ℚ

/-- What the application sees of its surroundings at one moment; `files` gives the content of a file that exists, `canCreate`
says whether a directory exists or can be created, and `url` is that of the record stream. -/
structure World where
  base : Daemon.World
  rnd : ℚ → ℚ
  files : Str → Option Str
  tables : Tables.World
  url : Str
  canCreate : Str → Bool

/-- libs/hdd/dd.h:322-350 `HDD::DD`; `diskCache` is the directory and the minimum length of the traces, if it is used -/
structure DD where
  cfg : DDConfig
  bgCat : Catalog Num
  table : Tables.Table
  url : Str
  diskCache : Option (Str × ℚ)

/-- rtddtool.h:183-185 -/
structure State where
  loaded : Bool
  dd : Option DD
  lastUsage : Int

/-! ## paths -/

/-- `boost::filesystem::path::operator/` for a second operand that does not begin with a slash -/
def join (a b : Str) : Str :=
  if a = [] then b else if a.getLast? = some '/' then a ++ b else a ++ '/' :: b

/-- rtddtool.cpp:1976 -/
def wfcache (cacheDirectory name : Str) : Str := join (join cacheDirectory name) "wfcache".toList

/-! ## loading -/

/-- catalog.cpp:566-572: the mean of the two uncertainties, if it is a finite number -/
def meanUncertainty (ph : Phase Num) : Option ℚ :=
  match ph.lowerUncertainty, ph.upperUncertainty with
  | .num a, .num b => some ((a + b) / 2)
  | _, _ => none

/-- dd.cpp:130-144: the constructor of `HDD::DD` -/
def newDD (cat : Catalog Num) (cfg : DDConfig) (table : Tables.Table) (url : Str) : DD where
  cfg := cfg
  bgCat := cat.fillProcessingInfo .catalog cfg.validPphases cfg.validSphases
    (fun ph => .num (Catalog.computePickWeight (meanUncertainty ph) cfg.pickUncertaintyClasses))
  table := table
  url := url
  diskCache := none

/-- rtddtool.cpp:1911-1925: the catalog; an empty alternative catalog means that there is none -/
def loadCatalog (w : World) (p : Profile) (alternative : Catalog Num) : Outcome (Catalog Num) :=
  if !Daemon.isEmpty alternative then .ok alternative
  else if p.eventIDFile ≠ "" then do
    let (cat, _) ← SeisComP.addIdFile w.base.source w.base.inventory w.base.rawEvent w.base.rawPhase (w.files p.eventIDFile.toList)
      (Catalog.init, [])
    .ok cat
  else CatalogFile.readNamed w.rnd false w.base.rawEvent w.base.rawPhase w.files p.stationFile.toList p.eventFile.toList p.phaFile.toList

/-- rtddtool.cpp:1909-1984 -/
def loadDD (w : World) (cfg : CacheConfig) (p : Profile) (alternative : Catalog Num) : Outcome DD := do
  let cat ← loadCatalog w p alternative
  let table ← Tables.table w.rnd w.tables p.tttType.toList p.tttModel.toList
  let dd := newDD cat p.ddCfg table w.url
  if cfg.cacheWaveforms then
    let dir := wfcache cfg.cacheDirectory p.name.toList
    if w.canCreate dir then .ok { dd with diskCache := some (dir, cfg.cachedWaveformLength) } else .throws
  else .ok { dd with diskCache := none }

namespace State

/-- rtddtool.cpp:1890; the time of the last usage is not used before the profile is loaded -/
def init (start : Int) : State := ⟨false, none, start⟩

/-- rtddtool.cpp:1998-2004 -/
def unload (now : Int) (_ : State) : State := ⟨false, none, now⟩

/-- rtddtool.cpp:1893-1996 -/
def load (w : World) (cfg : CacheConfig) (p : Profile) (now : Int) (alternative : Catalog Num) (s : State) : Outcome State :=
  if s.loaded then .ok s
  else
    match loadDD w cfg p alternative with
    | .ok dd => .ok ⟨true, some dd, now⟩
    | .throws => .ok (s.unload now)
    | .ub => .ub

end State

/-! ## using a profile -/

/-- the tasks that need a loaded profile -/
inductive Task where
  | preloadWaveforms | freeResources | relocateOrigin | relocateCatalog | dumpWaveforms | dumpClusters
deriving DecidableEq

/-- what a task does: it is done with the object, it does nothing (an empty catalog is returned), or it throws -/
inductive Reply where
  | done (dd : DD)
  | nothing
  | refused

/-- rtddtool.cpp:2006-2016, :2019-2024, :2026-2034, :2153-2162, :2200-2210 and :2213-2223; using the pointer when it is null is
undefined behaviour -/
def perform (now : Int) (task : Task) (s : State) : Outcome (State × Reply) :=
  if !s.loaded then
    match task with
    | .freeResources => .ok (s, .nothing)
    | .relocateOrigin => .ok (s, .nothing)
    | _ => .ok (s, .refused)
  else
    match s.dd with
    | none => .ub
    | some dd => .ok ({ s with lastUsage := now }, .done dd)

/-! ## histories -/

/-- What happens to a profile: it is loaded, possibly with an alternative catalog, unloaded, or used. The profile keeps its
options; everything else may differ from call to call. -/
inductive Op where
  | load (w : World) (cfg : CacheConfig) (now : Int) (alternative : Catalog Num)
  | unload (now : Int)
  | perform (now : Int) (task : Task)

def step (p : Profile) (s : State) : Op → Outcome State
  | .load w cfg now alt => s.load w cfg p now alt
  | .unload now => .ok (s.unload now)
  | .perform now task => do
    let (s, _) ← perform now task s
    .ok s

/-- the state after a history -/
def run (p : Profile) (start : Int) (ops : List Op) : Outcome State := ops.foldlM (step p) (State.init start)

/-! ## the commands -/

/-- what a command does: `run` returns false, or true after the task was done, or lets an exception through -/
inductive Result where
  | fails
  | done (task : Task) (p : Profile) (dd : DD)
  | exception

/-- rtddtool.cpp:1821-1834 -/
def getProfile (name : Str) (profiles : List Profile) : Option Profile :=
  if name = [] then none else profiles.find? (fun p => p.name.toList = name)

/-- rtddtool.cpp:1133-1134, :1143-1144, :1154-1155 and :1205-1217: the profile is loaded and used.  The exceptions of
`relocateCatalog` are caught. -/
def loadAndDo (w : World) (cfg : CacheConfig) (now : Int) (p : Profile) (alternative : Catalog Num) (task : Task) : Outcome Result := do
  let s ← (State.init now).load w cfg p now alternative
  let (_, r) ← perform now task s
  match r with
  | .done dd => .ok (.done task p dd)
  | .nothing => .ok .fails
  | .refused => .ok (if task = .relocateCatalog then .fails else .exception)

/-- rtddtool.cpp:1128-1136, :1149-1157 and :1199-1217: the commands with a catalog -/
def catalogCommand (w : World) (cfg : CacheConfig) (now : Int) (profiles : List Profile) (forceProfile path : Str) (task : Task) :
    Outcome Result := do
  let (cat, _) ← CommandLine.getCatalog w.base w.rnd w.files path
  match getProfile forceProfile profiles with
  | none => .ok .fails
  | some p => if Daemon.isEmpty cat then .ok .fails else loadAndDo w cfg now p cat task

/-- rtddtool.cpp:1139-1146: the command that fills the waveform cache -/
def preloadCommand (w : World) (cfg : CacheConfig) (now : Int) (profiles : List Profile) (forceProfile : Str) : Outcome Result :=
  match getProfile forceProfile profiles with
  | none => .ok .fails
  | some p => loadAndDo w cfg now p Catalog.init .preloadWaveforms

end Verif.ProfileLife
