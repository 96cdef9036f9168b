import Verif.Model.ProfileLife

/-!
# Specification of the life of a profile (C116)
-/

namespace Verif.ProfileLife.Spec
open Verif.Catalog Verif.Configuration
open Verif.Csv (Str)
open Verif.Daemon (Num)

/-- a catalog without any content -/
def NoContent (c : Catalog Num) : Prop := c.stations = [] ∧ c.events = [] ∧ c.phases = []

/-- Where the catalog of a profile comes from: the alternative catalog if it has any content, else the file of origin ids if
one is configured, else the three files. -/
inductive Source (w : World) (p : Profile) (alternative : Catalog Num) : Catalog Num → Prop
  | alternative (h : ¬ NoContent alternative) : Source w p alternative alternative
  | ids (h : NoContent alternative) (hp : p.eventIDFile ≠ "") {text : Str} (hf : w.files p.eventIDFile.toList = some text)
      {cat : Catalog Num} {m : AMap Nat SeisComP.Origin}
      (hc : SeisComP.addIdFile w.base.source w.base.inventory w.base.rawEvent w.base.rawPhase (some text) (Catalog.init, []) = .ok (cat, m)) :
      Source w p alternative cat
  | files (h : NoContent alternative) (hp : p.eventIDFile = "") {station event phase : Str}
      (hs : w.files p.stationFile.toList = some station) (he : w.files p.eventFile.toList = some event)
      (hph : w.files p.phaFile.toList = some phase) {cat : Catalog Num}
      (hc : CatalogFile.read w.rnd false w.base.rawEvent w.base.rawPhase { station, event, phase } = .ok cat) :
      Source w p alternative cat

/-- The uncertainty of a pick that counts for its weight is half way between the two given with it, if both are numbers. -/
def halfWay (lower upper : Num) : Option ℚ :=
  match lower with
  | .num l => match upper with
    | .num u => some (l + (u - l) / 2)
    | _ => none
  | _ => none

/-- The object is made from the configured catalog, table, options and record stream, and it has a disk cache in the directory
of the profile exactly if this is configured. -/
structure MadeFrom (w : World) (cfg : CacheConfig) (p : Profile) (alternative : Catalog Num) (dd : DD) : Prop where
  catalog : ∃ cat, Source w p alternative cat ∧ dd.bgCat = cat.fillProcessingInfo .catalog p.ddCfg.validPphases p.ddCfg.validSphases
    (fun ph => .num (Catalog.computePickWeight (halfWay ph.lowerUncertainty ph.upperUncertainty) p.ddCfg.pickUncertaintyClasses))
  table : Tables.table w.rnd w.tables p.tttType.toList p.tttModel.toList = .ok dd.table
  options : dd.cfg = p.ddCfg
  stream : dd.url = w.url
  noCache : cfg.cacheWaveforms = false → dd.diskCache = none
  cache : cfg.cacheWaveforms = true → dd.diskCache = some (wfcache cfg.cacheDirectory p.name.toList, cfg.cachedWaveformLength) ∧
    w.canCreate (wfcache cfg.cacheDirectory p.name.toList) = true

/-- an attempt to load the profile that cannot succeed, or another use of it; the profile is not unloaded -/
def Idle (p : Profile) : Op → Prop
  | .load w cfg _ alt => ∀ dd, ¬ MadeFrom w cfg p alt dd
  | .unload _ => False
  | .perform _ _ => True

def IsUnload : Op → Prop
  | .unload _ => True
  | _ => False

/-- `dd` was made by the first loading that could succeed since the profile was last unloaded, or since the start -/
def Loaded (p : Profile) (ops : List Op) (dd : DD) : Prop :=
  ∃ before since w cfg now alt later, ops = before ++ since ++ Op.load w cfg now alt :: later ∧
    (before = [] ∨ ∃ b t, before = b ++ [Op.unload t]) ∧ (∀ op ∈ since, Idle p op) ∧ MadeFrom w cfg p alt dd ∧
    ∀ op ∈ later, ¬ IsUnload op

/-- the parts of a path, without empty ones -/
def parts (path : Str) : List Str := (path.splitOn '/').filter (· ≠ [])

/-- a profile name that is the name of one directory -/
def PlainName (name : Str) : Prop := name ≠ [] ∧ '/' ∉ name ∧ name ≠ ".".toList ∧ name ≠ "..".toList

/-- a directory is in another one, or the same -/
def Within (a b : Str) : Prop := parts b <+: parts a

end Verif.ProfileLife.Spec
