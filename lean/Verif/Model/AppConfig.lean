import Verif.Model.Configuration

/-!
# The parameters of the application (C133)

`RTDD::validateParameters` before and after the profiles (C105), and the file with the default values that is installed with
the application, apps/scrtdd/config/scrtdd.cfg.

Simplifications: how a text is converted to a value is a parameter (`Conversions`), as well as the author, the agency and the
parameters of SeisComP itself.
-/

namespace Verif.AppConfig
open Verif.Configuration

/-- rtddtool.h:107-115 and :134, the members that are read from the configuration -/
structure Settings where
  onlyPreferredOrigin : Bool
  allowAutomaticOrigin : Bool
  allowManualOrigin : Bool
  activeProfiles : List String
  delayTimes : List Int
  profileTimeAlive : Int
  cacheWaveforms : Bool
  cacheDirectory : String
  cachedWaveformLength : ℚ
  acceptedOriginAuthors : List String

/-- a getter throws when the parameter is missing or not of its type -/
def must {α : Type} : Option α → Outcome α
  | none => .throws
  | some a => .ok a

/-- rtddtool.cpp:346-366 -/
def readSettings (g : Getters) : Outcome Settings := do
  let onlyPreferredOrigin ← must (g.bool "onlyPreferredOrigins")
  let allowAutomaticOrigin ← must (g.bool "automaticOrigins")
  let allowManualOrigin ← must (g.bool "manualOrigins")
  let activeProfiles ← must (g.strings "activeProfiles")
  let delayTime ← must (g.int "performance.delayTime")
  let profileTimeAlive ← must (g.int "performance.profileTimeAlive")
  let cacheWaveforms ← must (g.bool "performance.cacheWaveforms")
  let cacheDirectory ← must (g.path "performance.cacheDirectory")
  let cachedWaveformLength ← must (g.double "performance.cachedWaveformLength")
  .ok ⟨onlyPreferredOrigin, allowAutomaticOrigin, allowManualOrigin, activeProfiles, [delayTime], profileTimeAlive, cacheWaveforms,
    cacheDirectory, cachedWaveformLength, (g.strings "acceptedOriginAuthors").getD []⟩

/-- rtddtool.cpp:340-1041 `validateParameters`: `none` when it returns false.  `force` is the option `--profile` -/
def start (g : Getters) (force : String) (o : CommandLine.Options) : Outcome (Option (Settings × List Profile)) := do
  let s ← readSettings g
  let db := CommandLine.single o.dumpWaveforms || CommandLine.single o.dumpClusters || CommandLine.single o.relocateCatalog
  let r := validate g s.activeProfiles force db
  .ok (if r.ok then some (s, r.profiles) else none)

/-- what the real-time application of C80 is configured with, rtddtool.h:105-136; the interval is never changed (:133) -/
def daemonConfig (s : Settings) (force : String) (o : CommandLine.Options) (author agencyID : String) : Daemon.Config :=
  ⟨s.onlyPreferredOrigin, s.allowAutomaticOrigin, s.allowManualOrigin, s.acceptedOriginAuthors, s.profileTimeAlive, false,
    CommandLine.testMode o, force, author, agencyID, ⟨s.delayTimes, 1⟩⟩

/-! ## configuration files -/

/-- the texts given to parameters -/
abbrev Symbols := String → Option (List String)

/-- apps/scrtdd/config/scrtdd.cfg:2-38 -/
def shipped : Symbols := fun name =>
  if name = "automaticOrigins" then some ["true"]
  else if name = "manualOrigins" then some ["true"]
  else if name = "onlyPreferredOrigins" then some ["true"]
  else if name = "activeProfiles" then some [""]
  else if name = "performance.delayTime" then some ["10"]
  else if name = "performance.profileTimeAlive" then some ["3600"]
  else if name = "performance.cacheWaveforms" then some ["true"]
  else if name = "performance.cacheDirectory" then some ["@ROOTDIR@/var/lib/rtdd"]
  else if name = "performance.cachedWaveformLength" then some ["10"]
  else none

/-- the files of the user replace what is given in the file of the defaults -/
def layered (user : Symbols) : Symbols := fun name => (user name).or (shipped name)

/-- how SeisComP makes a value of the texts, `none` when they are no value of the type -/
structure Conversions where
  toString : List String → Option String
  toBool : List String → Option Bool
  toInt : List String → Option Int
  toDouble : List String → Option ℚ
  toDoubles : List String → Option (List ℚ)
  toPath : List String → Option String
  number : String → Option ℚ

/-- the getters over some files -/
def getters (c : Conversions) (s : Symbols) : Getters :=
  ⟨fun n => (s n).bind c.toString, s, fun n => (s n).bind c.toBool, fun n => (s n).bind c.toInt, fun n => (s n).bind c.toDouble,
    fun n => (s n).bind c.toDoubles, fun n => (s n).bind c.toPath, c.number⟩

end Verif.AppConfig
