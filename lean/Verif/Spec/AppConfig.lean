import Verif.Model.AppConfig

/-!
# The documented parameters of the application (specification of C133)

A transcription of apps/scrtdd/descriptions/scrtdd.xml:8-70.
-/

namespace Verif.AppConfigSpec
open Verif.AppConfig Verif.Configuration

/-- the value of a parameter, with its type -/
inductive Value where
  | flag (b : Bool)
  | texts (l : List String)
  | whole (i : Int)
  | number (q : ℚ)
  | path (s : String)
deriving DecidableEq

/-- the value given in the configuration files, if there is one and it has the type of `like` -/
def given (g : Getters) (like : Value) (parameter : String) : Option Value :=
  match like with
  | .flag _ => (g.bool parameter).map .flag
  | .texts _ => (g.strings parameter).map .texts
  | .whole _ => (g.int parameter).map .whole
  | .number _ => (g.double parameter).map .number
  | .path _ => (g.path parameter).map .path

/-- a documented parameter: name, default, and the setting it stands for -/
structure Entry where
  name : String
  dflt : Value
  use : Settings → Value

/-- all but `acceptedOriginAuthors`; `root` is the directory of the installation -/
def documented (root : String) : List Entry := [
  ⟨"automaticOrigins", .flag true, fun s => .flag s.allowAutomaticOrigin⟩,
  ⟨"manualOrigins", .flag true, fun s => .flag s.allowManualOrigin⟩,
  ⟨"onlyPreferredOrigins", .flag true, fun s => .flag s.onlyPreferredOrigin⟩,
  ⟨"activeProfiles", .texts [""], fun s => .texts s.activeProfiles⟩,
  ⟨"performance.delayTime", .whole 10, fun s => .whole (s.delayTimes.headD 0)⟩,
  ⟨"performance.profileTimeAlive", .whole 600, fun s => .whole s.profileTimeAlive⟩,
  ⟨"performance.cacheWaveforms", .flag true, fun s => .flag s.cacheWaveforms⟩,
  ⟨"performance.cacheDirectory", .path (root ++ "/var/lib/rtdd"), fun s => .path s.cacheDirectory⟩,
  ⟨"performance.cachedWaveformLength", .number 10, fun s => .number s.cachedWaveformLength⟩]

/-- texts are converted in the usual way, as far as the default values are concerned -/
structure Usual (c : Conversions) (root : String) : Prop where
  bool : c.toBool ["true"] = some true
  ten : c.toInt ["10"] = some 10
  hour : c.toInt ["3600"] = some 3600
  length : c.toDouble ["10"] = some 10
  path : c.toPath ["@ROOTDIR@/var/lib/rtdd"] = some (root ++ "/var/lib/rtdd")

/-- an origin that the parameters allow: its mode is allowed, and its author is in the list if there is one -/
def Allowed (s : Settings) (o : Daemon.Origin) : Prop :=
  (o.manual = some true → s.allowManualOrigin = true) ∧ (o.manual ≠ some true → s.allowAutomaticOrigin = true) ∧
  (s.acceptedOriginAuthors = [] ∨ ∃ a ∈ s.acceptedOriginAuthors, o.author = some a)

end Verif.AppConfigSpec
