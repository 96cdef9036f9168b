import Verif.Model.Configuration

/-!
# The documented parameters of a profile (C105)

A transcription of apps/scrtdd/descriptions/scrtdd.xml:83-475: the name of every parameter, its type, its documented default,
and the options of the profile it stands for.
-/

namespace Verif.ConfigurationSpec
open Verif.Configuration
open Verif.Daemon (Num)
open Verif.Region (Region)

/-- the value of a parameter, with its type -/
inductive Value where
  | text (s : String)
  | texts (l : List String)
  | flag (b : Bool)
  | whole (i : Int)
  | number (x : Num)
deriving DecidableEq

/-- the value given in the configuration files, if there is one and it has the type of `like` -/
def given (g : Getters) (like : Value) (parameter : String) : Option Value :=
  match like with
  | .text _ => (g.string parameter).map .text
  | .texts _ => (g.strings parameter).map .texts
  | .flag _ => (g.bool parameter).map .flag
  | .whole _ => (g.int parameter).map .whole
  | .number _ => (g.double parameter).map fun q => .number (num q)

/-- a documented parameter: name, default, and the options it stands for -/
structure Entry where
  name : String
  dflt : Value
  uses : List (Profile → Value)

/-- the full name of a parameter -/
def fullName (profile parameter : String) : String := "profile." ++ profile ++ "." ++ parameter

def num' (q : ℚ) : Value := .number (num q)

def documented : List Entry := [
  ⟨"methodID", .text "RTDD", [fun p => .text p.methodID]⟩,
  ⟨"tableType", .text "LOCSAT", [fun p => .text p.tttType]⟩,
  ⟨"tableModel", .text "iasp91", [fun p => .text p.tttModel]⟩,
  ⟨"PSTableOnly", .flag true, [fun p => .flag p.ddCfg.psTableOnly]⟩,
  ⟨"P-Phases", .texts ["P", "Pg", "Pn"], [fun p => .texts p.ddCfg.validPphases]⟩,
  ⟨"S-Phases", .texts ["S", "Sg", "Sn"], [fun p => .texts p.ddCfg.validSphases]⟩,
  ⟨"automaticOriginP", .text "", [fun p => .text p.autoPMap]⟩,
  ⟨"automaticOriginS", .text "", [fun p => .text p.autoSMap]⟩,
  ⟨"doubleDifferenceSystem.eventFiltering.minNumPhases", .whole 8,
    [fun p => .whole p.single.minNumPhases, fun p => .whole p.multi.minNumPhases]⟩,
  ⟨"doubleDifferenceSystem.eventFiltering.minNumNeighbours", .whole 4,
    [fun p => .whole p.single.minNumNeigh, fun p => .whole p.multi.minNumNeigh]⟩,
  ⟨"doubleDifferenceSystem.phaseFiltering.minStationToEventPairDistRatio", num' 3,
    [fun p => .number p.single.minEvStaToInterEvRatio, fun p => .number p.multi.minEvStaToInterEvRatio]⟩,
  ⟨"doubleDifferenceSystem.phaseFiltering.minStationDistance", num' 0,
    [fun p => .number p.single.minEvStaDist, fun p => .number p.multi.minEvStaDist]⟩,
  ⟨"doubleDifferenceSystem.phaseFiltering.maxStationDistance", num' 0,
    [fun p => .number p.single.maxEvStaDist, fun p => .number p.multi.maxEvStaDist]⟩,
  ⟨"doubleDifferenceSystem.eventPairSelection.singleEvent.maxNumNeighbours", .whole 80, [fun p => .whole p.single.maxNumNeigh]⟩,
  ⟨"doubleDifferenceSystem.eventPairSelection.singleEvent.maxNeighbourDistance", num' 5, [fun p => .number p.single.maxNeighbourDist]⟩,
  ⟨"doubleDifferenceSystem.eventPairSelection.singleEvent.numEllipsoids", .whole 5, [fun p => .whole p.single.numEllipsoids]⟩,
  ⟨"doubleDifferenceSystem.eventPairSelection.multiEvent.maxNumNeighbours", .whole 40, [fun p => .whole p.multi.maxNumNeigh]⟩,
  ⟨"doubleDifferenceSystem.eventPairSelection.multiEvent.maxNeighbourDistance", num' 5, [fun p => .number p.multi.maxNeighbourDist]⟩,
  ⟨"doubleDifferenceSystem.eventPairSelection.multiEvent.numEllipsoids", .whole 0, [fun p => .whole p.multi.numEllipsoids]⟩,
  ⟨"crossCorrelation.enable", .flag false, [fun p => .flag p.xcorr.enable]⟩,
  ⟨"crossCorrelation.minStationDistance", num' 0, [fun p => .number p.xcorr.minEvStaDist]⟩,
  ⟨"crossCorrelation.maxStationDistance", num' 60, [fun p => .number p.xcorr.maxEvStaDist]⟩,
  ⟨"crossCorrelation.maxInterEventDistance", num' 2, [fun p => .number p.xcorr.maxInterEvDist]⟩,
  ⟨"crossCorrelation.p-phase.minCCCoef", num' (70/100), [fun p => .number p.xcorr.p.minCoef]⟩,
  ⟨"crossCorrelation.p-phase.winStart", num' (-50/100), [fun p => .number p.xcorr.p.startOffset]⟩,
  ⟨"crossCorrelation.p-phase.winEnd", num' (50/100), [fun p => .number p.xcorr.p.endOffset]⟩,
  ⟨"crossCorrelation.p-phase.winScaling", num' (2/100), [fun p => .number p.xcorr.p.winScaling]⟩,
  ⟨"crossCorrelation.p-phase.maxDelay", num' (50/100), [fun p => .number p.xcorr.p.maxDelay]⟩,
  ⟨"crossCorrelation.p-phase.components", .texts ["Z"], [fun p => .texts p.xcorr.p.components]⟩,
  ⟨"crossCorrelation.s-phase.minCCCoef", num' (70/100), [fun p => .number p.xcorr.s.minCoef]⟩,
  ⟨"crossCorrelation.s-phase.winStart", num' (-50/100), [fun p => .number p.xcorr.s.startOffset]⟩,
  ⟨"crossCorrelation.s-phase.winEnd", num' 1, [fun p => .number p.xcorr.s.endOffset]⟩,
  ⟨"crossCorrelation.s-phase.winScaling", num' (4/100), [fun p => .number p.xcorr.s.winScaling]⟩,
  ⟨"crossCorrelation.s-phase.maxDelay", num' (50/100), [fun p => .number p.xcorr.s.maxDelay]⟩,
  ⟨"crossCorrelation.s-phase.components", .texts ["L2"], [fun p => .texts p.xcorr.s.components]⟩,
  ⟨"crossCorrelation.waveformFiltering.filterString", .text "", [fun p => .text p.ddCfg.filterStr]⟩,
  ⟨"crossCorrelation.waveformFiltering.margin", num' 1, [fun p => num' p.ddCfg.extraTraceLen]⟩,
  ⟨"crossCorrelation.waveformFiltering.resampling", num' 0, [fun p => num' p.ddCfg.resampleFreq]⟩,
  ⟨"solver.solverType", .text "LSMR", [fun p => .text p.solver.type]⟩,
  ⟨"solver.algoIterations", .whole 20, [fun p => .whole p.solver.algoIterations]⟩,
  ⟨"solver.xcorrWeightScaler", num' 2, [fun p => num' p.solver.xcorrWeightScaler]⟩,
  ⟨"solver.usePickUncertainties", .flag false, [fun p => .flag p.solver.usePickUncertainties]⟩]

/-- a documented parameter with a value for the first and one for the last iteration: name, defaults, options -/
structure StartEnd where
  name : String
  dflt : ℚ × ℚ
  used : Profile → ℚ × ℚ

def startEnd : List StartEnd := [
  ⟨"solver.downWeightingByResidual", (10, 5), fun p => (p.solver.downWeightingByResidualStart, p.solver.downWeightingByResidualEnd)⟩,
  ⟨"solver.dampingFactor", (1/100, 1/100), fun p => (p.solver.dampingFactorStart, p.solver.dampingFactorEnd)⟩,
  ⟨"solver.absoluteLocationConstraint", (3/10, 3/10), fun p => (p.solver.absLocConstraintStart, p.solver.absLocConstraintEnd)⟩]

/-- one value is for all iterations, two are for the first and the last one -/
def FirstLast (g : Getters) (parameter : String) (dflt used : ℚ × ℚ) : Prop :=
  match g.doubles parameter with
  | none => used = dflt
  | some l => l = [used.1, used.2] ∨ (l = [used.1] ∧ used.2 = used.1)

/-- the documented parameters that are not in the tables -/
def others : List String := ["regionType", "region", "pickUncertaintyClasses", "catalog.eventFile", "catalog.phaFile",
  "catalog.stationFile"]

/-- all documented parameters of a profile -/
def parameters : List String := documented.map (·.name) ++ startEnd.map (·.name) ++ others

/-- the full names of the parameters of a profile -/
def Owns (profile : String) (parameter : String) : Prop := ∃ s ∈ parameters, parameter = fullName profile s

/-- two configurations have the same value for a parameter, whatever its type -/
def Same (g g' : Getters) (parameter : String) : Prop :=
  g.string parameter = g'.string parameter ∧ g.strings parameter = g'.strings parameter ∧ g.bool parameter = g'.bool parameter ∧
  g.int parameter = g'.int parameter ∧ g.double parameter = g'.double parameter ∧ g.doubles parameter = g'.doubles parameter ∧
  g.path parameter = g'.path parameter

/-- the words of a list are all numbers -/
def Numbers (g : Getters) (l : List String) (qs : List ℚ) : Prop := List.Forall₂ (fun s q => g.fromString s = some q) l qs

/-- the word is RECTANGULAR, in small or capital letters -/
def Rectangular (t : String) : Prop := t.toList.map Char.toUpper = "RECTANGULAR".toList

/-- The region of a profile: `region` has four numbers for `regionType` RECTANGULAR (small and capital letters are the same)
and three otherwise; without it there is no limit. -/
inductive HasRegion (g : Getters) (profile : String) : Region → Prop
  | everywhere : (g.strings (fullName profile "region")).getD [] = [] → HasRegion g profile .everywhere
  | rectangle {t : String} {l : List String} {latMin lonMin latMax lonMax : ℚ} : g.string (fullName profile "regionType") = some t →
      Rectangular t → g.strings (fullName profile "region") = some l → Numbers g l [latMin, lonMin, latMax, lonMax] →
      HasRegion g profile (.rect latMin lonMin latMax lonMax)
  | circle {l : List String} {lat lon radius : ℚ} :
      (∀ t, g.string (fullName profile "regionType") = some t → ¬ Rectangular t) →
      g.strings (fullName profile "region") = some l → Numbers g l [lat, lon, radius] → HasRegion g profile (.circ lat lon radius)

/-- the boundaries of the classes of uncertainties -/
def HasClasses (g : Getters) (profile : String) (qs : List ℚ) : Prop :=
  match g.strings (fullName profile "pickUncertaintyClasses") with
  | none => qs = [0, 25/1000, 50/1000, 100/1000, 200/1000, 400/1000]
  | some l => Numbers g l qs

/-- The parameters of a profile are acceptable. -/
structure Valid (g : Getters) (profile : String) : Prop where
  region : ∃ r, HasRegion g profile r
  classes : ∃ qs, HasClasses g profile qs
  startEnd : ∀ e ∈ startEnd, ∃ used, FirstLast g (fullName profile e.name) e.dflt used

/-- whole numbers are not negative, and fit into 32 bits -/
def NotNegative (g : Getters) (profile : String) : Prop :=
  ∀ s ∈ parameters, ∀ i, g.int (fullName profile s) = some i → 0 ≤ i ∧ i < 2 ^ 32

/-- The files of the catalog: three files, or one file of origin ids. -/
structure HasCatalog (g : Getters) (profile : String) (p : Profile) : Prop where
  three : ∀ sf pf ef, g.path (fullName profile "catalog.stationFile") = some sf → g.path (fullName profile "catalog.phaFile") = some pf →
    g.path (fullName profile "catalog.eventFile") = some ef →
    p.stationFile = sf ∧ p.phaFile = pf ∧ p.eventFile = ef ∧ p.eventIDFile = ""
  one : ∀ ef, g.path (fullName profile "catalog.stationFile") = none → g.path (fullName profile "catalog.phaFile") = none →
    g.path (fullName profile "catalog.eventFile") = some ef →
    p.eventIDFile = ef ∧ p.stationFile = "" ∧ p.phaFile = "" ∧ p.eventFile = ""
  empty : g.path (fullName profile "catalog.stationFile") = none → g.path (fullName profile "catalog.phaFile") = none →
    g.path (fullName profile "catalog.eventFile") = none →
    p.eventIDFile = "" ∧ p.stationFile = "" ∧ p.phaFile = "" ∧ p.eventFile = ""

/-- The events of the catalog are named by the ids of their origins: there is an event file but not both a station and a phase
file. -/
def TakesOriginIds (g : Getters) (profile : String) : Prop :=
  (∃ ef, g.path (fullName profile "catalog.eventFile") = some ef) ∧
    (g.path (fullName profile "catalog.stationFile") = none ∨ g.path (fullName profile "catalog.phaFile") = none)

/-- A profile has the options that its parameters ask for. -/
structure Configured (g : Getters) (p : Profile) : Prop where
  region : HasRegion g p.name p.region
  classes : HasClasses g p.name p.ddCfg.pickUncertaintyClasses
  options : ∀ e ∈ documented, ∀ use ∈ e.uses, use p = (given g e.dflt (fullName p.name e.name)).getD e.dflt
  startEnd : ∀ e ∈ startEnd, FirstLast g (fullName p.name e.name) e.dflt (e.used p)
  catalog : HasCatalog g p.name p
  fixed : p.single.maxNumPhases = 0 ∧ p.multi.maxNumPhases = 0 ∧ p.solver.l2normalization = true ∧ p.solver.solverIterations = 0

/-- the names of the profiles: those of `activeProfiles`, and the one given on the command line -/
def names (active : List String) (force : String) : List String :=
  active.filter (· ≠ "") ++ if force = "" ∨ force ∈ active then [] else [force]

end Verif.ConfigurationSpec
