import Verif.Model.Region
import Verif.Model.Daemon
import Verif.Model.CommandLine

/-!
# Model of the configuration of the profiles  (apps/scrtdd/rtddtool.cpp:66-237, :340-1041)

`RTDD::validateParameters`: how the profiles and their options are made from the parameters.  The SeisComP getters are
parameters of the model: each returns nothing when it throws, because the parameter is missing or has not the type asked
for.  Left out: the options of the command line (`Model/CommandLine.lean`), the parameters that are not of a profile, the log
messages, the URL of the record stream, and the switch of the diagnostics.
-/

namespace Verif.Configuration
open Verif.Daemon (Num ClusteringOptions XcorrPhase XcorrOptions)
open Verif.Region (Region)

/-- what the program sees of its parameters: `configGetString`, `configGetStrings`, `configGetBool`, `configGetInt`,
`configGetDouble`, `configGetDoubles`, `Environment::absolutePath(configGetPath)`, and `Core::fromString` for numbers -/
structure Getters where
  string : String → Option String
  strings : String → Option (List String)
  bool : String → Option Bool
  int : String → Option Int
  double : String → Option ℚ
  doubles : String → Option (List ℚ)
  path : String → Option String
  fromString : String → Option ℚ

/-- a number, as `double` -/
def num (q : ℚ) : Num := .num q

/-- libs/hdd/dd.h:46-68 `HDD::Config` -/
structure DDConfig where
  validPphases : List String := ["P", "Pg", "Pn"]
  validSphases : List String := ["S", "Sg", "Sn"]
  pickUncertaintyClasses : List ℚ := [0, 25/1000, 50/1000, 100/1000, 200/1000, 400/1000]
  psTableOnly : Bool := true
  filterStr : String := ""
  resampleFreq : ℚ := 0
  extraTraceLen : ℚ := 1

/-- libs/hdd/dd.h:116-130 `HDD::SolverOptions` -/
structure SolverOptions where
  type : String := "LSMR"
  l2normalization : Bool := true
  solverIterations : Nat := 0
  algoIterations : Nat := 20
  absLocConstraintStart : ℚ := 3/10
  absLocConstraintEnd : ℚ := 3/10
  dampingFactorStart : ℚ := 1/100
  dampingFactorEnd : ℚ := 1/100
  downWeightingByResidualStart : ℚ := 10
  downWeightingByResidualEnd : ℚ := 5
  usePickUncertainties : Bool := false
  xcorrWeightScaler : ℚ := 2

/-- rtddtool.h:161-178, and the defaults of libs/hdd/dd.h:70-114 -/
structure Profile where
  name : String
  methodID : String := ""
  eventIDFile : String := ""
  stationFile : String := ""
  eventFile : String := ""
  phaFile : String := ""
  tttType : String := ""
  tttModel : String := ""
  autoPMap : String := ""
  autoSMap : String := ""
  region : Region := .everywhere
  ddCfg : DDConfig := {}
  single : ClusteringOptions := ⟨8, 40, 8, 0, 5, num 0, num (-1), num 3, num 5⟩
  multi : ClusteringOptions := ⟨8, 40, 8, 0, 5, num 0, num (-1), num 3, num 5⟩
  xcorr : XcorrOptions := ⟨false, num 0, num (-1), num (-1),
    ⟨num (7/10), num (-5/10), num (5/10), num (2/100), num (5/10), ["Z"]⟩,
    ⟨num (7/10), num (-5/10), num 1, num (4/100), num (5/10), ["L2"]⟩⟩
  solver : SolverOptions := {}

/-- the conversion of `int` to `unsigned`, 32 bits -/
def toUnsigned (i : Int) : Nat := (i % 2 ^ 32).toNat

/-- rtddtool.cpp:196-201 `makeUpper`, in the C locale -/
def makeUpper (s : String) : String := String.ofList (s.toList.map Char.toUpper)

/-- rtddtool.cpp:68-103 `configGetTypedList<double>`, always with `allowEmpty`: `none` when it returns false -/
def typedList (g : Getters) (parameter : String) (required : Nat) : Option (List ℚ) :=
  let l := (g.strings parameter).getD []
  if l.length ≠ required ∧ l ≠ [] then none else l.mapM g.fromString

/-- rtddtool.cpp:111-130 and 158-176 `init` of the regions, and the choice of the type, 422-448: `none` when the parameters
are invalid -/
def readRegion (g : Getters) (pre : String) : Option Region :=
  let regionType := match g.string (pre ++ "regionType") with
    | some s => makeUpper s
    | none => ""
  if regionType = "RECTANGULAR" then
    match typedList g (pre ++ "region") 4 with
    | some [a, b, c, d] => some (.rect a b c d)
    | some _ => some .everywhere
    | none => none
  else
    match typedList g (pre ++ "region") 3 with
    | some [a, b, c] => some (.circ a b c)
    | some _ => some .everywhere
    | none => none

/-- rtddtool.cpp:450-515 -/
def readGeneral (g : Getters) (pre : String) (p : Profile) : Profile :=
  let p := { p with methodID := (g.string (pre ++ "methodID")).getD "RTDD" }
  let p := { p with tttType := (g.string (pre ++ "tableType")).getD "LOCSAT" }
  let p := { p with tttModel := (g.string (pre ++ "tableModel")).getD "iasp91" }
  let p := { p with ddCfg := { p.ddCfg with psTableOnly := (g.bool (pre ++ "PSTableOnly")).getD true } }
  let p := { p with ddCfg := { p.ddCfg with validPphases := (g.strings (pre ++ "P-Phases")).getD ["P", "Pg", "Pn"] } }
  let p := { p with ddCfg := { p.ddCfg with validSphases := (g.strings (pre ++ "S-Phases")).getD ["S", "Sg", "Sn"] } }
  let p := { p with autoPMap := (g.string (pre ++ "automaticOriginP")).getD p.autoPMap }
  { p with autoSMap := (g.string (pre ++ "automaticOriginS")).getD p.autoSMap }

/-- rtddtool.cpp:522-533: the numbers up to the first invalid one, and whether there is none -/
def readClasses (g : Getters) : List String → List ℚ × Bool
  | [] => ([], true)
  | tok :: toks =>
    match g.fromString tok with
    | none => ([], false)
    | some q => let (qs, ok) := readClasses g toks; (q :: qs, ok)

/-- rtddtool.cpp:517-539; the second result is false when `profilesOK` is set to false -/
def readUncertainties (g : Getters) (pre : String) (p : Profile) : Profile × Bool :=
  match g.strings (pre ++ "pickUncertaintyClasses") with
  | some toks =>
    let (qs, ok) := readClasses g toks
    ({ p with ddCfg := { p.ddCfg with pickUncertaintyClasses := qs } }, ok)
  | none => ({ p with ddCfg := { p.ddCfg with pickUncertaintyClasses := [0, 25/1000, 50/1000, 100/1000, 200/1000, 400/1000] } }, true)

/-- rtddtool.cpp:541-562: the second result is true when the database is needed.  The first getter that throws leaves what was
assigned before. -/
def readCatalog (g : Getters) (pre : String) (p : Profile) : Profile × Bool :=
  let fallback (p : Profile) : Profile × Bool :=
    match g.path (pre ++ "eventFile") with
    | some f => ({ p with eventIDFile := f }, true)
    | none => (p, false)
  match g.path (pre ++ "stationFile") with
  | none => fallback p
  | some sf =>
    let p := { p with stationFile := sf }
    match g.path (pre ++ "phaFile") with
    | none => fallback p
    | some pf =>
      let p := { p with phaFile := pf }
      match g.path (pre ++ "eventFile") with
      | none => fallback p
      | some ef => ({ p with eventFile := ef }, false)

/-- rtddtool.cpp:564-590 -/
def readEventFiltering (g : Getters) (pre : String) (p : Profile) : Profile :=
  let n := match g.int (pre ++ "minNumPhases") with
    | some i => toUnsigned i
    | none => 8
  let p := { p with single := { p.single with minNumPhases := n }, multi := { p.multi with minNumPhases := n } }
  let n := match g.int (pre ++ "minNumNeighbours") with
    | some i => toUnsigned i
    | none => 4
  { p with single := { p.single with minNumNeigh := n }, multi := { p.multi with minNumNeigh := n } }

/-- rtddtool.cpp:592-632 -/
def readPhaseFiltering (g : Getters) (pre : String) (p : Profile) : Profile :=
  let d := num ((g.double (pre ++ "minStationDistance")).getD 0)
  let p := { p with single := { p.single with minEvStaDist := d }, multi := { p.multi with minEvStaDist := d } }
  let d := num ((g.double (pre ++ "maxStationDistance")).getD 0)
  let p := { p with single := { p.single with maxEvStaDist := d }, multi := { p.multi with maxEvStaDist := d } }
  let d := num ((g.double (pre ++ "minStationToEventPairDistRatio")).getD 3)
  { p with single := { p.single with minEvStaToInterEvRatio := d }, multi := { p.multi with minEvStaToInterEvRatio := d } }

/-- rtddtool.cpp:634-697: the same code for single (80 neighbours, 5 ellipsoids) and multi-event relocation (40, 0) -/
def readPairSelection (g : Getters) (pre : String) (maxNumNeigh numEllipsoids : Nat) (o : ClusteringOptions) : ClusteringOptions :=
  let o := { o with maxNumNeigh := match g.int (pre ++ "maxNumNeighbours") with
    | some i => toUnsigned i
    | none => maxNumNeigh }
  let o := { o with numEllipsoids := match g.int (pre ++ "numEllipsoids") with
    | some i => toUnsigned i
    | none => numEllipsoids }
  { o with maxNeighbourDist := num ((g.double (pre ++ "maxNeighbourDistance")).getD 5) }

/-- rtddtool.cpp:740-859: the same code for the P (window end 0.5, scaling 0.02, component Z) and the S phase (1, 0.04, L2) -/
def readXcorrPhase (g : Getters) (pre : String) (winEnd winScaling : ℚ) (components : List String) (o : XcorrPhase) : XcorrPhase :=
  let o := { o with startOffset := num ((g.double (pre ++ "winStart")).getD (-5/10)) }
  let o := { o with endOffset := num ((g.double (pre ++ "winEnd")).getD winEnd) }
  let o := { o with winScaling := num ((g.double (pre ++ "winScaling")).getD winScaling) }
  let o := { o with maxDelay := num ((g.double (pre ++ "maxDelay")).getD (5/10)) }
  let o := { o with minCoef := num ((g.double (pre ++ "minCCCoef")).getD (7/10)) }
  { o with components := (g.strings (pre ++ "components")).getD components }

/-- rtddtool.cpp:699-738 -/
def readXcorr (g : Getters) (pre : String) (o : XcorrOptions) : XcorrOptions :=
  let o := { o with enable := (g.bool (pre ++ "enable")).getD false }
  let o := { o with minEvStaDist := num ((g.double (pre ++ "minStationDistance")).getD 0) }
  let o := { o with maxEvStaDist := num ((g.double (pre ++ "maxStationDistance")).getD 60) }
  { o with maxInterEvDist := num ((g.double (pre ++ "maxInterEventDistance")).getD 2) }

/-- rtddtool.cpp:861-889 -/
def readFilter (g : Getters) (pre : String) (o : DDConfig) : DDConfig :=
  let o := { o with filterStr := (g.string (pre ++ "filterString")).getD "" }
  let o := { o with extraTraceLen := (g.double (pre ++ "margin")).getD 1 }
  { o with resampleFreq := (g.double (pre ++ "resampling")).getD 0 }

/-- rtddtool.cpp:911-938, and the same at 940-966, 968-995: the values of the first and last iteration; `none` when the
number of values is wrong, which ends the loop over the profiles -/
def readStartEnd (g : Getters) (parameter : String) (start stop : ℚ) : Option (ℚ × ℚ) :=
  match g.doubles parameter with
  | none => some (start, stop)
  | some [a] => some (a, a)
  | some [a, b] => some (a, b)
  | some _ => none

/-- rtddtool.cpp:891-1022 -/
def readSolver (g : Getters) (pre : String) (o : SolverOptions) : Option SolverOptions := do
  let o := { o with type := (g.string (pre ++ "solverType")).getD "LSMR" }
  let o := { o with algoIterations := match g.int (pre ++ "algoIterations") with
    | some i => toUnsigned i
    | none => 20 }
  let (a, b) ← readStartEnd g (pre ++ "downWeightingByResidual") 10 5
  let o := { o with downWeightingByResidualStart := a, downWeightingByResidualEnd := b }
  let (a, b) ← readStartEnd g (pre ++ "dampingFactor") (1/100) (1/100)
  let o := { o with dampingFactorStart := a, dampingFactorEnd := b }
  let (a, b) ← readStartEnd g (pre ++ "absoluteLocationConstraint") (3/10) (3/10)
  let o := { o with absLocConstraintStart := a, absLocConstraintEnd := b }
  let o := { o with xcorrWeightScaler := (g.double (pre ++ "xcorrWeightScaler")).getD 2 }
  let o := { o with usePickUncertainties := (g.bool (pre ++ "usePickUncertainties")).getD false }
  some { o with l2normalization := true, solverIterations := 0 }

/-- what the body of the loop does: it adds a profile (`ok` is false when `profilesOK` was set to false), goes on with the next
one (`continue`), or ends the loop (`break`); `db` tells if the database is needed -/
inductive Body where
  | push (p : Profile) (ok db : Bool)
  | skip
  | stop (db : Bool)

/-- rtddtool.cpp:414-1024, the body of the loop over the profiles -/
def readProfile (g : Getters) (name : String) : Body :=
  let pre := "profile." ++ name ++ "."
  match readRegion g pre with
  | none => .skip
  | some region =>
    let p : Profile := { name := name, region := region }
    let p := readGeneral g pre p
    let (p, ok) := readUncertainties g pre p
    let (p, db) := readCatalog g ("profile." ++ name ++ ".catalog.") p
    let p := readEventFiltering g ("profile." ++ name ++ ".doubleDifferenceSystem.eventFiltering.") p
    let p := readPhaseFiltering g ("profile." ++ name ++ ".doubleDifferenceSystem.phaseFiltering.") p
    let p := { p with single :=
      readPairSelection g ("profile." ++ name ++ ".doubleDifferenceSystem.eventPairSelection.singleEvent.") 80 5 p.single }
    let p := { p with multi :=
      readPairSelection g ("profile." ++ name ++ ".doubleDifferenceSystem.eventPairSelection.multiEvent.") 40 0 p.multi }
    let p := { p with xcorr := readXcorr g ("profile." ++ name ++ ".crossCorrelation.") p.xcorr }
    let p := { p with xcorr := { p.xcorr with
      p := readXcorrPhase g ("profile." ++ name ++ ".crossCorrelation.p-phase.") (5/10) (2/100) ["Z"] p.xcorr.p } }
    let p := { p with xcorr := { p.xcorr with
      s := readXcorrPhase g ("profile." ++ name ++ ".crossCorrelation.s-phase.") 1 (4/100) ["L2"] p.xcorr.s } }
    let p := { p with ddCfg := readFilter g ("profile." ++ name ++ ".crossCorrelation.waveformFiltering.") p.ddCfg }
    match readSolver g ("profile." ++ name ++ ".solver.") p.solver with
    | none => .stop db
    | some solver =>
      let p := { p with solver := solver }
      .push { p with single := { p.single with maxNumPhases := 0 }, multi := { p.multi with maxNumPhases := 0 } } ok db

/-- `_profiles`, `profilesOK` and `profileRequireDB` -/
structure Result where
  profiles : List Profile
  ok : Bool
  db : Bool

/-- rtddtool.cpp:411-1025, the loop -/
def readProfiles (g : Getters) : List String → Result → Result
  | [], r => r
  | name :: names, r =>
    if name = "" then readProfiles g names r
    else
      match readProfile g name with
      | .push p ok db => readProfiles g names ⟨r.profiles ++ [p], r.ok && ok, r.db || db⟩
      | .skip => readProfiles g names { r with ok := false }
      | .stop db => ⟨r.profiles, false, r.db || db⟩

/-- rtddtool.cpp:349, :402-409: the profiles of the parameter and the one of the command line, if it is not among them -/
def profilesToLoad (active : List String) (force : String) : List String :=
  if force ≠ "" ∧ force ∉ active then active ++ [force] else active

/-- rtddtool.cpp:340-1041 `validateParameters`, the profiles; `db` tells if the command line needs the database -/
def validate (g : Getters) (active : List String) (force : String) (db : Bool) : Result :=
  readProfiles g (profilesToLoad active force) ⟨[], true, db⟩

/-- rtddtool.cpp:379-400 with :1027-1036: the connection to the database is switched off; `inventory` says that the inventory
is in the database -/
def databaseOff (g : Getters) (active : List String) (force : String) (inventory : Bool) (o : CommandLine.Options) : Bool :=
  let db := CommandLine.single o.dumpWaveforms || CommandLine.single o.dumpClusters || CommandLine.single o.relocateCatalog
  !inventory && !(validate g active force db).db &&
    (o.eventXML ≠ [] || o.mergeCatalogs ≠ [] || o.relocateCatalog ≠ [] || o.dumpWaveforms ≠ [] || o.preloadWaveforms ||
      o.dumpClusters ≠ [])

end Verif.Configuration
