import Verif.Model.GridHeader

/-!
# Model of the choice of the travel-time table and of the SeisComP travel-time plugin

apps/scrtdd/rtddtool.cpp:203-209, 1928-1967 (the table of a profile), plugins/ttt/nll/nll_ttt.cpp:44-350 (the plugin that
offers grid files to SeisComP) and libs/hddsc/ttt.cpp:28-109 (the adapter through which the relocation uses a SeisComP
table).

What a set of grids answers is arbitrary (`Answers`); the grids themselves are in `Model/Grid`, `Model/TravelTime` and
`Model/NllGrid`.  Simplifications: the SeisComP API version is at least 16; the path of a table has a directory and does not
end with a slash; the ellipticity argument is not used by the code; logging is left out.
-/

namespace Verif.Tables
open Verif.Csv (Str)
open Verif.Decimal (stod)
open Verif.GridHeader (Num Index stoull)

/-- rtddtool.cpp:203-209: `boost::split` at semicolons with `token_compress_on`; `cur` is the text since the last semicolon
and `gap` says that the last character was a semicolon -/
def splitSemi (cur : Str) (gap : Bool) : Str → List Str
  | [] => [cur]
  | c :: s =>
    if c = ';' then (if gap then splitSemi [] true s else cur :: splitSemi [] true s)
    else splitSemi (cur ++ [c]) false s

/-! ## the native tables -/

/-- the arguments of the constructor of the grid table, nllgrid.cpp:50-57 -/
structure Settings where
  path : Str
  model : Str
  maxSearchDistance : Num
  swapBytes : Bool
  maxOpenFiles : Nat
  accessMethod : Str
deriving DecidableEq

/-- the file system: the names in a directory, if it exists, the content of a file and if a file exists -/
structure Disk where
  files : Str → Option (List Str)
  text : Str → Str → Str
  present : Str → Str → Bool

/-- a table of grid files -/
structure Grids where
  settings : Settings
  index : Index

/-- nllgrid.cpp:50-197: the access method is checked first; a directory that does not exist throws -/
def openGrids (rnd : ℚ → ℚ) (disk : Disk) (s : Settings) : Outcome Grids :=
  match disk.files s.path with
  | some names =>
    (GridHeader.open_ rnd s.swapBytes (String.ofList s.accessMethod) s.model (disk.text s.path) (disk.present s.path) names).map
      (fun ix => ⟨s, ix⟩)
  | none => .throws

/-! ## questions to a table -/

/-- kind of wave, the phase types that the grids know -/
inductive Wave where
  | P | S
deriving DecidableEq

/-- the event and the station -/
structure Query (V : Type) where
  lat1 : V
  lon1 : V
  dep1 : V
  lat2 : V
  lon2 : V
  alt2 : V

/-- what is computed besides the time, nllgrid.cpp:299-303 -/
structure Ray (V : Type) where
  azi : V
  dip : V
  dtdd : V
  dtdh : V
deriving DecidableEq

/-- the two ways to fail: `OutOfGrid` (grid.h:107-111) and any other exception of the library -/
inductive GridError where
  | outOfGrid | other
deriving DecidableEq

/-- what grids answer at some moment: the time and what is computed after it -/
structure Answers (V : Type) where
  time : Grids → Wave → Query V → Except GridError V
  ray : Grids → Wave → Query V → Except GridError (Ray V)

variable {V : Type}

/-- nllgrid.cpp:201-290 for a type of wave -/
def gridTime (a : Answers V) : Option Grids → Wave → Query V → Except GridError V
  | none, _, _ => .error .other  -- an object without grids finds none, :220-252
  | some g, w, q => a.time g w q

/-- nllgrid.cpp:292-469 for a type of wave: the time, then the rest -/
def gridFull (a : Answers V) : Option Grids → Wave → Query V → Except GridError (V × Ray V)
  | none, _, _ => .error .other
  | some g, w, q => do
    let t ← a.time g w q
    let r ← a.ray g w q
    return (t, r)

/-! ## the plugin -/

/-- the exceptions of the plugin: `NoPhaseError` and `std::out_of_range` -/
inductive Failure where
  | noPhase | outOfRange
deriving DecidableEq

/-- the values of the configuration; `none`: not there, or not of this type -/
structure Config where
  strings : Str → Option (List Str)
  string : Str → Option Str
  double : Str → Option Num
  bool : Str → Option Bool
  int : Str → Option Int

/-- the members of the plugin, nll_ttt.cpp:87-91; before a model is set there are no phases and no grids -/
structure Plugin where
  model : Str := []
  pPhases : List Str := []
  sPhases : List Str := []
  grids : Option Grids := none

/-- the directory and the name of a path, nll_ttt.cpp:171-177 -/
def directory (p : Str) : Str := ((p.reverse.dropWhile (· ≠ '/')).drop 1).reverse
def filename (p : Str) : Str := (p.reverse.takeWhile (· ≠ '/')).reverse

/-- nll_ttt.cpp:138-145, 171-212: the settings of the grids of a model, `none` without a path; a missing value is replaced;
an `int` becomes an `unsigned` -/
def settings (absolute : Str → Str) (cfg : Config) (model : Str) : Option Settings :=
  let base := "ttt.NLLGrid.".toList ++ model ++ ".".toList
  (cfg.string (base ++ "tablePath".toList)).map (fun p =>
    { path := directory (absolute p)
      model := filename (absolute p)
      maxSearchDistance := (cfg.double (base ++ "maxSearchDistance".toList)).getD (.num 10)
      swapBytes := (cfg.bool (base ++ "swapBytes".toList)).getD false
      maxOpenFiles := ((cfg.int (base ++ "maxOpenFiles".toList)).getD 512 % 2 ^ 32).toNat
      accessMethod := (cfg.string (base ++ "accessMethod".toList)).getD "KeepOpen".toList })

/-- nll_ttt.cpp:147-169: the phases of a model -/
def pPhases (cfg : Config) (model : Str) : List Str :=
  (cfg.strings ("ttt.NLLGrid.".toList ++ model ++ ".P-Phases".toList)).getD ["P".toList, "Pg".toList, "Pn".toList]
def sPhases (cfg : Config) (model : Str) : List Str :=
  (cfg.strings ("ttt.NLLGrid.".toList ++ model ++ ".S-Phases".toList)).getD ["S".toList, "Sg".toList, "Sn".toList]

/-- nll_ttt.cpp:116-215 `setModel`: the object after the call, and what it returns or that it throws.  `cfg` is `none` when
there is no configuration. -/
def setModel (rnd : ℚ → ℚ) (disk : Disk) (absolute : Str → Str) (cfg : Option Config) (s : Plugin) (model : Str) :
    Plugin × Outcome Bool :=
  let s := { s with model := [], grids := none }
  match cfg with
  | none => (s, .ok false)
  | some cfg =>
    let s := { s with pPhases := pPhases cfg model, sPhases := sPhases cfg model }
    match settings absolute cfg model with
    | none => (s, .ok false)
    | some set =>
      match openGrids rnd disk set with
      | .ok g => ({ s with model := model, grids := some g }, .ok true)
      | .throws => (s, .throws)
      | .ub => (s, .ub)

/-- nll_ttt.cpp:263-275 and :307-319: the grids for a phase -/
def waveOf (s : Plugin) (phase : Str) : Except Failure Wave :=
  if phase ∈ s.pPhases then .ok .P
  else if phase ∈ s.sPhases then .ok .S
  else .error .noPhase

/-- nll_ttt.cpp:288-295 and :325-332: the exceptions of the grids become those of SeisComP -/
def translate {A : Type} : Except GridError A → Except Failure A
  | .ok a => .ok a
  | .error .outOfGrid => .error .outOfRange
  | .error .other => .error .noPhase

/-- nll_ttt.cpp:298-333 `computeTime` -/
def computeTime (a : Answers V) (s : Plugin) (phase : Str) (q : Query V) : Except Failure V := do
  let w ← waveOf s phase
  translate (gridTime a s.grids w q)

/-- `TravelTime` of SeisComP -/
structure Arrival (V : Type) where
  phase : Str
  time : V
  dtdd : V
  dtdh : V
  takeoff : V
  azi : Option V
deriving DecidableEq

/-- nll_ttt.cpp:254-296 `compute` of a phase -/
def compute (a : Answers V) (s : Plugin) (phase : Str) (q : Query V) : Except Failure (Arrival V) := do
  let w ← waveOf s phase
  let r ← translate (gridFull a s.grids w q)
  return { phase := phase, time := r.1, dtdd := r.2.dtdd, dtdh := r.2.dtdh, takeoff := r.2.dip, azi := some r.2.azi }

/-- nll_ttt.cpp:238-249: a phase of the list; only `NoPhaseError` is caught -/
def attempt (r : Except Failure (Arrival V)) : Except Failure (List (Arrival V)) :=
  match r with
  | .ok x => .ok [x]
  | .error .noPhase => .ok []
  | .error .outOfRange => .error .outOfRange

/-- `sortByTime` of SeisComP on at most two arrivals -/
def sortByTime (lt : V → V → Bool) : List (Arrival V) → List (Arrival V)
  | [x, y] => if lt y.time x.time then [y, x] else [x, y]
  | l => l

/-- nll_ttt.cpp:219-252 `compute` of all phases -/
def computeAll (lt : V → V → Bool) (a : Answers V) (s : Plugin) (q : Query V) : Except Failure (List (Arrival V)) := do
  let p ← attempt (compute a s "P".toList q)
  let r ← attempt (compute a s "S".toList q)
  return sortByTime lt (p ++ r)

/-- nll_ttt.cpp:335-350 `computeFirst` -/
def computeFirst (lt : V → V → Bool) (a : Answers V) (s : Plugin) (q : Query V) : Except Failure (Arrival V) := do
  match ← computeAll lt a s q with
  | [] => .error .noPhase
  | x :: _ => .ok x

/-! ## the table of a profile -/

/-- the tables; `other` is a table of SeisComP that is not the plugin -/
inductive Table where
  | native (g : Grids)
  | homogeneous (pVel sVel : Num)
  | plugin (s : Plugin)
  | other (type model : Str)

/-- the surroundings: the file system, how a path is made absolute, the configuration, and for the other types of table
of SeisComP what `Create` and `setModel` give (`none`: there is no such table) -/
structure World where
  disk : Disk
  absolute : Str → Str
  cfg : Option Config
  others : Str → Option (Str → Outcome Bool)

/-- libs/hddsc/ttt.cpp:28-38; the plugin is registered as `NLLGrid`, nll_ttt.cpp:354 -/
def adapter (rnd : ℚ → ℚ) (w : World) (type model : Str) : Outcome Table :=
  if type = "NLLGrid".toList then
    match setModel rnd w.disk w.absolute w.cfg {} model with
    | (s, .ok true) => .ok (.plugin s)
    | (_, .ok false) => .throws
    | (_, .throws) => .throws
    | (_, .ub) => .ub
  else
    match w.others type with
    | none => .throws
    | some setModel => do
      if ← setModel model then .ok (.other type model) else .throws

/-- rtddtool.cpp:1928-1967; `stoul` gives 64 bits and `unsigned` has 32 -/
def table (rnd : ℚ → ℚ) (w : World) (type model : Str) : Outcome Table :=
  if type = "Native:NLLGrid".toList then
    match splitSemi [] false model with
    | [path, name, dist, swap, maxOpen, access] => do
      let d ← stod rnd dist
      let n ← stoull maxOpen
      let g ← openGrids rnd w.disk ⟨path, name, d, swap = "swapBytes".toList, n % 2 ^ 32, access⟩
      return .native g
    | _ => .throws
  else if type = "Native:homogeneous".toList then
    match splitSemi [] false model with
    | [p, s] => do
      let p ← stod rnd p
      let s ← stod rnd s
      return .homogeneous p s
    | _ => .throws
  else adapter rnd w type model

/-- nllgrid.cpp:228-252: grids know two types of phase -/
def nativeWave (phase : Str) : Option Wave :=
  if phase = "P".toList then some .P else if phase = "S".toList then some .S else none

/-- the time that the relocation gets from the grids of a profile: nllgrid.cpp:201-290 or, through SeisComP,
libs/hddsc/ttt.cpp:40-66.  `none`: an exception of the library. -/
def tableTime (a : Answers V) (t : Table) (phase : Str) (q : Query V) : Option V :=
  match t with
  | .native g => (nativeWave phase).bind (fun w => (gridTime a (some g) w q).toOption)
  | .plugin s => (computeTime a s phase q).toOption
  | _ => none

/-- time, azimuth, dip and derivatives: nllgrid.cpp:292-469 or, through SeisComP, libs/hddsc/ttt.cpp:68-109; `azimuth` is
`computeAzimuth` in degrees, for tables that do not give it -/
def tableFull (a : Answers V) (azimuth : Query V → V) (t : Table) (phase : Str) (q : Query V) : Option (V × Ray V) :=
  match t with
  | .native g => (nativeWave phase).bind (fun w => (gridFull a (some g) w q).toOption)
  | .plugin s => (compute a s phase q).toOption.map (fun x =>
      (x.time, { azi := x.azi.getD (azimuth q), dip := x.takeoff, dtdd := x.dtdd, dtdh := x.dtdh }))
  | _ => none

end Verif.Tables
