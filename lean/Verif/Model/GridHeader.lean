import Verif.Model.Decimal

/-!
# Model of the NonLinLoc grid headers and of the search for grid files
(libs/hdd/nll/grid.cpp:414-569, 610-706, 1035-1044, 1132-1182, 1309-1346; libs/hdd/ttt/nllgrid.cpp:50-199)

Modelled: the split of a header line into words, the three kinds of header line, the transform line with
the checks of its constructors, the acceptance of time, angle and velocity grids, and the search of a
directory for the grids of a velocity model.

Simplifications: the header is its text, a header that cannot be opened is the empty text; a number is read
by `stod` of `Model/Decimal.lean`; a member of `Grid::Info`
that was never assigned is `none`, and its use is undefined behaviour; the compiler lays out the bit fields
as the constructor of `AngleGrid` wants (grid.cpp:1145-1174); the name of the velocity model has no
character special to regular expressions; the `.` of a regular expression is any character but a line
break.  The projections are in `Model/Transform.lean` and `Model/MapProject.lean`.
-/

namespace Verif.GridHeader
open Verif.Csv Verif.Decimal

/-- the numbers of a header -/
abbrev Num := Fl ℚ

/-! ## Words of a line -/

/-- `splitString(line, "[\s]+")`, grid.cpp:644-645 and libs/hdd/utils.cpp:92-97: the text before, between
and after the runs of white space.  `cur` is the text since the last run and `gap` says that the last
character was white space.  The text after the last run is given only if it is not empty, but a line without
white space is given even if it is empty (`std::sregex_token_iterator`). -/
def splitBlanks (cur : Str) (gap : Bool) : Str → List Str
  | [] => if gap then [] else [cur]
  | c :: s =>
    if PairFile.isSpace c then
      (if gap then splitBlanks [] true s else cur :: splitBlanks [] true s)
    else splitBlanks (cur ++ [c]) false s

/-- grid.cpp:645-648: without the empty first element of a line starting with white space -/
def tokens (line : Str) : List Str :=
  match splitBlanks [] false line with
  | [] :: ts => ts
  | ts => ts

/-- `tokens.at(i)` -/
def word (t : List Str) (i : Nat) : Outcome Str := .ofOption t[i]?

/-- `if (tokens.at(i) != keyword) throw` -/
def expect (t : List Str) (i : Nat) (keyword : String) : Outcome Unit := do
  let w ← word t i
  if w = keyword.toList then .ok () else .throws

/-- `std::stoull` -/
def stoull (s : Str) : Outcome Nat :=
  let s := s.dropWhile PairFile.isSpace
  let neg := s.head? = some '-'
  let s := if s.head? = some '-' ∨ s.head? = some '+' then s.tail else s
  let digits := s.takeWhile Char.isDigit
  if digits = [] then .throws
  else
    let v := Nat.ofDigitChars 10 digits 0
    if PairFile.ulongMod ≤ v then .throws
    else .ok (if neg then (PairFile.ulongMod - v) % PairFile.ulongMod else v)

/-- `std::stol` (64 bits) -/
def stol (s : Str) : Outcome Int :=
  let s := s.dropWhile PairFile.isSpace
  let neg := s.head? = some '-'
  let s := if s.head? = some '-' ∨ s.head? = some '+' then s.tail else s
  let digits := s.takeWhile Char.isDigit
  if digits = [] then .throws
  else
    let v : Int := if neg then -(Nat.ofDigitChars 10 digits 0 : Int) else Nat.ofDigitChars 10 digits 0
    if v < -9223372036854775808 ∨ 9223372036854775807 < v then .throws else .ok v

/-- `std::stod(tokens.at(i))` -/
def number (rnd : ℚ → ℚ) (t : List Str) (i : Nat) : Outcome Num := (word t i).bind (stod rnd)

/-- `std::stoull(tokens.at(i))` -/
def count (t : List Str) (i : Nat) : Outcome Nat := (word t i).bind stoull

/-! ## The transform line -/

/-- the transform described by a header: its type and the arguments of its constructor, grid.cpp:414-551 -/
inductive Proj where
  | global
  | simple (lat lon rot : Num)
  | sdc (lat lon rot : Num)
  | lambert (ellipsoid : Str) (lat lon rot pha phb : Num)
  | transMerc (ellipsoid : Str) (lat lon rot : Num) (useFalseEasting : Bool) (falseEasting : Int) (scale : Num)
  | aziEqdist (ellipsoid : Str) (lat lon rot : Num)
deriving DecidableEq

/-- the names of the table of map_project.cpp:125-153 -/
def ellipsoidNames : List String :=
  ["WGS-84", "GRS-80", "WGS-72", "Australian", "Krasovsky", "International", "Hayford-1909", "Clarke-1880",
   "Clarke-1866", "Airy", "Bessel", "Hayford-1830", "Sphere", "NAD-27", "NAD-83"]

/-- `x > k || x < -k` -/
def outside (k : ℚ) (x : Num) : Bool := (Fl.num k).lt x || x.lt (.num (-k))

/-- the constructor of `Transform`, grid.cpp:548-569 -/
def frame (lat lon rot : Num) : Outcome Unit :=
  if outside 90 lat then .throws
  else if outside 180 lon then .throws
  else if outside 360 rot then .throws
  else .ok ()

/-- map_project.cpp:159-180: throws if the ellipsoid is not in the table -/
def ellipsoid (name : Str) : Outcome Unit :=
  if name ∈ ellipsoidNames.map String.toList then .ok () else .throws

/-- the constructors: grid.cpp:178-180 (GLOBAL: `Transform(type, 0, 0, 0)`), 219-224, 248-255, 286-304, 327-339,
362-370 -/
def construct (p : Proj) : Outcome Proj :=
  match p with
  | .global => .ok p
  | .simple lat lon rot => do
    frame lat lon rot
    .ok p
  | .sdc lat lon rot => do
    frame lat lon rot
    .ok p
  | .lambert e lat lon rot pha phb => do
    frame lat lon rot
    if outside 90 pha then .throws
    else if outside 90 phb then .throws
    else do
      ellipsoid e
      .ok p
  | .transMerc e lat lon rot _ _ _ => do
    frame lat lon rot
    ellipsoid e
    .ok p
  | .aziEqdist e lat lon rot => do
    frame lat lon rot
    ellipsoid e
    .ok p

/-- grid.cpp:501-520: a value after a keyword that may be missing at the end of the line -/
def optional {A : Type} (t : List Str) (i : Nat) (keyword : String) (read : Str → Outcome A) (default : A) : Outcome A :=
  if t.length > i then do
    expect t i keyword
    (word t (i + 1)).bind read
  else .ok default

/-- `TRANSFORM` or `TRANS` -/
def isTransWord (w : Str) : Bool := w = "TRANSFORM".toList || w = "TRANS".toList

/-- `Transform::parse`, grid.cpp:414-546 -/
def parseTransform (rnd : ℚ → ℚ) (t : List Str) : Outcome Proj := do
  let w ← word t 0
  if !isTransWord w then .throws
  else do
    let type ← word t 1
    if type = "GLOBAL".toList then construct .global
    else if type = "SDC".toList ∨ type = "SIMPLE".toList then do
      expect t 2 "LatOrig"
      expect t 4 "LongOrig"
      expect t 6 "RotCW"
      let lat ← number rnd t 3
      let lon ← number rnd t 5
      let rot ← number rnd t 7
      if type = "SIMPLE".toList then construct (.simple lat lon rot) else construct (.sdc lat lon rot)
    else if type = "LAMBERT".toList then do
      expect t 2 "RefEllipsoid"
      expect t 4 "LatOrig"
      expect t 6 "LongOrig"
      expect t 8 "FirstStdParal"
      expect t 10 "SecondStdParal"
      expect t 12 "RotCW"
      let e ← word t 3
      let lat ← number rnd t 5
      let lon ← number rnd t 7
      let pha ← number rnd t 9
      let phb ← number rnd t 11
      let rot ← number rnd t 13
      construct (.lambert e lat lon rot pha phb)
    else if type = "TRANS_MERC".toList then do
      expect t 2 "RefEllipsoid"
      expect t 4 "LatOrig"
      expect t 6 "LongOrig"
      expect t 8 "RotCW"
      let e ← word t 3
      let lat ← number rnd t 5
      let lon ← number rnd t 7
      let rot ← number rnd t 9
      let use ← optional t 10 "UseFalseEasting" (fun w => (stod rnd w).map (fun v => decide (v ≠ .num 0))) false
      let fe ← optional t 12 "FalseEasting" stol 500000
      let scale ← optional t 14 "ScaleFactor" (stod rnd) (.num 1)
      construct (.transMerc e lat lon rot use fe scale)
    else if type = "AZIMUTHAL_EQUIDIST".toList then do
      expect t 2 "RefEllipsoid"
      expect t 4 "LatOrig"
      expect t 6 "LongOrig"
      expect t 8 "RotCW"
      let e ← word t 3
      let lat ← number rnd t 5
      let lon ← number rnd t 7
      let rot ← number rnd t 9
      construct (.aziEqdist e lat lon rot)
    else .throws

/-! ## The header -/

/-- `Grid::Type`, grid.h:93-98 -/
inductive Kind where
  | time | angle | velocity
deriving DecidableEq

/-- the first line of the header, grid.h:202-206 -/
structure Dims where
  numx : Nat
  numy : Nat
  numz : Nat
  origx : Num
  origy : Num
  origz : Num
  dx : Num
  dy : Num
  dz : Num
  type : Str
  useDouble : Bool
deriving DecidableEq

/-- the second line of the header of a time or angle grid, grid.h:207-208 -/
structure Source where
  label : Str
  x : Num
  y : Num
  z : Num
deriving DecidableEq

/-- the members of `Grid::Info` and `parsedLines` while the header is read, grid.cpp:627-637 -/
structure Raw where
  parsedLines : Nat := 0
  dims : Option Dims := none
  src : Option Source := none
  transform : Option Proj := none
deriving DecidableEq

/-- grid.cpp:656-667 -/
def readDims (rnd : ℚ → ℚ) (t : List Str) : Outcome Dims := do
  let numx ← count t 0
  let numy ← count t 1
  let numz ← count t 2
  let origx ← number rnd t 3
  let origy ← number rnd t 4
  let origz ← number rnd t 5
  let dx ← number rnd t 6
  let dy ← number rnd t 7
  let dz ← number rnd t 8
  let type ← word t 9
  let useDouble ← (if t.length = 11 then (word t 10).map (fun w => decide (w = "DOUBLE".toList)) else .ok false)
  .ok ⟨numx, numy, numz, origx, origy, origz, dx, dy, dz, type, useDouble⟩

/-- grid.cpp:673-678 -/
def readSource (rnd : ℚ → ℚ) (t : List Str) : Outcome Source := do
  let label ← word t 0
  let x ← number rnd t 1
  let y ← number rnd t 2
  let z ← number rnd t 3
  .ok ⟨label, x, y, z⟩

/-- one line of the header, grid.cpp:639-684 -/
def lineStep (rnd : ℚ → ℚ) (kind : Kind) (r : Raw) (line : Str) : Outcome Raw :=
  let t := tokens line
  if t = [] then .ok r
  else if r.parsedLines = 0 ∧ (t.length = 10 ∨ t.length = 11) then do
    let d ← readDims rnd t
    .ok { r with dims := some d, parsedLines := r.parsedLines + 1 }
  else if r.parsedLines = 1 ∧ t.length = 4 ∧ (kind = .time ∨ kind = .angle) then do
    let s ← readSource rnd t
    .ok { r with src := some s, parsedLines := r.parsedLines + 1 }
  else do
    let w ← word t 0
    if isTransWord w then do
      let p ← parseTransform rnd t
      .ok { r with transform := some p, parsedLines := r.parsedLines + 1 }
    else .ok r

/-- the lines of the file in order, grid.cpp:635-685 -/
def readLines (rnd : ℚ → ℚ) (kind : Kind) : Raw → List Str → Outcome Raw
  | r, [] => .ok r
  | r, l :: ls => (lineStep rnd kind r l).bind (fun r => readLines rnd kind r ls)

/-- `Grid::Info`, grid.h:195-209 -/
structure Header where
  dims : Dims
  src : Option Source
  transform : Option Proj
deriving DecidableEq

/-- `Grid::parse`, grid.cpp:624-706.  `numx` and `useDouble` are used at the end: undefined behaviour if the
first line was not found. -/
def parse (rnd : ℚ → ℚ) (kind : Kind) (swapBytes : Bool) (text : Str) : Outcome Header := do
  let r ← readLines rnd kind {} (lines text)
  if ((kind = .time ∨ kind = .angle) ∧ r.parsedLines ≠ 3) ∨ (kind = .velocity ∧ r.parsedLines ≠ 2) then .throws
  else
    match r.dims with
    | none => .ub
    | some d =>
      if d.useDouble && swapBytes then .throws
      else .ok ⟨if d.numx = 1 then { d with dx := .num 1 } else d, r.src, r.transform⟩

/-- the constructor of `Grid`, grid.cpp:610-620; `buf`: the data file exists -/
def grid (rnd : ℚ → ℚ) (kind : Kind) (swapBytes : Bool) (text : Str) (buf : Bool) : Outcome Header := do
  let h ← parse rnd kind swapBytes text
  if !buf then .throws else .ok h

/-- `TimeGrid`, grid.cpp:1035-1044 -/
def timeGrid (rnd : ℚ → ℚ) (swapBytes : Bool) (text : Str) (buf : Bool) : Outcome Header := do
  let h ← grid rnd .time swapBytes text buf
  if h.dims.type ≠ "TIME".toList ∧ h.dims.type ≠ "TIME2D".toList then .throws else .ok h

/-- `AngleGrid`, grid.cpp:1132-1182 -/
def angleGrid (rnd : ℚ → ℚ) (swapBytes : Bool) (text : Str) (buf : Bool) : Outcome Header := do
  let h ← grid rnd .angle swapBytes text buf
  if h.dims.type ≠ "ANGLE".toList ∧ h.dims.type ≠ "ANGLE2D".toList then .throws
  else if h.dims.useDouble then .throws
  else .ok h

/-- the types of velocity grid, grid.cpp:1320-1345 -/
def velTypes : List String :=
  ["VELOCITY_METERS", "SLOWNESS", "SLOW_LEN", "VEL2", "SLOW2", "SLOW2_METERS", "VELOCITY"]

/-- `VelGrid`, grid.cpp:1309-1346 -/
def velGrid (rnd : ℚ → ℚ) (swapBytes : Bool) (text : Str) (buf : Bool) : Outcome Header := do
  let h ← grid rnd .velocity swapBytes text buf
  if h.dims.numx < 2 then .throws
  else if h.dims.type ∈ velTypes.map String.toList then .ok h
  else .throws

/-- `isGlobal`, grid.h:259, 308, 363: the transform is dereferenced -/
def isGlobal (h : Header) : Outcome Bool :=
  match h.transform with
  | none => .ub
  | some p => .ok (decide (p = .global))

/-! ## The grid files of a directory -/

/-- what a file is, by its name -/
inductive Role where
  | time (p : Bool)
  | angle (p : Bool)
  | model (p : Bool)
deriving DecidableEq

/-- `regex_match(name, pre + ".+" + suf)` for literal `pre` and `suf` -/
def between (pre suf name : Str) : Bool :=
  pre.isPrefixOf name && suf.isSuffixOf name && decide (pre.length + suf.length < name.length) &&
    ((name.drop pre.length).take (name.length - pre.length - suf.length)).all (fun c => c != '\n' && c != '\r')

/-- nllgrid.cpp:76-87, 104-175: the tests of the name in the order of the code -/
def role (model name : Str) : Option Role :=
  if between (model ++ ".P.".toList) ".time.hdr".toList name then some (.time true)
  else if between (model ++ ".S.".toList) ".time.hdr".toList name then some (.time false)
  else if between (model ++ ".P.".toList) ".angle.hdr".toList name then some (.angle true)
  else if between (model ++ ".S.".toList) ".angle.hdr".toList name then some (.angle false)
  else if name = model ++ ".P.mod.hdr".toList then some (.model true)
  else if name = model ++ ".S.mod.hdr".toList then some (.model false)
  else none

/-- a time or angle grid found: the file, its header and the station position written in it; the k-d tree gets
the position converted by the transform, nllgrid.cpp:106-118 -/
structure Point where
  file : Str
  header : Header
  transform : Proj
  src : Source
deriving DecidableEq

/-- what the constructor collects, nllgrid.cpp:92-95 and nllgrid.h -/
structure Index where
  time : Bool → List Point := fun _ => []
  angle : Bool → List Point := fun _ => []
  vel : Bool → Option (Str × Header) := fun _ => none

/-- nllgrid.cpp:104-119 and the three like it: the point of a time or angle grid; the transform and the
position are used -/
def point (file : Str) (g : Outcome Header) : Outcome Point := do
  let h ← g
  let b ← isGlobal h
  if b then .throws
  else
    match h.transform, h.src with
    | some p, some s => .ok ⟨file, h, p, s⟩
    | _, _ => .ub

/-- a function changed at one argument -/
def setAt {A : Type} (f : Bool → A) (p : Bool) (v : A) : Bool → A := fun q => if q = p then v else f q

/-- a file whose grid throws is left out, nllgrid.cpp:177-180 -/
def attempt {A : Type} (g : Outcome A) (use : A → Index) (skip : Index) : Outcome Index :=
  match g with
  | .ok a => .ok (use a)
  | .throws => .ok skip
  | .ub => .ub

/-- one file, nllgrid.cpp:99-180; `text` is the content of a file and `exists_` says whether a file exists -/
def visit (rnd : ℚ → ℚ) (swapBytes : Bool) (model : Str) (text : Str → Str) (exists_ : Str → Bool) (ix : Index) (name : Str) :
    Outcome Index :=
  let base := name.take (name.length - 4)
  let buf := exists_ (base ++ ".buf".toList)
  match role model name with
  | some (.time p) => attempt (point name (timeGrid rnd swapBytes (text name) buf))
      (fun pt => { ix with time := setAt ix.time p (ix.time p ++ [pt]) }) ix
  | some (.angle p) => attempt (point name (angleGrid rnd swapBytes (text name) buf))
      (fun pt => { ix with angle := setAt ix.angle p (ix.angle p ++ [pt]) }) ix
  | some (.model p) => attempt (velGrid rnd swapBytes (text name) buf)
      (fun h => { ix with vel := setAt ix.vel p (some (name, h)) }) ix
  | none => .ok ix

/-- the files of the directory in the order of the iterator, nllgrid.cpp:97-181 -/
def search (rnd : ℚ → ℚ) (swapBytes : Bool) (model : Str) (text : Str → Str) (exists_ : Str → Bool) :
    Index → List Str → Outcome Index
  | ix, [] => .ok ix
  | ix, f :: fs => (visit rnd swapBytes model text exists_ ix f).bind (fun ix => search rnd swapBytes model text exists_ ix fs)

/-- the access methods, nllgrid.cpp:59-74 -/
def accessMethods : List String := ["LoadIntoMemory", "MemoryMapping", "KeepOpen"]

/-- the constructor of `NLLGrid`, nllgrid.cpp:50-197 (the trees are built from the lists) -/
def open_ (rnd : ℚ → ℚ) (swapBytes : Bool) (accessMethod : String) (model : Str) (text : Str → Str) (exists_ : Str → Bool)
    (files : List Str) : Outcome Index :=
  if accessMethod ∈ accessMethods then search rnd swapBytes model text exists_ {} files else .throws

end Verif.GridHeader
