import Verif.Model.Csv
import Mathlib.Algebra.Order.Ring.Rat

/-!
# Model of `apps/sclistorg/sclistorg.py`

The tool that lists the origins of a SeisComP database from which a catalog for `scrtdd` is made.  The database, the reading of times and
numbers and their text are parameters.  Simplifications: floats are rational numbers; objects of the database have the type that is asked for;
what is logged is left out.
-/

namespace Verif.ListOrg
open Verif.Csv (Str)

/-- `DataModel::EvaluationMode` -/
inductive Mode where
  | manual
  | automatic
deriving DecidableEq, Repr

/-- `DataModel::Origin` as read in sclistorg.py:251-320; `none` for what is not set.  Latitude, longitude and time are always set. -/
structure Origin where
  id : String
  evalMode : Option Mode
  evalStat : Option String
  creationTime : Option Int
  modificationTime : Option Int
  agencyID : Option String
  author : Option String
  methodID : Option String
  rms : Option ℚ
  phases : Option Nat
  latitude : ℚ
  longitude : ℚ
  depth : Option ℚ
  time : Int
deriving DecidableEq, Repr

/-- sclistorg.py:288-295: when one of the three is missing, none is there -/
def Origin.place (org : Origin) : Option (ℚ × ℚ × ℚ) := org.depth.map (fun d => (org.latitude, org.longitude, d))

/-- `DataModel::Event` -/
structure Event where
  id : String
  preferred : String
  type : Option String
  modificationTime : Option Int
deriving DecidableEq, Repr

/-- the queries of sclistorg.py:195, 238, 243 -/
structure Database where
  getEvents : Int → Int → List Event
  getObject : String → Option Origin
  getOrigins : String → List Origin

/-- sclistorg.py:180 -/
structure Area where
  minLat : ℚ
  minLon : ℚ
  maxLat : ℚ
  maxLon : ℚ
deriving DecidableEq, Repr

/-- what `init` sets, sclistorg.py:94-184 -/
structure Options where
  startTime : Int
  endTime : Int
  modifiedAfter : Option Int
  evtypes : Option (List String)
  orgType : String
  simple : Bool
  manualOnly : Bool
  automaticOnly : Bool
  incAuthor : Option (List String)
  exclAuthor : Option (List String)
  incEvalStat : Option (List String)
  exclEvalStat : Option (List String)
  incAgencyID : Option (List String)
  exclAgencyID : Option (List String)
  incMethodID : Option (List String)
  exclMethodID : Option (List String)
  area : Option Area
deriving DecidableEq, Repr

/-- the command line, and functions of Python and SeisComP: `_parseTime` (sclistorg.py:25-33), `float`, `lower` -/
structure Env where
  optionString : String → Option String
  hasOption : String → Bool
  parseTime : String → Option Int
  float : String → Option ℚ
  lower : String → String

/-- `s.split(',')` -/
def split (s : String) : List String := (s.toList.splitOn ',').map String.ofList

/-- sclistorg.py:178-184: any exception gives no area -/
def parseArea (env : Env) : Option Area := do
  let s ← env.optionString "area"
  let tokens := split s
  let a ← tokens[0]? >>= env.float
  let b ← tokens[1]? >>= env.float
  let c ← tokens[2]? >>= env.float
  let d ← tokens[3]? >>= env.float
  some ⟨a, b, c, d⟩

/-- sclistorg.py:115-127: a wrong time is an error, no time is not -/
def parseModified (env : Env) : Option (Option Int) :=
  match env.optionString "modified-after" with
  | none => some none
  | some s => (env.parseTime s).map some

/-- sclistorg.py:90-186; `none` when it returns `False` -/
def init (env : Env) : Option Options := do
  let startTime ← env.parseTime ((env.optionString "begin").getD "1900-01-01T00:00:00Z")
  let endTime ← env.parseTime ((env.optionString "end").getD "2500-01-01T00:00:00Z")
  let modifiedAfter ← parseModified env
  let list (name : String) : Option (List String) := (env.optionString name).map split
  some {
    startTime := startTime
    endTime := endTime
    modifiedAfter := modifiedAfter
    evtypes := list "ev-type"
    orgType := (env.optionString "org-type").getD "preferred"
    simple := env.hasOption "simple"
    manualOnly := env.hasOption "manual-only"
    automaticOnly := env.hasOption "auto-only"
    incAuthor := list "inc-author"
    exclAuthor := list "excl-author"
    incEvalStat := (list "inc-status").map (List.map env.lower)
    exclEvalStat := (list "excl-status").map (List.map env.lower)
    incAgencyID := list "inc-agency"
    exclAgencyID := list "excl-agency"
    incMethodID := list "inc-method"
    exclMethodID := list "excl-method"
    area := parseArea env }

/-- `a < b` in Python, which raises an exception when one of them is `None` -/
def less {K : Type} [LT K] [DecidableLT K] (a b : Option K) : Outcome Bool :=
  match a, b with
  | some a, some b => .ok (decide (a < b))
  | _, _ => .throws

/-- sclistorg.py:328-350: whether the origin is passed over because the one found before is better -/
def worse (orgType : String) (best : Option Origin) (org : Origin) : Outcome Bool :=
  if orgType = "last" then
    match best with
    | none => .ok false
    | some b => less org.creationTime b.creationTime
  else if orgType = "first" then
    match best with
    | none => .ok false
    | some b => less b.creationTime org.creationTime
  else if orgType = "maxPhases" then
    if org.phases.isNone then .ok true
    else match best with
      | none => .ok false
      | some b => less org.phases b.phases
  else if orgType = "minPhases" then
    if org.phases.isNone then .ok true
    else match best with
      | none => .ok false
      | some b => less b.phases org.phases
  else if orgType = "maxRMS" then
    if org.rms.isNone then .ok true
    else match best with
      | none => .ok false
      | some b => less org.rms b.rms
  else if orgType = "minRMS" then
    if org.rms.isNone then .ok true
    else match best with
      | none => .ok false
      | some b => less b.rms org.rms
  else .ok false

/-- `(inc is not None) and (x is None or x not in inc)`, sclistorg.py:352-378 -/
def notIncluded (inc : Option (List String)) (x : Option String) : Bool :=
  match inc with
  | none => false
  | some l =>
    match x with
    | none => true
    | some x => !(l.contains x)

/-- `(excl is not None) and (x is not None) and (x in excl)`, sclistorg.py:356-382 -/
def excluded (excl : Option (List String)) (x : Option String) : Bool :=
  match excl, x with
  | some l, some x => l.contains x
  | _, _ => false

/-- sclistorg.py:384-396: whether the origin is outside; a place that is missing cannot be compared -/
def outside (area : Option Area) (org : Origin) : Outcome Bool :=
  match area with
  | none => .ok false
  | some a =>
    match org.place with
    | none => .throws
    | some (lat, lon, _) =>
      if lat < a.minLat ∨ lat > a.maxLat then .ok true
      else
        let lonRange := a.maxLon - a.minLon
        let lonRange := if lonRange < 0 then lonRange + 360 else lonRange
        let lonDelta := lon - a.minLon
        let lonDelta := if lonDelta < 0 then lonDelta + 360 else lonDelta
        .ok (decide (lonDelta > lonRange))

/-- sclistorg.py:251-415, one origin; `best` is `orgInfo` -/
def consider (lower : String → String) (o : Options) (best : Option Origin) (org : Origin) : Outcome (Option Origin) :=
  if o.automaticOnly ∧ org.evalMode ≠ some .automatic then .ok best
  else if o.manualOnly ∧ org.evalMode ≠ some .manual then .ok best
  else do
    if ← worse o.orgType best org then return best
    if notIncluded o.incEvalStat (org.evalStat.map lower) then return best
    if excluded o.exclEvalStat (org.evalStat.map lower) then return best
    if notIncluded o.incAuthor org.author then return best
    if excluded o.exclAuthor org.author then return best
    if notIncluded o.incAgencyID org.agencyID then return best
    if excluded o.exclAgencyID org.agencyID then return best
    if notIncluded o.incMethodID org.methodID then return best
    if excluded o.exclMethodID org.methodID then return best
    if ← outside o.area org then return best
    return some org

/-- sclistorg.py:236-246 -/
def origins (db : Database) (o : Options) (ev : Event) : List Origin :=
  if o.orgType = "preferred" then (db.getObject ev.preferred).toList else db.getOrigins ev.id

/-- sclistorg.py:235-417 -/
def findOrigin (lower : String → String) (db : Database) (o : Options) (ev : Event) : Outcome (Option Origin) :=
  (origins db o ev).foldlM (consider lower o) none

/-- sclistorg.py:200-214: whether the event is kept -/
def keep (o : Options) (ev : Event) : Bool :=
  (match o.modifiedAfter with
    | none => true
    | some t =>
      match ev.modificationTime with
      | none => false
      | some m => !decide (m < t)) &&
  (match o.evtypes with
    | none => true
    | some l => l.contains (ev.type.getD ""))

/-- sclistorg.py:194-216 -/
def events (db : Database) (o : Options) : List Event := (db.getEvents o.startTime o.endTime).filter (keep o)

/-- sclistorg.py:218-221: the origins listed, with their events, until the end (`true`) or an exception -/
def listed (lower : String → String) (db : Database) (o : Options) : List Event → List (Event × Origin) × Bool
  | [] => ([], true)
  | ev :: evs =>
    match findOrigin lower db o ev with
    | .ok none => listed lower db o evs
    | .ok (some org) => let r := listed lower db o evs; ((ev, org) :: r.1, r.2)
    | _ => ([], false)

/-! ## The text -/

/-- the text of numbers and times -/
structure Show where
  num : ℚ → Str
  count : Nat → Str
  time : Int → Str

/-- a string in an f-string -/
def str : Option String → Str
  | none => "None".toList
  | some s => s.toList

/-- sclistorg.py:225-231, 398-400; the place of an origin without depth is `None` -/
def fields (s : Show) (ev : Event) (org : Origin) : List Str :=
  let none := "None".toList
  [org.id.toList, ev.id.toList, (ev.type.getD "").toList,
    (match org.evalMode with
      | .none => []
      | some .manual => "manual".toList
      | some .automatic => "automatic".toList),
    str org.evalStat, str org.agencyID, str org.author, str org.methodID,
    (org.rms.map s.num).getD [], (org.phases.map s.count).getD [],
    (org.place.map (fun p => s.num p.1)).getD none, (org.place.map (fun p => s.num p.2.1)).getD none,
    (org.place.map (fun p => s.num p.2.2)).getD none, s.time org.time,
    (org.creationTime.map s.time).getD [], (org.modificationTime.map s.time).getD []]

/-- fields with commas between them -/
def commas : List Str → Str
  | [] => []
  | [f] => f
  | f :: fs => f ++ ',' :: commas fs

/-- sclistorg.py:192 -/
def header : Str :=
  ("origin,event,eventType,evalMode,evalStat,agencyID,author,methodID,RMS,numPhases,latitude,longitude,depth,time," ++
    "creationTime,modificationTime").toList

/-- sclistorg.py:222-231 -/
def line (s : Show) (o : Options) (x : Event × Origin) : Str :=
  (if o.simple then x.2.id.toList else commas (fields s x.1 x.2)) ++ ['\n']

/-- sclistorg.py:188-233: what is written to standard output, and whether the end was reached -/
def run (lower : String → String) (s : Show) (db : Database) (o : Options) : Str × Bool :=
  let r := listed lower db o (events db o)
  ((if o.simple then [] else header ++ ['\n']) ++ r.1.flatMap (line s o), r.2)

end Verif.ListOrg
