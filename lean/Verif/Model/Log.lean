import Verif.Base.AMap

/-!
# Model of the log (libs/hdd/log.cpp, log.h) and of the log files of a relocation (libs/hdd/dd.cpp)

Simplifications: a line of a log file is its level and its text, without the time (log.cpp:43-67).  Writing to an open file
succeeds, and different names are different files.  Threads are left out: log.cpp:80, :138 and :160 take a lock.
-/

namespace Verif.Log

/-- log.h:43-50 -/
inductive Level where
  | debug
  | info
  | warning
  | error
  | none
deriving DecidableEq, Repr

/-- the order of an `enum class` -/
def Level.rank : Level → Nat
  | debug => 0
  | info => 1
  | warning => 2
  | error => 3
  | none => 4

/-- a line of a log -/
abbrev Line := Level × String

/-- The globals of log.cpp:69-94, the content of the files, and what was passed to the user's logger or, without one (`none`),
written to the standard error stream -/
structure State where
  user : Option String
  minLevel : Level
  loggers : AMap String Level
  files : String → List Line
  shown : List (Option String × Line)

/-- log.cpp:76, :92, :94 -/
def init (files : String → List Line) : State := ⟨none, .debug, [], files, []⟩

/-- the calls; `message true` is one of the functions with a format (`logInfoF`, …), `message false` one without (`logInfo`, …).
`canOpen` tells whether the file can be opened. -/
inductive Op where
  | setLevel (l : Level)
  | setLogger (callback : String)
  | clearLogger
  | message (formatted : Bool) (l : Level) (text : String)
  | addFile (name : String) (l : Level) (canOpen : Bool)
  | removeFile (name : String)
deriving DecidableEq

/-- log.cpp:78-90 `logToFile` -/
def toFiles (s : State) (l : Level) (text : String) : State :=
  { s with files := fun name =>
      match s.loggers.find? name with
      | some min => if min.rank ≤ l.rank then s.files name ++ [(l, text)] else s.files name
      | none => s.files name }

/-- log.cpp:118-134 `log` -/
def log (s : State) (l : Level) (text : String) : State :=
  toFiles (if s.minLevel.rank ≤ l.rank then { s with shown := s.shown ++ [(s.user, l, text)] } else s) l text

/-- log.h:67-139: with a format nothing is done below the global level -/
def message (s : State) (formatted : Bool) (l : Level) (text : String) : State :=
  if formatted then if s.minLevel.rank ≤ l.rank then log s l text else s
  else log s l text

/-- log.cpp:136-156 `addFileLogger`; the second result is false when it throws -/
def addFile (s : State) (name : String) (l : Level) (canOpen : Bool) : State × Bool :=
  match s.loggers.find? name with
  | some _ => (s, true)
  | none => if canOpen then ({ s with loggers := s.loggers.set name l }, true) else (s, false)

/-- one call; log.cpp:102, :106-112, :114, :158-167 for the other ones -/
def step (s : State) : Op → State
  | .setLevel l => { s with minLevel := l }
  | .setLogger c => match s.user with
    | none => { s with user := some c }
    | some _ => s
  | .clearLogger => { s with user := none }
  | .message formatted l text => message s formatted l text
  | .addFile name l canOpen => (addFile s name l canOpen).1
  | .removeFile name => { s with loggers := s.loggers.erase name }

/-- calls, one after the other -/
def run (s : State) (ops : List Op) : State := ops.foldl step s

/-! ## the log files of a relocation -/

/-- a message -/
structure Text where
  formatted : Bool
  level : Level
  text : String
deriving DecidableEq

/-- logging a message -/
def Text.op (t : Text) : Op := .message t.formatted t.level t.text

/-- how a relocation of an event ends: normally (dd.cpp:649), without enough neighbours (:599), or with an exception -/
inductive Ending where
  | finished
  | tooFew
  | exception
deriving DecidableEq

/-- A call of `relocateSingleEvent` (dd.cpp:534-650) as seen by the log: whether processing is saved, the name of the log file,
whether it can be opened, the messages before that (:561), those after it, and how it ends -/
structure Single where
  save : Bool
  file : String
  canOpen : Bool
  before : List Text
  body : List Text
  ending : Ending

/-- dd.cpp:568-647; `addFileLogger` throws if the file cannot be opened -/
def runSingle (s : State) (c : Single) : State :=
  let s := run s (c.before.map Text.op)
  let r := if c.save then addFile s c.file .info c.canOpen else (s, true)
  if r.2 then
    let s := run r.1 (c.body.map Text.op)
    match c.ending with
    | .finished => step s (.removeFile c.file)
    | .tooFew => s
    | .exception => s
  else r.1

/-- the relocation of a cluster (dd.cpp:466-519) as seen by the log; `ended` is false if it throws -/
structure Cluster where
  before : List Text
  file : String
  canOpen : Bool
  body : List Text
  ended : Bool

/-- dd.cpp:466-519: the clusters until one throws; the second result is false if one did -/
def runClusters (save : Bool) : State → List Cluster → State × Bool
  | s, [] => (s, true)
  | s, c :: cs =>
    let s := run s (c.before.map Text.op)
    let r := if save then addFile s c.file .info c.canOpen else (s, true)
    if r.2 then
      let s := run r.1 (c.body.map Text.op)
      if c.ended then runClusters save (if save then step s (.removeFile c.file) else s) cs else (s, false)
    else (r.1, false)

/-- A call of `relocateMultiEvents` (dd.cpp:407-532) as seen by the log: the messages before the file is opened (:415-439), those
before the clusters (:446-451), the clusters, the messages at the end, and whether writing the results succeeds (:522-527) -/
structure Multi where
  save : Bool
  file : String
  canOpen : Bool
  before : List Text
  start : List Text
  clusters : List Cluster
  last : List Text
  ended : Bool

/-- dd.cpp:407-532; the second result is false if it throws -/
def runMulti (s : State) (c : Multi) : State × Bool :=
  let s := run s (c.before.map Text.op)
  let r := if c.save then addFile s c.file .info c.canOpen else (s, true)
  if r.2 then
    let s := run r.1 (c.start.map Text.op)
    let r := runClusters c.save s c.clusters
    if r.2 then
      let s := run r.1 (c.last.map Text.op)
      if c.ended then (if c.save then step s (.removeFile c.file) else s, true) else (s, false)
    else r
  else r

end Verif.Log
