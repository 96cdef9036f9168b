import Verif.Base.AMap
import Mathlib.Data.List.Sort
import Mathlib.Data.String.Basic

/-!
# Model of the real-time job scheduler  (apps/scrtdd/rtddtool.cpp)

`addProcess`, `handleTimeout`, `runNewJobs`, `removeProcess`.  What a job does (`startProcess`,
i.e. the relocation itself) is external: only whether it reports "can be run again" matters here and
it is an input of every step.  `created` and `runCount` are never read and left out.  Clock readings
are inputs (seconds as integers).  `checkProfileStatus` does not touch the scheduler state.
-/

namespace Verif.Scheduler

/-- A `ProcessPtr`: the object created by the `uid`-th `new Process` (rtddtool.cpp:1531) together with
its `obj->publicID()`. Two pointers are equal iff their `uid`s are. -/
structure Ref where
  uid : Nat
  id : String
deriving DecidableEq, Repr

/-- rtddtool.h:189-200 (`Cronjob` and `Process`) -/
structure Proc where
  ref : Ref
  runTimes : List Int
deriving DecidableEq, Repr

/-- Configuration: `performance.delayTime` (rtddtool.cpp:350) and the wake-up interval
(rtddtool.h:134, always 1 in the code, arbitrary here) -/
structure Config where
  delayTimes : List Int
  wakeupInterval : Int

/-- rtddtool.h:202-208; `started` is the observable log of (time, publicID) of started jobs. -/
structure State where
  procs : AMap String Proc
  queue : List Ref
  cron : Int
  nextUid : Nat
  started : List (Int × String)

/-- rtddtool.cpp:1070 -/
def init (cfg : Config) : State := ⟨[], [], cfg.wakeupInterval, 0, []⟩

/-- Iteration order of `std::map<std::string, ProcessPtr>` -/
def sorted (m : AMap String Proc) : List (String × Proc) := 
  m.insertionSort (fun a b => a.1 ≤ b.1)

/-- Body of the crontab loop, rtddtool.cpp:1462-1493. The accumulator also holds
`procToBeRemoved`. -/
def cronStep (now : Int) (acc : State × List Ref) (kv : String × Proc) : State × List Ref :=
  match kv.2.runTimes with
  | [] => (acc.1, acc.2 ++ [kv.2.ref])
  | t :: ts =>
    if t > now then acc
    else
      ({ acc.1 with
          procs := acc.1.procs.set kv.1
            { kv.2 with runTimes := (t :: ts).dropWhile (fun x => x ≤ now) }
          queue := if kv.2.ref ∈ acc.1.queue then acc.1.queue else acc.1.queue ++ [kv.2.ref] },
        acc.2)

/-- rtddtool.cpp:1626-1636: `find` by publicID in the map; first occurrence of the pointer in the
queue -/
def removeProcess (s : State) (r : Ref) : State :=
  { s with procs := s.procs.erase r.id, queue := s.queue.erase r }

/-- rtddtool.cpp:1502-1514; `ok` is what `startProcess` returns -/
def startNext (now : Int) (ok : Bool) (s : State) : State :=
  match s.queue with
  | [] => s
  | r :: q =>
    let s' := { s with queue := q, started := s.started ++ [(now, r.id)] }
    if ok then s' else removeProcess s' r

/-- rtddtool.cpp:1455-1514: what happens when the counter runs out -/
def wakeUp (cfg : Config) (now : Int) (ok : Bool) (s : State) : State :=
  let s := { s with cron := cfg.wakeupInterval }
  let (s, toRemove) := (sorted s.procs).foldl (cronStep now) (s, [])
  startNext now ok (toRemove.foldl removeProcess s)

/-- rtddtool.cpp:1450-1516 (and `handleTimeout`, 1413-1417) -/
def runNewJobs (cfg : Config) (now : Int) (ok : Bool) (s : State) : State :=
  let s := { s with cron := s.cron - 1 }
  if s.cron ≤ 0 then wakeUp cfg now ok s else s

/-- rtddtool.cpp:1522-1554: create or reuse the process and reset its run times. `t` is the clock
reading of line 1522. -/
def schedule (cfg : Config) (t : Int) (id : String) (s : State) : State :=
  let runTimes := cfg.delayTimes.map (fun d => t + d)
  match s.procs.find? id with
  | some p => { s with procs := s.procs.set id { p with runTimes := runTimes } }
  | none =>
    { s with procs := s.procs.set id ⟨⟨s.nextUid, id⟩, runTimes⟩, nextUid := s.nextUid + 1 }

/-- rtddtool.cpp:1518-1558; `t'` is the clock reading of `runNewJobs` (line 1458) -/
def addProcess (cfg : Config) (t t' : Int) (id : String) (ok : Bool) (s : State) : State :=
  runNewJobs cfg t' ok (schedule cfg t id s)

/-- What the application does: the 1 s timer fires (rtddtool.cpp:1067,1413) or an object arrives
(rtddtool.cpp:1347). -/
inductive Op where
  | tick (now : Int) (ok : Bool)
  | add (t t' : Int) (id : String) (ok : Bool)

def step (cfg : Config) (s : State) : Op → State
  | .tick now ok => runNewJobs cfg now ok s
  | .add t t' id ok => addProcess cfg t t' id ok s

def run (cfg : Config) (ops : List Op) : State := ops.foldl (step cfg) (init cfg)

/-- Processing given origins and exiting (options -O and --ep), rtddtool.cpp:1272-1285 and
1310-1317: zero delay and counter reset to 0 before every `addProcess`. -/
def runOffline (cfg : Config) (arrivals : List (Int × Int × String × Bool)) : State :=
  arrivals.foldl (fun s a =>
    addProcess { cfg with delayTimes := [0] } a.1 a.2.1 a.2.2.1 a.2.2.2 { s with cron := 0 })
    (init cfg)

end Verif.Scheduler
