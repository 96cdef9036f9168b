import Verif.Model.RealSolver
import Verif.Model.PairFile

/-!
# Model of the double-difference files

`Solver::getDoubleDifferences` with all its columns (libs/hdd/solver.cpp:373-406, and :507-544 for the distances), the
function that writes them (libs/hdd/dd.cpp:103-127), and which of them a relocation keeps (dd.cpp:739-747).

`Verif.Model.Solver.getDoubleDifferences` has the columns that do not depend on `prepare`.  The distance of two positions is
a parameter; a number is printed by a parameter (`%g`).  Failing to open the file goes unnoticed in the code and is left out.
-/

namespace Verif.Solver
variable {K : Type} [Field K] [LinearOrder K]

/-- `Solver::DoubleDifference`, solver.h:204-217 -/
structure Entry (K : Type) where
  evId1 : Nat
  evId2 : Nat
  sta : List Char
  phase : List Char
  weight : K
  xcorrUsed : Bool
  xcorrCoeff : K
  timeDiff : K
  computedTimeDiff : K
  doubleDifference : K
  interEventDistance : K
deriving DecidableEq

/-- solver.cpp:535-542: the distance of the two events of an observation, from the positions given for them.  The cache of
distances (solver.cpp:516, :531) is never filled. -/
def interEventDistance (s : Solver K) (dist : K × K × K → K × K × K → K) (x : Obs K) : Outcome K := do
  let a ← Outcome.ofOption (s.eventParams.find? x.ev1)
  let b ← Outcome.ofOption (s.eventParams.find? x.ev2)
  .ok (dist a b)

/-- solver.cpp:377-404, one observation, after `prepare`: the weight is that of the row (solver.cpp:669), the computed time
difference and the double difference were stored by solver.cpp:638-639 -/
def entry (s : Solver K) (dist : K × K × K → K × K × K → K) (p : Prepared K) (x : Nat × Obs K) : Outcome (Entry K) := do
  let e ← s.doubleDifference x
  let d ← s.interEventDistance dist x.2
  .ok ⟨e.evId1, e.evId2, e.sta, e.phase, p.dd.W x.1, e.xcorrUsed, e.xcorrCoeff, e.timeDiff, p.computed x.1,
    e.timeDiff - p.computed x.1, d⟩

/-- solver.cpp:373-406 -/
def entries (s : Solver K) (dist : K × K × K → K × K × K → K) (p : Prepared K) (io : List (Nat × Obs K)) :
    Outcome (List (Entry K)) := io.mapM (s.entry dist p)

end Verif.Solver

namespace Verif.DDFile
open Verif.Csv Verif.Catalog Verif.PairFile Verif.Relocate

/-- dd.cpp:109-111 -/
def header : List Str := ["eventId1".toList, "eventId2".toList, "networkCode".toList, "stationCode".toList,
  "locationCode".toList, "phaseType".toList, "weight".toList, "xcorrUsed".toList, "xcorrCoefficient".toList,
  "doubleDifferenceResidual".toList, "interEventDistance".toList]

variable {K D : Type}

/-- dd.cpp:117-123; `at` throws if the station is missing -/
def row (num : K → Str) (stations : AMap String (Station D)) (e : Solver.Entry K) : Outcome (List Str) :=
  match stations.find? (String.ofList e.sta) with
  | none => .throws
  | some sta => .ok [decimal e.evId1, decimal e.evId2, sta.networkCode.toList, sta.stationCode.toList, sta.locationCode.toList,
      e.phase, num e.weight, (if e.xcorrUsed then "true".toList else "false".toList), num e.xcorrCoeff,
      num e.doubleDifference, num e.interEventDistance]

/-- dd.cpp:103-127: the text of the file -/
def write (num : K → Str) (stations : AMap String (Station D)) (es : List (Solver.Entry K)) : Outcome Str :=
  (mapRows (row num stations) es).map (fun rows => fileText (header :: rows))

/-- dd.cpp:732-747: the double differences of an iteration, fetched between `prepare` and `solve`; `none` if a weight is not a
number -/
noncomputable def ofIteration (su : SolverSetup) (dist : ℝ × ℝ × ℝ → ℝ × ℝ × ℝ → ℝ) (x : IterLog ℝ) :
    Outcome (Option (List (Solver.Entry ℝ))) :=
  match su.prepared x.ops x.absLoc x.downWeighting with
  | .ok (some p) =>
    ((Solver.run x.ops).entries dist p (su.visitObs (Solver.run x.ops).observations)).map some
  | .ok none => .ok none
  | .throws => .throws
  | .ub => .ub

/-- dd.cpp:737-740: `startDDs` are those of the first iteration -/
noncomputable def startDDs (su : SolverSetup) (dist : ℝ × ℝ × ℝ → ℝ × ℝ × ℝ → ℝ) (log : List (IterLog ℝ)) :
    Outcome (Option (List (Solver.Entry ℝ))) :=
  match log[0]? with
  | some x => ofIteration su dist x
  | none => .ok (some [])

/-- dd.cpp:742-747: `finalDDs` are those of the iteration `algoIterations`; empty if there was none, because a system could
not be solved (dd.cpp:755-764) -/
noncomputable def finalDDs (su : SolverSetup) (so : SolverOptions ℝ) (dist : ℝ × ℝ × ℝ → ℝ × ℝ × ℝ → ℝ)
    (log : List (IterLog ℝ)) : Outcome (Option (List (Solver.Entry ℝ))) :=
  match log[so.algoIterations]? with
  | some x => ofIteration su dist x
  | none => .ok (some [])

end Verif.DDFile
