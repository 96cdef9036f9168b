import Verif.Model.DDFile
import Verif.Spec.Solver
import Verif.Spec.ClusterFiles

/-!
# Vocabulary of the statements about double-difference files (C108)
-/

namespace Verif.DDFile
open Verif.Csv Verif.Catalog Verif.Solver

variable {K D : Type}

/-- The position (latitude, longitude, depth) of an event: the first one given. -/
def positionOf (ops : List (SolverOp K)) (k : Nat) : Option (K × K × K) :=
  ops.findSome? (fun op => match op with
    | .event id lat lon depth => if id = k then some (lat, lon, depth) else none
    | _ => none)

/-- a text that needs no quotes -/
def Bare (s : List Char) : Prop := ∀ c ∈ s, c ≠ ',' ∧ c ≠ '"' ∧ c ≠ '\n' ∧ c ≠ '\r'

/-- The stations of the observations are known, and what is written of an observation needs no quotes. -/
def Writable (stations : AMap String (Station D)) (ops : List (SolverOp K)) : Prop :=
  ∀ o ∈ obsOf ops, Bare o.phase ∧ ∃ sta, stations.find? (String.ofList o.sta) = some sta ∧
    ClusterFiles.Plain sta.networkCode ∧ ClusterFiles.Plain sta.stationCode ∧ ClusterFiles.Plain sta.locationCode

variable [Field K] [LinearOrder K]

/-- `line` says of observation `o`: the two events, the station codes, the phase, the final weight, whether cross-correlation
was used and its coefficient, the double difference `res`, and the distance of the two events. -/
def IsLine (num : K → List Char) (dist : K × K × K → K × K × K → K) (stations : AMap String (Station D))
    (ops : List (SolverOp K)) (o : ObsArg K) (weight res : K) (line : List (List Char)) : Prop :=
  ∃ sta pos1 pos2, stations.find? (String.ofList o.sta) = some sta ∧
    positionOf ops o.e1 = some pos1 ∧ positionOf ops o.e2 = some pos2 ∧
    line = [(toString o.e1).toList, (toString o.e2).toList, sta.networkCode.toList, sta.stationCode.toList,
      sta.locationCode.toList, o.phase, num weight, (if o.xcorrUsed then "true" else "false").toList, num o.xcorrCoeff,
      num res, num (dist pos1 pos2)]

/-- The double difference of an observation: measured time difference minus the difference of the travel times. -/
def IsResidual (ops : List (SolverOp K)) (o : ObsArg K) (res : K) : Prop :=
  ∃ p1 p2, paramsOf ops o.e1 o.sta o.phase = some p1 ∧ paramsOf ops o.e2 o.sta o.phase = some p2 ∧
    res = o.timeDiff - (p1.tt - p2.tt)

/-- the columns of a double-difference file -/
def columns : List String := ["eventId1", "eventId2", "networkCode", "stationCode", "locationCode", "phaseType", "weight",
  "xcorrUsed", "xcorrCoefficient", "doubleDifferenceResidual", "interEventDistance"]

/-- `text` is the double-difference file of the calls `ops`: read as a table it has the header and one line for each distinct
observation, with the weight reduced by the residual (`residualDownWeight`). -/
def IsFile (nth : NthElement (id : K → K)) (residualDownWeight : K) (num : K → List Char)
    (dist : K × K × K → K × K × K → K) (stations : AMap String (Station D)) (ops : List (SolverOp K)) (text : Str) : Prop :=
  let obs := firstBy ObsArg.quad (obsOf ops)
  ∃ (lines sorted : List (List Str)) (res : Nat → K), read text = columns.map String.toList :: lines ∧ lines.Perm sorted ∧
    sorted.length = obs.length ∧
    ∀ i o, obs[i]? = some o → IsResidual ops o (res i) ∧ ∃ line w, sorted[i]? = some line ∧
      IsResidualWeight nth residualDownWeight obs.length res i w ∧
      IsLine num dist stations ops o (o.weight * w) (res i) line

end Verif.DDFile
