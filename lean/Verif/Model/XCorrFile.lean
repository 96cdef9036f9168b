import Verif.Model.XCorrCache
import Verif.Model.Decimal

/-!
# Model of the cross-correlation file (libs/hdd/xcorrcache.cpp:38-99)

The file is its text.  Simplification: the numbers of an entry are finite (as in `Model.XCorrCache`); a cell
with `nan` or `inf`, which `stod` accepts, is treated like one it does not accept.
-/

namespace Verif.XCorrFile
open Verif.Csv Verif.Catalog Verif.XCorr Verif.PairFile Verif.Decimal

variable {D : Type}

/-- xcorrcache.cpp:41-43 -/
def header : List Str := ["eventId1".toList, "eventId2".toList, "networkCode".toList, "stationCode".toList,
  "locationCode".toList, "phaseType".toList, "valid".toList, "coefficient".toList, "lag".toList]

/-- xcorrcache.cpp:48-53: one row; `at` throws if the station is missing -/
def entryRow (stations : AMap String (Station D)) (x : Nat × Nat × String × String × Entry) : Outcome (List Str) :=
  match stations.find? x.2.2.1 with
  | none => .throws
  | some sta => .ok [decimal x.1, decimal x.2.1, sta.networkCode.toList, sta.stationCode.toList,
      sta.locationCode.toList, x.2.2.2.1.toList, (if x.2.2.2.2.valid then "true" else "false").toList,
      fixedText 6 x.2.2.2.2.coeff, fixedText 6 x.2.2.2.2.lag]

/-- xcorrcache.cpp:38-57.  `order` are the entries in the order in which `forEach` visits them. -/
def writeEntries (stations : AMap String (Station D)) (order : List (Nat × Nat × String × String × Entry)) :
    Outcome Str :=
  (mapRows (entryRow stations) order).map (fun rows => fileText (header :: rows))

/-- xcorrcache.cpp:61-63 -/
def strToBool (s : Str) : Bool :=
  s = "1".toList || s = "true".toList || s = "True".toList || s = "TRUE".toList

/-- `stod` of a cell that holds a finite number -/
def number (rnd : ℚ → ℚ) (s : Str) : Outcome ℚ :=
  match stod rnd s with
  | .ok (.num x) => .ok x
  | .ub => .ub
  | _ => .throws

/-- xcorrcache.cpp:75-88; dereferencing the result of a failed `searchStation` is undefined -/
def readEntry (rnd : ℚ → ℚ) (stations : AMap String (Station D)) (c : Cache) (row : AMap Str Str) : Outcome Cache := do
  let ev1 ← (column row "eventId1").bind stoul
  let ev2 ← (column row "eventId2").bind stoul
  let net ← column row "networkCode"
  let sta ← column row "stationCode"
  let loc ← column row "locationCode"
  let phase ← column row "phaseType"
  let valid ← (column row "valid").map strToBool
  let coeff ← (column row "coefficient").bind (number rnd)
  let lag ← (column row "lag").bind (number rnd)
  match stations.find? (Catalog.stationIdOf (String.ofList net) (String.ofList sta) (String.ofList loc)) with
  | none => .ub
  | some station => .ok (add c ev1 ev2 station.id (String.ofList phase) ⟨valid, coeff, lag⟩)

/-- xcorrcache.cpp:72-90 -/
def readRows (rnd : ℚ → ℚ) (stations : AMap String (Station D)) : List (AMap Str Str) → Cache → Outcome Cache
  | [], c => .ok c
  | row :: rows, c =>
    match readEntry rnd stations c row with
    | .ok c => readRows rnd stations rows c
    | .throws => .throws
    | .ub => .ub

/-- xcorrcache.cpp:59-99 -/
def readEntries (rnd : ℚ → ℚ) (stations : AMap String (Station D)) (text : Str) : Outcome Cache :=
  match readWithHeader text with
  | .ok rows => readRows rnd stations rows []
  | .throws => .throws
  | .ub => .ub

end Verif.XCorrFile
