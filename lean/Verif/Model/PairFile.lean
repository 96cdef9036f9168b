import Verif.Model.Neighbours
import Verif.Model.Csv
import Verif.Base.Text

/-!
# Model of the neighbour pair file (libs/hdd/clustering.cpp:182-281)

The file is its text.  The stations of the catalog are an `AMap`.
-/

namespace Verif.PairFile
open Verif.Csv Verif.Catalog

/-- `UINT_MAX + 1` -/
def uintMod : Nat := 4294967296
/-- `ULONG_MAX + 1` -/
def ulongMod : Nat := 18446744073709551616

def isSpace (c : Char) : Bool := c = ' ' || c = '\t' || c = '\n' || c = '\x0b' || c = '\x0c' || c = '\r'

/-- `unsigned x = std::stoul(s)`: white space, an optional sign, digits; whatever follows is ignored.
Throws without digits and above `ULONG_MAX`; a negative number is negated modulo 2^64. The conversion to
`unsigned` keeps the last 32 bits. -/
def stoul (s : Str) : Outcome Nat :=
  let s := s.dropWhile isSpace
  let neg := s.head? = some '-'
  let s := if s.head? = some '-' ∨ s.head? = some '+' then s.tail else s
  let digits := s.takeWhile Char.isDigit
  if digits = [] then .throws
  else
    let v := Nat.ofDigitChars 10 digits 0
    if ulongMod ≤ v then .throws
    else .ok ((if neg then (ulongMod - v) % ulongMod else v) % uintMod)

/-- the fields separated by commas, without quotes -/
def joinComma : List Str → Str
  | [] => []
  | [f] => f
  | f :: g :: fs => f ++ ',' :: joinComma (g :: fs)

/-- clustering.cpp:186-187 -/
def header : List Str := ["eventId1".toList, "eventId2".toList, "networkCode".toList, "stationCode".toList,
  "locationCode".toList, "phaseType".toList]

variable {D : Type}

/-- clustering.cpp:204-208: one row; `at` throws if the station is missing -/
def pairRow (stations : AMap String (Station D)) (refId : Nat) (x : StaPhase × Nat) : Outcome (List Str) :=
  match stations.find? x.1.1 with
  | none => .throws
  | some sta => .ok [decimal refId, decimal x.2, sta.networkCode.toList, sta.stationCode.toList, sta.locationCode.toList,
      x.1.2.toList]

/-- all the rows in order, or the first exception -/
def mapRows {A B : Type} (f : A → Outcome B) : List A → Outcome (List B)
  | [] => .ok []
  | a :: as =>
    match f a with
    | .ok b => (mapRows f as).map (b :: ·)
    | .throws => .throws
    | .ub => .ub

/-- clustering.cpp:192-212 -/
def pairRows (stations : AMap String (Station D)) (n : Neighbours) : Outcome (List (List Str)) :=
  mapRows (pairRow stations n.refId) n.phases

/-- lines of text -/
def fileText (table : List (List Str)) : Str := table.flatMap (fun row => joinComma row ++ ['\n'])

/-- clustering.cpp:214-235.  `order` is the content of the map in the order in which it is visited.  Without
entries no file is written (`none`). -/
def writePairs (stations : AMap String (Station D)) (order : List (Nat × Neighbours)) : Outcome (Option Str) :=
  match order with
  | [] => .ok none
  | _ => (mapRows (fun kv => pairRows stations kv.2) order).map (fun rows => some (fileText (header :: rows.flatten)))

/-- `row.at(name)` -/
def column (row : AMap Str Str) (name : String) : Outcome Str := Outcome.ofOption (row.find? name.toList)

/-- `emplace` of an empty entry if missing, clustering.cpp:260-268 -/
def ensure (m : AMap Nat Neighbours) (id : Nat) : AMap Nat Neighbours :=
  match m.find? id with
  | none => m.set id (Neighbours.empty id)
  | some _ => m

/-- clustering.cpp:249-272; dereferencing the result of a failed `searchStation` is undefined -/
def readPair (stations : AMap String (Station D)) (m : AMap Nat Neighbours) (row : AMap Str Str) :
    Outcome (AMap Nat Neighbours) := do
  let ev1 ← (column row "eventId1").bind stoul
  let ev2 ← (column row "eventId2").bind stoul
  let net ← column row "networkCode"
  let sta ← column row "stationCode"
  let loc ← column row "locationCode"
  let phase ← column row "phaseType"
  match stations.find? (Catalog.stationIdOf (String.ofList net) (String.ofList sta) (String.ofList loc)) with
  | none => .ub
  | some station =>
    let m := ensure (ensure m ev1) ev2
    match m.find? ev1 with
    | none => .ub
    | some n => .ok (m.set ev1 (n.add ev2 (station.id, String.ofList phase)))

/-- clustering.cpp:247-273 -/
def readRows (stations : AMap String (Station D)) : List (AMap Str Str) → AMap Nat Neighbours → Outcome (AMap Nat Neighbours)
  | [], m => .ok m
  | row :: rows, m =>
    match readPair stations m row with
    | .ok m => readRows stations rows m
    | .throws => .throws
    | .ub => .ub

/-- clustering.cpp:237-281 -/
def readPairs (stations : AMap String (Station D)) (text : Str) : Outcome (AMap Nat Neighbours) :=
  match readWithHeader text with
  | .ok rows => readRows stations rows []
  | .throws => .throws
  | .ub => .ub

end Verif.PairFile
