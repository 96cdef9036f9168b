import Verif.Base.Fl
import Verif.Model.Stats
import Verif.Model.Neighbours
import Verif.Model.XCorrCache
import Verif.Model.Relocate

/-!
# Model of the summary of the cross-correlations, `DD::logXCorrSummary` (libs/hdd/dd.cpp:1727-1890)

What is printed, without the format of the numbers.  Simplification: the counters are natural numbers (`unsigned` in the code),
and the lags, which are collected but not printed, are left out.
-/

namespace Verif.XCorrReport
open Verif.Catalog Verif.Relocate Verif.Stats

/-- dd.cpp:1731-1738 -/
structure Counters where
  performed : Nat := 0
  failed : Nat := 0
  aboveThreshold : Nat := 0
  coeff : List ℚ := []
deriving DecidableEq

/-- dd.cpp:1740-1741, the counters by station of P and of S phases -/
structure Tables where
  p : AMap String Counters := []
  s : AMap String Counters := []
deriving DecidableEq

/-- dd.cpp:1791-1807: an entry of the cache is counted; `minCoef` is `xcorrOpt.phase.at(phaseType).minCoef`, `none` if `at` throws -/
def count (minCoef : Option ℚ) (c : Counters) (e : XCorr.Entry) : Outcome Counters :=
  if e.valid then
    match minCoef with
    | none => .throws
    | some m => .ok { c with
        performed := c.performed + 1
        coeff := c.coeff ++ [|e.coeff|]
        aboveThreshold := if m ≤ |e.coeff| then c.aboveThreshold + 1 else c.aboveThreshold }
  else .ok { c with failed := c.failed + 1 }

/-- dd.cpp:1746-1808: the loop over the neighbours of an event -/
def visit (validP validS : List String) (minCoef : PhaseType → Option ℚ) (xc : XCorr.Cache) (refId : Nat) (s : Tables)
    (t : StaPhase × Nat) : Outcome Tables :=
  match Catalog.Catalog.classify validP validS t.1.2 with
  | .NO => .ok s
  | .P =>
    match XCorr.get xc refId t.2 t.1.1 t.1.2 with
    | none => .ok s
    | some e => (count (minCoef .P) ((s.p.find? t.1.1).getD {}) e).map (fun c => { s with p := s.p.set t.1.1 c })
  | .S =>
    match XCorr.get xc refId t.2 t.1.1 t.1.2 with
    | none => .ok s
    | some e => (count (minCoef .S) ((s.s.find? t.1.1).getD {}) e).map (fun c => { s with s := s.s.set t.1.1 c })

/-- dd.cpp:1743-1809 -/
def tables (validP validS : List String) (minCoef : PhaseType → Option ℚ) (xc : XCorr.Cache) (cluster : Cluster) :
    Outcome Tables :=
  cluster.foldlM (fun s kv => kv.2.phases.foldlM (visit validP validS minCoef xc kv.2.refId) s) {}

/-- a number as a percentage of a total, `a * 100.0 / tot` in floating point -/
def percent (a tot : Nat) : Fl ℚ :=
  if tot = 0 then if a = 0 then .nan else .inf false
  else .num (a * 100 / tot)

/-- a line, dd.cpp:1829-1833 -/
structure Line where
  station : String
  total : Nat
  failures : Fl ℚ
  above : Fl ℚ
  coeffs : Summary ℚ
deriving DecidableEq

/-- what is printed of the P or of the S phases, dd.cpp:1840-1844 -/
structure Part where
  attempted : Nat
  failures : Fl ℚ
  failed : Nat
  threshold : ℚ
  above : Fl ℚ
  aboveThreshold : Nat
  lines : List Line
deriving DecidableEq

/-- dd.cpp:1821-1833 -/
def line (nth : NthElement (id : ℚ → ℚ)) (kv : String × Counters) : Outcome Line := do
  let r ← fiveNumberSummary nth kv.2.coeff
  let tot := kv.2.performed + kv.2.failed
  .ok ⟨kv.1, tot, percent kv.2.failed tot, percent kv.2.aboveThreshold tot, r⟩

/-- dd.cpp:1814-1844 for P phases, :1848-1878 for S phases; a `std::map` is visited in the order of its keys -/
def part (nth : NthElement (id : ℚ → ℚ)) (minCoef : Option ℚ) (m : AMap String Counters) : Outcome Part := do
  let lines ← (m.insertionSort (fun a b => a.1 ≤ b.1)).mapM (line nth)
  let performed := (m.map (·.2.performed)).sum
  let failed := (m.map (·.2.failed)).sum
  let above := (m.map (·.2.aboveThreshold)).sum
  let tot := performed + failed
  match minCoef with
  | none => .throws
  | some threshold => .ok ⟨tot, percent failed tot, failed, threshold, percent above tot, above, lines⟩

/-- dd.cpp:1727-1890 -/
def logXCorrSummary (nth : NthElement (id : ℚ → ℚ)) (validP validS : List String) (minCoef : PhaseType → Option ℚ)
    (xc : XCorr.Cache) (cluster : Cluster) : Outcome (Part × Part) := do
  let t ← tables validP validS minCoef xc cluster
  let p ← part nth (minCoef .P) t.p
  let s ← part nth (minCoef .S) t.s
  .ok (p, s)

end Verif.XCorrReport
