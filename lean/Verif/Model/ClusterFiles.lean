import Verif.Model.XCorrBuild
import Verif.Model.Selection
import Verif.Model.Clusters
import Verif.Model.PairFile
import Verif.Model.XCorrFile
import Verif.Model.CommandLine

/-!
# Model of finding, dumping and reading clusters, and of the relocation of a catalog

libs/hdd/dd.cpp:378-405 and apps/scrtdd/rtddtool.cpp:2153-2198 and :2213-2244.  The files of a directory are
a map from names to texts.  The iteration order of a `std::unordered_map` is a parameter (`order`).

Simplifications: profiles are loaded; logging and the processing data are left out; the texts of the catalog
files are a parameter (`text`, modelled in `Verif.CatalogFile`), and so is what becomes of the files
`reloc-*.csv`.
-/

namespace Verif.ClusterFiles
open Verif.Catalog Verif.Relocate Verif.PairFile
open Verif.Csv (Str)

variable {K : Type} [Field K] [LinearOrder K]

/-- neighbours of the events of a cluster; the container is a `std::unordered_map` -/
abbrev Order := AMap Nat Neighbours → List (Nat × Neighbours)

/-- dd.cpp:378-391 -/
def findClusters (g : Selection.Geometry K) (cfg : Selection.Config K) (minNumNeigh : Nat) (pop : KdTree.Pop K)
    (t : Selection.EventTree K) (order : Order) (pick : Clusters.Pick) (bg : Catalog K) : Outcome (List (AMap Nat Neighbours)) :=
  (Selection.selectCatalog g cfg minNumNeigh pop t order bg).bind (Clusters.clusterize pick)

/-- the files of a directory -/
abbrev Files := AMap Str Str

/-- rtddtool.cpp:2229-2232 and :2241-2242 -/
def fileName (i : Nat) (kind : String) : Str := "cluster-".toList ++ decimal i ++ '-' :: kind.toList ++ ".csv".toList

/-- rtddtool.cpp:2234-2238 -/
def clusterCatalog (bg : Catalog K) (l : List (Nat × Neighbours)) : Outcome (Catalog K) :=
  (l.map (·.1)).foldlM (copyStep bg) Catalog.init

/-- rtddtool.cpp:2227-2243, cluster number `i`; `text` gives the station, event and phase file of a catalog -/
def dumpOne (text : Catalog K → Str × Str × Str) (order : Order) (bg : Catalog K) (i : Nat) (c : AMap Nat Neighbours)
    (fs : Files) : Outcome Files := do
  let pairs ← writePairs bg.stations (order c)
  let fs := match pairs with
    | some s => fs.set (fileName i "pair") s
    | none => fs
  let cat ← clusterCatalog bg (order c)
  .ok (((fs.set (fileName i "station") (text cat).1).set (fileName i "event") (text cat).2.1).set (fileName i "phase") (text cat).2.2)

/-- rtddtool.cpp:2225-2243, from cluster number `i` on -/
def dumpLoop (text : Catalog K → Str × Str × Str) (order : Order) (bg : Catalog K) :
    Nat → List (AMap Nat Neighbours) → Files → Outcome Files
  | _, [], fs => .ok fs
  | i, c :: cs, fs => do
    let fs ← dumpOne text order bg i c fs
    dumpLoop text order bg (i + 1) cs fs

/-- rtddtool.cpp:2213-2244 `dumpClusters`; `found` is the result of `findClusters` -/
def dumpClusters (text : Catalog K → Str × Str × Str) (order : Order) (bg : Catalog K)
    (found : Outcome (List (AMap Nat Neighbours))) (fs : Files) : Outcome Files := do
  let clusters ← found
  dumpLoop text order bg 1 clusters fs

/-- the text read from a file, csvreader.cpp:116-120: nothing if the file cannot be opened -/
def content (fs : Files) (name : Str) : Str := (fs.find? name).getD []

/-- rtddtool.cpp:2167-2176, the files one after the other -/
def readFiles (bg : Catalog K) (fs : Files) : List Str → Outcome (List (AMap Nat Neighbours))
  | [] => .ok []
  | name :: names => do
    let c ← readPairs bg.stations (content fs name)
    let cs ← readFiles bg fs names
    .ok (c :: cs)

/-- rtddtool.cpp:2164-2177 -/
def readClusters (bg : Catalog K) (fs : Files) (clusterFiles : Str) : Outcome (List (AMap Nat Neighbours)) :=
  if clusterFiles ≠ [] then readFiles bg fs (CommandLine.tokens clusterFiles) else .ok []

/-- rtddtool.cpp:2153-2192 `relocateCatalog`, with dd.cpp:393-405; `found` is the result of `findClusters` -/
def relocateCatalog (m : MultiArgs K) (order : Order) (rnd : ℚ → ℚ) (bg : Catalog K)
    (found : Outcome (List (AMap Nat Neighbours))) (fs : Files) (clusterFiles xcorrFile : Str) : Outcome (MultiState K) := do
  let read ← readClusters bg fs clusterFiles
  let xcorr ← (if xcorrFile ≠ [] then XCorrFile.readEntries rnd bg.stations (content fs xcorrFile) else .ok [])
  let clusters ← (if read = [] then found else .ok read)
  relocateMultiEvents m bg (clusters.map order) xcorr

end Verif.ClusterFiles
