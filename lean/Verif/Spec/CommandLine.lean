import Verif.Model.CommandLine
import Verif.Spec.DaemonRun
import Verif.Spec.Catalog
import Verif.Spec.SeisComP

/-! # What the command line modes of the application do (C90 to C93) -/

namespace Verif.CommandLine.Spec
open Verif.Catalog Verif.Daemon Verif.Daemon.Spec
open Verif.Csv (Str)

/-- the texts with commas between them -/
def commaSeparated : List Str → Str
  | [] => []
  | [x] => x
  | x :: xs => x ++ ',' :: commaSeparated xs

/-- a text that can be one of several: it is not empty and has no comma -/
def Item (x : Str) : Prop := x ≠ [] ∧ ',' ∉ x

/-- What is known of a profile when the last of the origins is relocated: what the first successful attempt to load it gave.
There is an attempt for every origin. -/
def loadedBy (xs : List Given) (p : Profile) : Option DD := xs.findSome? (fun x => x.w.load p)

/-- What the relocation of the origin `x` gives, after and including all of `xs`: nothing if no profile is responsible or if
this one was never loaded; otherwise the result of the relocation. The filters for origins do not matter. -/
def Result (cfg : Config) (profiles : List Profile) (xs : List Given) (x : Given) (new : Option Published) : Prop :=
  ((∀ i p, ¬ FirstFit cfg x.o profiles i p) ∧ new = none) ∨
  ∃ i p, FirstFit cfg x.o profiles i p ∧
    ((loadedBy xs p = none ∧ new = none) ∨ ∃ dd, loadedBy xs p = some dd ∧ Relocated cfg x.w p dd x.o new)

/-- the clock does not go backwards while an origin is relocated, and a public id means one origin -/
def Sane (xs : List Given) : Prop :=
  (∀ x ∈ xs, x.t ≤ x.now) ∧ ∀ x ∈ xs, ∀ y ∈ xs, x.o.org.publicID = y.o.org.publicID → x.o = y.o

/-- the origins that are found, in the order of the ids, with the moments at which they are looked for -/
def found (moments : Nat → Int × Int × World) (ids : List Str) : List Given :=
  (ids.zipIdx).filterMap (fun a => ((moments a.2).2.2.origins (String.ofList a.1)).map
    (fun o => ⟨o, (moments a.2).1, (moments a.2).2.1, (moments a.2).2.2⟩))

/-- the surroundings of a command line -/
def surroundings (o : Options) (moments : Nat → Int × Int × World) (i : Nat) : Int × Int × World :=
  ((moments i).1, (moments i).2.1, sees o (moments i).2.2)

/-- an origin that can be relocated: there is a database, and what the profile in charge has loaded gives a result -/
structure Can (cfg : Config) (profiles : List Profile) (xs : List Given) (x : Given) : Prop where
  database : x.w.query.isSome = true
  move : ∀ c, isEmpty (x.w.afterMove c) = true
  relocate : ∀ i p dd, FirstFit cfg x.o profiles i p → (∃ y ∈ xs, y.w.load p = some dd) →
    ∃ isManual cat r1 r2, Prepared x.w p dd x.o isManual cat ∧ cat.events ≠ [] ∧ TwoSteps p dd isManual cat r1 r2 ∧
      (isEmpty r1 = false → r1.events ≠ []) ∧ (isEmpty r2 = false → r2.events ≠ []) ∧ (isEmpty r2 = false → ∃ new, MadeFrom cfg x.w p x.o r2 new)

/-! ## commands -/

/-- the commands in the order in which they are looked at, and whether they are asked for; real time is what is done otherwise -/
def commands (o : Options) : List (Mode × Bool) :=
  [(.sendReload, o.reloadProfileMsg ≠ []), (.dumpClusters, o.dumpClusters ≠ []), (.preloadWaveforms, o.preloadWaveforms),
   (.dumpWaveforms, o.dumpWaveforms ≠ []), (.dumpCatalog, o.dumpCatalog ≠ []), (.mergeCatalogs, o.mergeCatalogs ≠ []),
   (.relocateCatalog, o.relocateCatalog ≠ []), (.origins, o.originIDs ≠ []), (.xml, o.eventXML ≠ []), (.realTime, true)]

/-- the commands that may send messages: reload requests, and the relocation of origins when the results go nowhere else -/
def MaySend (o : Options) : Prop :=
  mode o = .sendReload ∨ (mode o = .realTime ∧ o.test = false) ∨
    (mode o = .origins ∧ o.test = false ∧ o.xmlout = false ∧ o.eventXML = [])

/-! ## merging catalogs -/

/-- the names of the files are those of the catalogs: station file, event file and phase file of each -/
inductive CatalogsOf (rnd : ℚ → ℚ) (u : Event Num) (v : Phase Num) (files : Str → Option Str) : List Str → List (Catalog Num) → Prop
  | nil : CatalogsOf rnd u v files [] []
  | cons {a b c : Str} {names : List Str} {cat : Catalog Num} {cats : List (Catalog Num)}
      {station event phase : Str} (ha : files a = some station) (hb : files b = some event) (hc : files c = some phase)
      (h : CatalogFile.read rnd true u v { station, event, phase } = .ok cat)
      (t : CatalogsOf rnd u v files names cats) : CatalogsOf rnd u v files (a :: b :: c :: names) (cat :: cats)

/-- every station is one that an event of one of the catalogs uses -/
def StationsOf (cats : List (Catalog Num)) (r : Catalog Num) : Prop :=
  ∀ s st, r.stations.find? s = some st → ∃ c ∈ cats, c.stations.find? s = some st ∧
    ∃ kp ∈ c.phases, (c.events.find? kp.1).isSome ∧ kp.2.stationId = s

/-- All events with the ids they have; where several catalogs have one with the same id it is that of the first, with its phases. Phases without an
event are left out. -/
structure MergedKeepingIds (cats : List (Catalog Num)) (r : Catalog Num) : Prop where
  sound : Catalog.Sound r
  events : ∀ k, r.events.find? k = cats.findSome? (fun c => c.events.find? k)
  phases : ∀ k, r.phasesOf k = ((cats.find? (fun c => (c.events.find? k).isSome)).map (fun c => c.phasesOf k)).getD []
  stations : StationsOf cats r

/-- All events of all catalogs with their phases, each with an id of its own; `ren i k` is the new id of event `k` of the `i`-th
catalog. There are no other events. -/
structure MergedWithNewIds (cats : List (Catalog Num)) (ren : Nat → Nat → Nat) (r : Catalog Num) : Prop where
  sound : Catalog.Sound r
  all : ∀ i c k e, cats[i]? = some c → c.events.find? k = some e → r.events.find? (ren i k) = some { e with id := ren i k } ∧
    r.phasesOf (ren i k) = (c.phasesOf k).map (fun p => { p with eventId := ren i k })
  distinct : ∀ i j c d k l, cats[i]? = some c → cats[j]? = some d → (c.events.find? k).isSome → (d.events.find? l).isSome →
    ren i k = ren j l → i = j ∧ k = l
  only : ∀ n, (r.events.find? n).isSome → ∃ i c k, cats[i]? = some c ∧ (c.events.find? k).isSome ∧ n = ren i k
  stations : StationsOf cats r

/-! ## relocating a catalog -/

/-- The origin written for the event `e` of the relocated catalog `r`, and the picks written with it: as in C77, with `source` the
origin the event was made of and with all its picks. -/
structure OriginOf (cfg : Config) (w : World) (p : Profile) (source : Option SeisComP.Origin) (r : Catalog Num) (e : Event Num)
    (x : Published) : Prop where
  author : x.1.author = cfg.author ∧ x.1.agencyID = cfg.agencyID
  method : x.1.methodID = p.methodID ∧ x.1.earthModelID = p.tttType ++ ":" ++ p.tttModel
  time : x.1.time = e.time
  latitude : x.1.latitude = e.latitude
  depth : x.1.depth = e.depth
  longitude : ∀ lon, e.longitude = .num lon → ∃ y, x.1.longitude = .num y ∧ -180 ≤ y ∧ y < 180 ∧ ∃ n : ℤ, y = lon + 360 * n
  sourceOrigin : x.1.sourceOrigin = source.map (·.publicID)
  arrivals : ∃ phases l, phases.Perm (r.phasesOf e.id) ∧
    List.Forall₂ (SeisComP.Spec.Converted (some w.cache) w.eventParameters source (w.delazi e) r.stations) phases l ∧
    x.1.arrivals = l.map Prod.fst ∧ x.2 = l.map Prod.snd
  counts : x.1.quality.associatedPhaseCount = (r.phasesOf e.id).length ∧
    x.1.quality.usedPhaseCount = ((r.phasesOf e.id).filter (·.isRelocated)).length
  rms : e.isRelocated = true → x.1.quality.standardError = e.finalRms

end Verif.CommandLine.Spec
