import Verif.Model.Messages
import Verif.Model.CatalogFile

/-!
# Model of the command line modes of the application

apps/scrtdd/rtddtool.cpp:203-209, :367-399, :1089-1331 and :1782-1819: which mode is chosen, whether messages may be sent, and
what the modes do that relocate given origins, merge catalogs, write a catalog and relocate a catalog.

Simplifications: the modes that dump clusters and waveforms or fill the waveform cache are only told apart.  A file is its
content; the relocation of a catalog is a parameter (`Model/RelocateTop.lean`).  Log messages are left out.
-/

namespace Verif.CommandLine
open Verif.Catalog Verif.Daemon
open Verif.Csv (Str)

/-- rtddtool.cpp:203-209: `boost::split` at commas with `token_compress_on`; `cur` is the text since the last comma and `gap`
says that the last character was a comma -/
def splitComma (cur : Str) (gap : Bool) : Str → List Str
  | [] => [cur]
  | c :: s =>
    if c = ',' then (if gap then splitComma [] true s else cur :: splitComma [] true s)
    else splitComma (cur ++ [c]) false s

def tokens (s : Str) : List Str := splitComma [] false s

/-! ## modes -/

/-- the options given, rtddtool.h:115-129 and rtddtool.cpp:239-338; an option that is not given is the empty text -/
structure Options where
  reloadProfileMsg : Str := []
  eventXML : Str := []
  dumpClusters : Str := []
  preloadWaveforms : Bool := false
  dumpWaveforms : Str := []
  dumpCatalog : Str := []
  mergeCatalogs : Str := []
  relocateCatalog : Str := []
  originIDs : Str := []
  test : Bool := false
  xmlout : Bool := false
  keepid : Bool := false

inductive Mode where
  | sendReload | dumpClusters | preloadWaveforms | dumpWaveforms | dumpCatalog | mergeCatalogs | relocateCatalog | origins | xml | realTime
deriving DecidableEq

/-- rtddtool.cpp:1089-1331: the order in which `run` looks at the options -/
def mode (o : Options) : Mode :=
  if o.reloadProfileMsg ≠ [] then .sendReload
  else if o.dumpClusters ≠ [] then .dumpClusters
  else if o.preloadWaveforms then .preloadWaveforms
  else if o.dumpWaveforms ≠ [] then .dumpWaveforms
  else if o.dumpCatalog ≠ [] then .dumpCatalog
  else if o.mergeCatalogs ≠ [] then .mergeCatalogs
  else if o.relocateCatalog ≠ [] then .relocateCatalog
  else if o.originIDs ≠ [] then .origins
  else if o.eventXML ≠ [] then .xml
  else .realTime

/-- rtddtool.cpp:367-377: messaging is switched off -/
def offline (o : Options) : Bool :=
  o.eventXML ≠ [] || o.dumpCatalog ≠ [] || o.mergeCatalogs ≠ [] || o.relocateCatalog ≠ [] || o.preloadWaveforms ||
    o.dumpWaveforms ≠ [] || o.dumpClusters ≠ [] || (o.originIDs ≠ [] && o.test)

/-- `_config.testMode` when origins are relocated, rtddtool.cpp:357, :376 and :1260-1265 -/
def testMode (o : Options) : Bool := o.test || offline o || (o.originIDs ≠ [] && o.xmlout && o.eventXML = [])

/-- the catalog option names a single file, which is a file of origin ids, rtddtool.cpp:381-399 -/
def single (s : Str) : Bool := s ≠ [] && (tokens s).length = 1

/-! ## relocation of given origins -/

/-- an origin given on the command line, the clock when it is added and when jobs are started, and the surroundings -/
structure Given where
  o : Origin
  t : Int
  now : Int
  w : World

/-- rtddtool.cpp:1267-1268, :1282, :1303-1304 and :1313 -/
def forced (cfg : Config) : Config :=
  { cfg with forceProcessing := true, profileTimeAlive := 3600, sched := { cfg.sched with delayTimes := [0] } }

/-- rtddtool.cpp:1281-1284 and :1312-1316 -/
def relocateNow (cfg : Config) (s : State) (x : Given) : Outcome State :=
  addProcess (forced cfg) x.w x.t x.now (.origin x.o) { s with sched := { s.sched with cron := 0 } }

/-- rtddtool.cpp:1306-1317, the origins of an XML file; `addProcess` never returns false for an origin -/
def relocateAll (cfg : Config) (xs : List Given) (s : State) : Outcome State := xs.foldlM (relocateNow cfg) s

/-- rtddtool.cpp:1270-1285, from the `i`-th id on: ids that are not found are skipped -/
def relocateIds (cfg : Config) (moments : Nat → Int × Int × World) : Nat → List Str → State → Outcome State
  | _, [], s => .ok s
  | i, id :: ids, s =>
    match (moments i).2.2.origins (String.ofList id) with
    | none => relocateIds cfg moments (i + 1) ids s
    | some o => do
      let s ← relocateNow cfg s ⟨o, (moments i).1, (moments i).2.1, (moments i).2.2⟩
      relocateIds cfg moments (i + 1) ids s

/-- What these modes see of the surroundings: event parameters if they were read from a file (rtddtool.cpp:1106-1125) or are
only for the output (:1260-1265), and a connection only if messaging is not switched off (:375) -/
def sees (o : Options) (w : World) : World :=
  { w with
    eventParameters := if o.eventXML ≠ [] || o.xmlout then some (w.eventParameters.getD ⟨fun _ => none, fun _ => none, []⟩) else none,
    connected := w.connected && !offline o }

/-- rtddtool.cpp:1257-1298, the option with origin ids -/
def relocateOrigins (cfg : Config) (profiles : List Profile) (start : Int) (o : Options) (moments : Nat → Int × Int × World) :
    Outcome State :=
  let cfg := { cfg with testMode := testMode o }
  relocateIds cfg (fun i => ((moments i).1, (moments i).2.1, sees o (moments i).2.2)) 0 (tokens o.originIDs) (init cfg profiles start)

/-- rtddtool.cpp:1300-1325, all origins of the XML file -/
def relocateXml (cfg : Config) (profiles : List Profile) (start : Int) (o : Options) (xs : List Given) : Outcome State :=
  let cfg := { cfg with testMode := testMode o }
  relocateAll cfg (xs.map (fun x => { x with w := sees o x.w })) (init cfg profiles start)

/-- rtddtool.cpp:1091-1104: the request to reload a profile; the connection is used without a check. `ok` tells if the message
could be sent. -/
def sendReload (o : Options) (connected ok : Bool) : Outcome (Bool × List Str) :=
  if connected && !offline o then .ok (ok, if ok then [o.reloadProfileMsg] else []) else .ub

/-! ## merging catalogs -/

/-- rtddtool.cpp:1182-1189: the catalogs are read with their relocation information and added one after the other. `rnd`, `u`
and `v` are those of `CatalogFile.read`; `files` gives the content of a file that exists. -/
def mergeLoop (rnd : ℚ → ℚ) (u : Event Num) (v : Phase Num) (files : Str → Option Str) (keepid : Bool) :
    List Str → Catalog Num → Outcome (Catalog Num)
  | a :: b :: c :: rest, out => do
    let cat ← CatalogFile.readNamed rnd true u v files a b c
    match out.addAll cat keepid with
    | (out, .ok ()) => mergeLoop rnd u v files keepid rest out
    | (_, .throws) => .throws
    | (_, .ub) => .ub
  | _, out => .ok out

/-- rtddtool.cpp:1170-1195: the merged catalog that is written, `none` when the number of files is wrong -/
def mergeCatalogs (rnd : ℚ → ℚ) (u : Event Num) (v : Phase Num) (files : Str → Option Str) (o : Options) : Outcome (Option (Catalog Num)) :=
  let names := tokens o.mergeCatalogs
  if names.length % 3 ≠ 0 then .ok none
  else do
    let cat ← mergeLoop rnd u v files o.keepid names Catalog.init
    .ok (some cat)

/-! ## a catalog of origin ids, and its relocation -/

/-- rtddtool.cpp:1782-1819 `getCatalog`: the catalog and the origin of every event; the catalog is empty when it cannot be read -/
def getCatalog (w : World) (rnd : ℚ → ℚ) (files : Str → Option Str) (path : Str) : Outcome (Catalog Num × AMap Nat SeisComP.Origin) :=
  let r : Outcome (Catalog Num × AMap Nat SeisComP.Origin) :=
    match tokens path with
    | [a] => SeisComP.addIdFile w.source w.inventory w.rawEvent w.rawPhase (files a) (Catalog.init, [])
    | [a, b, c] => do
      let cat ← CatalogFile.readNamed rnd false w.rawEvent w.rawPhase files a b c
      .ok (cat, [])
    | _ => .throws
  match r with
  | .throws => .ok (Catalog.init, [])
  | r => r

/-- rtddtool.cpp:1228-1242: the origin of one event of the relocated catalog; `fresh` gives the ids of new picks -/
def eventToOrigin (cfg : Config) (w : World) (p : Profile) (idmap : AMap Nat SeisComP.Origin) (cat : Catalog Num)
    (fresh : Nat → String) (e : Event Num) : Outcome Published := do
  let ev ← cat.extractEvent e.id true
  SeisComP.convertOrigin w.source ev (w.order (ev.phasesOf e.id)) (idmap.find? e.id) cfg.author cfg.agencyID p.methodID
    (p.tttType ++ ":" ++ p.tttModel) true fresh w.delazi w.nth

/-- rtddtool.cpp:1226-1246: the origins of the XML output, from the `i`-th event on -/
def eventsToOrigins (cfg : Config) (w : World) (p : Profile) (idmap : AMap Nat SeisComP.Origin) (cat : Catalog Num)
    (fresh : Nat → Nat → String) : Nat → List (Nat × Event Num) → Outcome (List Published)
  | _, [] => .ok []
  | i, kv :: kvs => do
    let x ← eventToOrigin cfg w p idmap cat (fresh i) kv.2
    let xs ← eventsToOrigins cfg w p idmap cat fresh (i + 1) kvs
    .ok (x :: xs)

/-- rtddtool.cpp:1197-1255: `relocate` is what the profile does with the catalog, `none` when it throws. The result is what is
written as XML; `none` when the command fails (returns false). -/
def relocateCatalog (cfg : Config) (w : World) (rnd : ℚ → ℚ) (files : Str → Option Str) (profiles : List Profile)
    (relocate : Profile → Catalog Num → Option (Catalog Num)) (fresh : Nat → Nat → String) (o : Options) :
    Outcome (Option (List Published)) := do
  let (cat, idmap) ← getCatalog w rnd files o.relocateCatalog
  match (if cfg.forceProfile = "" then none else profiles.find? (fun p => p.name = cfg.forceProfile)) with
  | none => .ok none
  | some p =>
    if isEmpty cat then .ok none
    else
      match relocate p cat with
      | none => .ok none
      | some r =>
        if o.xmlout then do
          let xs ← eventsToOrigins cfg w p idmap r fresh 0 r.eventsSorted
          .ok (some xs)
        else .ok (some [])

end Verif.CommandLine
