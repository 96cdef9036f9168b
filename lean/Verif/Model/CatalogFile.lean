import Verif.Model.Catalog
import Verif.Model.Decimal
import Verif.Model.UtcTime
import Verif.Model.XCorrFile

/-!
# Model of the catalog files (libs/hdd/catalog.cpp:70-215 reading, :403-511 writing)

A file is its text.  Doubles are `Fl ℚ`.  Members of `Event` and `Phase` that the reader does not set
(`catalog.h:78-83`, `:124-137`) have the indeterminate values given as parameters.
-/

namespace Verif.CatalogFile
open Verif.Csv Verif.Catalog Verif.PairFile Verif.Decimal Verif.XCorrFile

/-- the content of the three files -/
structure Files where
  station : Str
  event : Str
  phase : Str

/-! ## writing -/

/-- catalog.cpp:413 -/
def eventHeader : List Str := ["id".toList, "isotime".toList, "latitude".toList, "longitude".toList, "depth".toList,
  "magnitude".toList]
/-- catalog.cpp:414 -/
def eventRelocHeader : List Str := ["relocated".toList, "startRms".toList, "finalRms".toList]
/-- catalog.cpp:454-455 -/
def phaseHeader : List Str := ["eventId".toList, "isotime".toList, "lowerUncertainty".toList, "upperUncertainty".toList,
  "type".toList, "networkCode".toList, "stationCode".toList, "locationCode".toList, "channelCode".toList]
/-- catalog.cpp:456-459 -/
def phaseRelocHeader : List Str := ["usedInReloc".toList, "weight".toList, "startResidual".toList, "finalResidual".toList]
/-- catalog.cpp:496-498 -/
def stationHeader : List Str := ["latitude".toList, "longitude".toList, "elevation".toList, "networkCode".toList,
  "stationCode".toList, "locationCode".toList]

/-- catalog.cpp:424-426 -/
def eventFields (ev : Event (Fl ℚ)) : List Str :=
  [decimal ev.id, Utc.toString ev.time, flText (fixedText 8) ev.latitude, flText (fixedText 8) ev.longitude,
    flText (fixedText 6) ev.depth, flText (fixedText 3) ev.magnitude]

/-- catalog.cpp:431-440 -/
def eventRelocFields (ev : Event (Fl ℚ)) : List Str :=
  if !ev.isRelocated then ["false".toList, [], []]
  else ["true".toList, flText generalText ev.startRms, flText generalText ev.finalRms]

/-- catalog.cpp:467-471 -/
def phaseFields (ph : Phase (Fl ℚ)) : List Str :=
  [decimal ph.eventId, Utc.toString ph.time, flText generalText ph.lowerUncertainty,
    flText generalText ph.upperUncertainty, ph.type.toList, ph.networkCode.toList, ph.stationCode.toList,
    ph.locationCode.toList, ph.channelCode.toList]

/-- catalog.cpp:473-485 -/
def phaseRelocFields (ph : Phase (Fl ℚ)) : List Str :=
  if !ph.isRelocated then ["false".toList, [], [], []]
  else ["true".toList, flText generalText ph.weight, flText generalText ph.startResidual,
    flText generalText ph.finalResidual]

/-- catalog.cpp:505-508 -/
def stationFields (sta : Station (Fl ℚ)) : List Str :=
  [flText (fixedText 8) sta.latitude, flText (fixedText 8) sta.longitude, flText (fixedText 3) sta.elevation,
    sta.networkCode.toList, sta.stationCode.toList, sta.locationCode.toList]

/-- catalog.cpp:418-442: some event is marked as relocated -/
def relocInfo (cat : Catalog (Fl ℚ)) : Bool := cat.eventsSorted.any (fun kv => kv.2.isRelocated)

/-- catalog.cpp:403-511 with three file names.  `phases` and `stations` are the content of the unordered containers in
iteration order; the phases are then sorted by event id (:462-463).  The order of the stations in the file (by id,
:500-501) is that of the parameter. -/
def write (cat : Catalog (Fl ℚ)) (phases : List (Nat × Phase (Fl ℚ))) (stations : List (String × Station (Fl ℚ))) : Files :=
  let reloc := relocInfo cat
  { event := fileText ((if reloc then eventHeader ++ eventRelocHeader else eventHeader) ::
      cat.eventsSorted.map (fun kv => if reloc then eventFields kv.2 ++ eventRelocFields kv.2 else eventFields kv.2)),
    phase := fileText ((if reloc then phaseHeader ++ phaseRelocHeader else phaseHeader) ::
      (phases.insertionSort (fun a b => a.1 ≤ b.1)).map
        (fun kv => if reloc then phaseFields kv.2 ++ phaseRelocFields kv.2 else phaseFields kv.2)),
    station := fileText (stationHeader :: stations.map (fun kv => stationFields kv.2)) }

/-! ## reading -/

/-- `try { … } catch (std::exception) { … }` -/
def orElse {A : Type} (a : Outcome A) (d : A) : Outcome A :=
  match a with
  | .throws => .ok d
  | x => x

/-- `loadRelocationInfo && row.count(name) != 0 && strToBool(row.at(name))`, catalog.cpp:142-143, :187-188 -/
def marked (load : Bool) (row : AMap Str Str) (name : String) : Bool :=
  load && (match row.find? name.toList with | none => false | some s => strToBool s)

/-- a column with a number -/
def numberAt (rnd : ℚ → ℚ) (row : AMap Str Str) (name : String) : Outcome (Fl ℚ) := (column row name).bind (stod rnd)

/-- catalog.cpp:101-108 -/
def stationOf (rnd : ℚ → ℚ) (row : AMap Str Str) : Outcome (Station (Fl ℚ)) := do
  let latitude ← numberAt rnd row "latitude"
  let longitude ← numberAt rnd row "longitude"
  let elevation ← numberAt rnd row "elevation"
  let net ← column row "networkCode"
  let sta ← column row "stationCode"
  let loc ← column row "locationCode"
  .ok ⟨Catalog.stationIdOf (String.ofList net) (String.ofList sta) (String.ofList loc), latitude, longitude, elevation,
    String.ofList net, String.ofList sta, String.ofList loc⟩

/-- catalog.cpp:127-148 -/
def eventOf (rnd : ℚ → ℚ) (load : Bool) (u : Event (Fl ℚ)) (row : AMap Str Str) : Outcome (Event (Fl ℚ)) := do
  let id ← (column row "id").bind stoul
  let time ← (column row "isotime").bind Utc.fromString
  let latitude ← numberAt rnd row "latitude"
  let longitude ← numberAt rnd row "longitude"
  let depth ← numberAt rnd row "depth"
  let magnitude ← orElse (numberAt rnd row "magnitude") .nan
  let ev : Event (Fl ℚ) :=
    { u with
      id := id, time := time, latitude := latitude, longitude := longitude, depth := depth,
      magnitude := magnitude, isRelocated := false }
  if marked load row "relocated" then
    let startRms ← numberAt rnd row "startRms"
    let finalRms ← numberAt rnd row "finalRms"
    .ok { ev with isRelocated := true, startRms := startRms, finalRms := finalRms }
  else .ok ev

/-- catalog.cpp:169-178 -/
def uncertainties (rnd : ℚ → ℚ) (row : AMap Str Str) : Outcome (Fl ℚ × Fl ℚ) := do
  let lower ← numberAt rnd row "lowerUncertainty"
  let upper ← numberAt rnd row "upperUncertainty"
  .ok (lower, upper)

/-- catalog.cpp:166-206; `known` tells the stations read before -/
def phaseOf (rnd : ℚ → ℚ) (load : Bool) (u : Phase (Fl ℚ)) (known : String → Bool) (row : AMap Str Str) :
    Outcome (Phase (Fl ℚ)) := do
  let eventId ← (column row "eventId").bind stoul
  let time ← (column row "isotime").bind Utc.fromString
  let unc ← orElse (uncertainties rnd row) (.nan, .nan)
  let type ← column row "type"
  let net ← column row "networkCode"
  let sta ← column row "stationCode"
  let loc ← column row "locationCode"
  let cha ← column row "channelCode"
  let ph : Phase (Fl ℚ) :=
    { u with
      eventId := eventId, time := time, lowerUncertainty := unc.1, upperUncertainty := unc.2,
      type := String.ofList type, networkCode := String.ofList net, stationCode := String.ofList sta,
      locationCode := String.ofList loc, channelCode := String.ofList cha,
      stationId := Catalog.stationIdOf (String.ofList net) (String.ofList sta) (String.ofList loc), isRelocated := false }
  let ph ← (if marked load row "usedInReloc" then do
      let startResidual ← numberAt rnd row "startResidual"
      let finalResidual ← numberAt rnd row "finalResidual"
      let weight ← numberAt rnd row "weight"
      .ok { ph with isRelocated := true, startResidual := startResidual, finalResidual := finalResidual, weight := weight }
    else .ok ph)
  if known ph.stationId then .ok ph else .throws

/-- catalog.cpp:70-215; the assignments to the containers are `Catalog.ofRows` -/
def read (rnd : ℚ → ℚ) (load : Bool) (u : Event (Fl ℚ)) (v : Phase (Fl ℚ)) (files : Files) : Outcome (Catalog (Fl ℚ)) := do
  let rows ← readWithHeader files.station
  let stations ← mapRows (stationOf rnd) rows
  let rows ← readWithHeader files.event
  let events ← mapRows (eventOf rnd load u) rows
  let rows ← readWithHeader files.phase
  let phases ← mapRows (phaseOf rnd load v (fun id => stations.any (fun s => s.id = id))) rows
  Catalog.ofRows stations events phases

/-- catalog.cpp:70-91: the three files must exist; `files` gives the content of a file that exists -/
def readNamed (rnd : ℚ → ℚ) (load : Bool) (u : Event (Fl ℚ)) (v : Phase (Fl ℚ)) (files : Str → Option Str) (s e p : Str) :
    Outcome (Catalog (Fl ℚ)) :=
  match files s, files e, files p with
  | some station, some event, some phase => read rnd load u v { station, event, phase }
  | _, _, _ => .throws

end Verif.CatalogFile
