import Verif.Model.Catalog
import Verif.Model.UtcTime
import Verif.Spec.Number

/-!
# What the rows of the catalog files mean

A row maps the names of the header to the cells.  A time is what `UTCClock::fromString` reads, see `utc_text_meaning`.
-/

namespace Verif.CatalogFile.Spec
open Verif.Catalog Verif.NumberSpec

abbrev TableRow := AMap (List Char) (List Char)

def Cell (row : TableRow) (name : String) (s : List Char) : Prop := row.find? name.toList = some s

/-- a cell with a text -/
def TextCell (row : TableRow) (name : String) (s : String) : Prop := Cell row name s.toList

def NumberCell (rnd : ℚ → ℚ) (row : TableRow) (name : String) (v : Fl ℚ) : Prop := ∃ s, Cell row name s ∧ Number rnd s v

def IdCell (row : TableRow) (name : String) (id : Nat) : Prop := ∃ s, Cell row name s ∧ Id s id

def TimeCell (row : TableRow) (name : String) (t : Int) : Prop := ∃ s, Cell row name s ∧ Utc.fromString s = .ok t

/-- the column exists and says yes -/
def YesCell (row : TableRow) (name : String) : Prop := ∃ s, Cell row name s ∧ Yes s

structure StationRow (rnd : ℚ → ℚ) (row : TableRow) (s : Station (Fl ℚ)) : Prop where
  latitude : NumberCell rnd row "latitude" s.latitude
  longitude : NumberCell rnd row "longitude" s.longitude
  elevation : NumberCell rnd row "elevation" s.elevation
  networkCode : TextCell row "networkCode" s.networkCode
  stationCode : TextCell row "stationCode" s.stationCode
  locationCode : TextCell row "locationCode" s.locationCode
  id : s.id = s.networkCode ++ "." ++ s.stationCode ++ "." ++ s.locationCode

/-- `load`: the relocation information is asked for.  `u` has the values of what is not in the file. -/
structure EventRow (rnd : ℚ → ℚ) (load : Bool) (u : Event (Fl ℚ)) (row : TableRow) (e : Event (Fl ℚ)) : Prop where
  id : IdCell row "id" e.id
  time : TimeCell row "isotime" e.time
  latitude : NumberCell rnd row "latitude" e.latitude
  longitude : NumberCell rnd row "longitude" e.longitude
  depth : NumberCell rnd row "depth" e.depth
  /-- a magnitude that is missing or cannot be read is NaN -/
  magnitude : NumberCell rnd row "magnitude" e.magnitude ∨ ((¬ ∃ v, NumberCell rnd row "magnitude" v) ∧ e.magnitude = .nan)
  isRelocated : e.isRelocated = true ↔ load = true ∧ YesCell row "relocated"
  rms : e.isRelocated = true → NumberCell rnd row "startRms" e.startRms ∧ NumberCell rnd row "finalRms" e.finalRms
  noRms : e.isRelocated = false → e.startRms = u.startRms ∧ e.finalRms = u.finalRms

/-- `known`: the stations of the station file -/
structure PhaseRow (rnd : ℚ → ℚ) (load : Bool) (u : Phase (Fl ℚ)) (known : String → Prop) (row : TableRow) (p : Phase (Fl ℚ)) :
    Prop where
  eventId : IdCell row "eventId" p.eventId
  time : TimeCell row "isotime" p.time
  /-- both uncertainties, or neither -/
  uncertainties :
    (NumberCell rnd row "lowerUncertainty" p.lowerUncertainty ∧ NumberCell rnd row "upperUncertainty" p.upperUncertainty) ∨
    ((¬ ∃ v w, NumberCell rnd row "lowerUncertainty" v ∧ NumberCell rnd row "upperUncertainty" w) ∧
      p.lowerUncertainty = .nan ∧ p.upperUncertainty = .nan)
  type : TextCell row "type" p.type
  networkCode : TextCell row "networkCode" p.networkCode
  stationCode : TextCell row "stationCode" p.stationCode
  locationCode : TextCell row "locationCode" p.locationCode
  channelCode : TextCell row "channelCode" p.channelCode
  stationId : p.stationId = p.networkCode ++ "." ++ p.stationCode ++ "." ++ p.locationCode
  isKnown : known p.stationId
  isRelocated : p.isRelocated = true ↔ load = true ∧ YesCell row "usedInReloc"
  residuals : p.isRelocated = true → NumberCell rnd row "weight" p.weight ∧
    NumberCell rnd row "startResidual" p.startResidual ∧ NumberCell rnd row "finalResidual" p.finalResidual
  noResiduals : p.isRelocated = false → p.weight = u.weight ∧ p.startResidual = u.startResidual ∧
    p.finalResidual = u.finalResidual
  unset : p.procType = u.procType ∧ p.classWeight = u.classWeight ∧ p.source = u.source

/-- the last of the values with a key -/
def lastWith {K A : Type} [DecidableEq K] (key : A → K) (l : List A) (k : K) : Option A :=
  (l.filter (fun a => key a = k)).getLast?

/-- the three tables describe these stations, events and phases -/
structure Describe (rnd : ℚ → ℚ) (load : Bool) (u : Event (Fl ℚ)) (v : Phase (Fl ℚ)) (stationRows eventRows phaseRows : List TableRow)
    (ss : List (Station (Fl ℚ))) (es : List (Event (Fl ℚ))) (ps : List (Phase (Fl ℚ))) : Prop where
  stations : List.Forall₂ (StationRow rnd) stationRows ss
  events : List.Forall₂ (EventRow rnd load u) eventRows es
  phases : List.Forall₂ (PhaseRow rnd load v (fun id => ∃ s ∈ ss, s.id = id)) phaseRows ps

end Verif.CatalogFile.Spec
