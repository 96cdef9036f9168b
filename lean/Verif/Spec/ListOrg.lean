import Verif.Model.ListOrg
import Verif.Props.Region

/-!
# What `sclistorg` is asked for (specification of C128)

Only the types of the model are used here, and the eastward arcs of C53.
-/

namespace Verif.ListOrgSpec
open Verif.ListOrg Verif.Region

/-- the text, if there is one, is among those to include and not among those to exclude; a missing text is not included but not excluded -/
def Among (inc excl : Option (List String)) (x : Option String) : Prop :=
  (∀ l, inc = some l → ∃ s ∈ l, x = some s) ∧ (∀ l, excl = some l → ∀ s ∈ l, x ≠ some s)

/-- the origin meets the conditions on its mode, status, author, agency, method and place -/
def Wanted (lower : String → String) (o : Options) (org : Origin) : Prop :=
  (o.automaticOnly = true → org.evalMode = some .automatic) ∧
  (o.manualOnly = true → org.evalMode = some .manual) ∧
  Among o.incEvalStat o.exclEvalStat (org.evalStat.map lower) ∧
  Among o.incAuthor o.exclAuthor org.author ∧
  Among o.incAgencyID o.exclAgencyID org.agencyID ∧
  Among o.incMethodID o.exclMethodID org.methodID ∧
  ∀ a, o.area = some a → a.minLat ≤ org.latitude ∧ org.latitude ≤ a.maxLat ∧ OnEastwardArc a.minLon a.maxLon org.longitude

/-- what is to be as large as possible, for the value of `--org-type`; all origins are the same otherwise -/
def rank (orgType : String) (org : Origin) : Option ℚ :=
  match orgType with
  | "last" => org.creationTime.map (fun t : Int => (t : ℚ))
  | "first" => org.creationTime.map (fun t : Int => -(t : ℚ))
  | "maxPhases" => org.phases.map (fun n : Nat => (n : ℚ))
  | "minPhases" => org.phases.map (fun n : Nat => -(n : ℚ))
  | "maxRMS" => org.rms
  | "minRMS" => org.rms.map (fun x => -x)
  | _ => some 0

/-- the origin is wanted, and its number of phases or its RMS is known if it is needed -/
def Candidate (lower : String → String) (o : Options) (org : Origin) : Prop :=
  Wanted lower o org ∧ (o.orgType ∈ ["maxPhases", "minPhases", "maxRMS", "minRMS"] → rank o.orgType org ≠ none)

/-- the answer for one event with these origins: the candidate of the highest rank, the last one of them if there are several, or
nothing when there is no candidate -/
def Answer (lower : String → String) (o : Options) (origins : List Origin) : Option Origin → Prop
  | none => ∀ x ∈ origins, ¬ Candidate lower o x
  | some org => ∃ before after, origins = before ++ org :: after ∧ Candidate lower o org ∧
      (∀ x ∈ before, Candidate lower o x → ∃ a b, rank o.orgType x = some a ∧ rank o.orgType org = some b ∧ a ≤ b) ∧
      (∀ x ∈ after, Candidate lower o x → ∃ a b, rank o.orgType x = some a ∧ rank o.orgType org = some b ∧ a < b)

/-- the event has been modified after the time given, or then, and has one of the types given (no type is the empty text) -/
def EventWanted (o : Options) (ev : Event) : Prop :=
  (∀ t, o.modifiedAfter = some t → ∃ m, ev.modificationTime = some m ∧ t ≤ m) ∧
  (∀ l, o.evtypes = some l → ev.type.getD "" ∈ l)

/-- the origins among which the one of an event is searched -/
def sources (db : Database) (o : Options) (ev : Event) : List Origin :=
  if o.orgType = "preferred" then (db.getObject ev.preferred).toList else db.getOrigins ev.id

/-- longitudes are at most a turn apart (and not a turn to the east of the western limit, C53) -/
def Longitudes (o : Options) (org : Origin) : Prop :=
  ∀ a, o.area = some a → -360 ≤ a.maxLon - a.minLon ∧ a.maxLon - a.minLon ≤ 360 ∧
    -360 ≤ org.longitude - a.minLon ∧ org.longitude - a.minLon < 360

/-- what is compared is there: the depth if there is an area, the time of creation for the first and the last origin -/
def Complete (o : Options) (org : Origin) : Prop :=
  (o.area ≠ none → org.depth ≠ none) ∧ (o.orgType = "last" ∨ o.orgType = "first" → org.creationTime ≠ none)

/-- what is to be found in the column of each name; `None` is written for a text or place that is missing -/
def cell (s : Show) (ev : Event) (org : Origin) (name : String) : List Char :=
  let text (x : Option String) := (x.getD "None").toList
  match name with
  | "author" => text org.author
  | "agencyID" => text org.agencyID
  | "methodID" => text org.methodID
  | "evalStat" => text org.evalStat
  | "evalMode" => if org.evalMode = some .manual then "manual".toList else if org.evalMode = some .automatic then "automatic".toList else []
  | "event" => ev.id.toList
  | "eventType" => (ev.type.getD "").toList
  | "origin" => org.id.toList
  | "time" => s.time org.time
  | "creationTime" => (org.creationTime.map s.time).getD []
  | "modificationTime" => (org.modificationTime.map s.time).getD []
  | "latitude" => (org.place.map (fun p => s.num p.1)).getD "None".toList
  | "longitude" => (org.place.map (fun p => s.num p.2.1)).getD "None".toList
  | "depth" => (org.place.map (fun p => s.num p.2.2)).getD "None".toList
  | "RMS" => (org.rms.map s.num).getD []
  | "numPhases" => (org.phases.map s.count).getD []
  | _ => []

end Verif.ListOrgSpec
