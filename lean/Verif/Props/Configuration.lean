import Verif.Proofs.Configuration
import Verif.Props.Region
import Verif.Props.CommandLine

/-!
# C105: the profiles have the options that the configuration files ask for

`Spec/Configuration.lean` is a transcription of the documented parameters, apps/scrtdd/descriptions/scrtdd.xml.
-/

set_option linter.unusedSimpArgs false

namespace Verif.Configuration
open Verif.ConfigurationSpec
open Verif.Daemon (Num)
open Verif.Region (Region getProfile isInside)

/-- **C105a.** The program starts exactly if the parameters of every profile it has to load are acceptable: the region has as
many numbers as its type needs or is empty, the classes of uncertainties are numbers, and the solver parameters that vary with
the iterations have one or two values. -/
theorem starts_iff (g : Getters) (active : List String) (force : String) (db : Bool) :
    (validate g active force db).ok = true ↔ ∀ name ∈ names active force, Valid g name := by
  unfold validate
  rw [readProfiles_ok, filter_toLoad]
  simp

/-- **C105b.** A program that starts has the profiles of `activeProfiles`, in that order, and the one of the command line; and
every profile has, for every documented parameter, the value given in the configuration files, or the documented default.
Missing: whole numbers that are negative, see `Example.negative_wraps`. -/
theorem profiles_configured_partial (g : Getters) (active : List String) (force : String) (db : Bool)
    (hn : ∀ name ∈ names active force, NotNegative g name) (h : (validate g active force db).ok = true) :
    (validate g active force db).profiles.map (·.name) = names active force ∧
    ∀ p ∈ (validate g active force db).profiles, Configured g p := by
  unfold validate at h ⊢
  rw [← filter_toLoad] at hn ⊢
  obtain ⟨ps, h1, h2, h3⟩ := readProfiles_profiles g _ _ hn h
  rw [h1]
  exact ⟨h2, h3⟩

/-- **C105c.** No parameter belongs to two profiles, whatever their names are, nor stands for two options. -/
theorem parameter_owner {a b s t : String} (hs : s ∈ parameters) (ht : t ∈ parameters) (h : fullName a s = fullName b t) :
    a = b ∧ s = t :=
  fullName_inj hs ht h

/-- **C105d.** Changing the parameters of one profile does not change the others. -/
theorem profiles_independent {g g' : Getters} (b : String) (hf : g.fromString = g'.fromString)
    (h : ∀ k, ¬ Owns b k → Same g g' k) (active : List String) (force : String) (db : Bool)
    (h1 : (validate g active force db).ok = true) (h2 : (validate g' active force db).ok = true) :
    List.Forall₂ (fun p q => p.name = q.name ∧ (p.name ≠ b → p = q)) (validate g active force db).profiles
      (validate g' active force db).profiles :=
  readProfiles_others b hf h _ _ _ .nil h1 h2

/-- the part of a profile that the selection looks at -/
def Profile.forSelection (p : Profile) : Region.Profile := ⟨p.name, p.region⟩

theorem hasRegion_unique {g : Getters} {name : String} {r r' : Region} (h : HasRegion g name r) (h' : HasRegion g name r') : r = r' := by
  rw [← readRegion_iff] at h h'
  rw [h] at h'
  injection h'

theorem regions_configured (g : Getters) (l : List String) (r : Result) (h : (readProfiles g l r).ok = true) :
    ∃ ps, (readProfiles g l r).profiles = r.profiles ++ ps ∧ ps.map (·.name) = l.filter (· ≠ "") ∧
      ∀ p ∈ ps, HasRegion g p.name p.region := by
  induction l generalizing r with
  | nil => exact ⟨[], by simp [readProfiles]⟩
  | cons name l ih =>
    unfold readProfiles at h ⊢
    by_cases he : name = ""
    · rw [if_pos he] at h ⊢
      rw [List.filter_cons_of_neg (by simp [he])]
      exact ih r h
    · rw [if_neg he] at h ⊢
      rw [List.filter_cons_of_pos (by simp [he])]
      cases hp : readProfile g name with
      | push p ok db =>
        rw [hp] at h
        simp only at h ⊢
        obtain ⟨ps, h1, h2, h3⟩ := ih _ h
        have hp' : p.name = name ∧ HasRegion g p.name p.region := by
          rw [readProfile_eq] at hp
          split at hp
          · cases hp
          · cases hp
          · rename_i r' so hr hs
            injection hp with h4 _ _
            subst h4
            exact ⟨rfl, (readRegion_iff g name r').1 hr⟩
        refine ⟨p :: ps, by rw [h1]; simp, by rw [List.map_cons, hp'.1, h2], ?_⟩
        intro q hq
        rcases List.mem_cons.1 hq with rfl | hq
        · exact hp'.2
        · exact h3 q hq
      | skip =>
        rw [hp] at h
        cases ((readProfiles_ok g l _).1 h).1
      | stop db =>
        rw [hp] at h
        cases h

/-- **C105e.** An origin is given the first profile of `activeProfiles` whose configured region contains it, if no profile is
named on the command line. -/
theorem selected_by_region (g : Getters) (active : List String) (db : Bool) (h : (validate g active "" db).ok = true)
    (distKm : ℚ → ℚ → ℚ → ℚ → ℚ) (lat lon : ℚ) (p : Region.Profile) :
    getProfile distKm ((validate g active "" db).profiles.map Profile.forSelection) (some (lat, lon)) "" = some p ↔
      HasRegion g p.name p.region ∧ isInside distKm p.region lat lon = true ∧
      ∃ before after, active.filter (· ≠ "") = before ++ p.name :: after ∧
        ∀ name ∈ before, ∀ r, HasRegion g name r → isInside distKm r lat lon = false := by
  obtain ⟨ps, h1, h2, h3⟩ := regions_configured g _ _ h
  have hps : (validate g active "" db).profiles = ps := by
    unfold validate; rw [h1]; rfl
  have hact : ps.map (·.name) = active.filter (· ≠ "") := by rw [h2, filter_toLoad]; simp [names]
  rw [hps, (Region.profile_selection distKm _ lat lon "").1, ← hact]
  constructor
  · rintro ⟨pre, post, e1, e2, e3⟩
    obtain ⟨pre', rest, e4, e5, e6⟩ := List.map_eq_append_iff.1 e1
    obtain ⟨p', post', e7, e8, e9⟩ := List.map_eq_cons_iff.1 e6
    subst e4 e7
    rw [← e8]
    refine ⟨h3 p' (by simp), by rw [← e8] at e2; exact e2.2 rfl, pre'.map (·.name), post'.map (·.name), by simp [Profile.forSelection], ?_⟩
    intro name hn r hr
    obtain ⟨q, hq, rfl⟩ := List.mem_map.1 hn
    have hrq := hasRegion_unique hr (h3 q (by simp [hq]))
    have := e3 (Profile.forSelection q) (by rw [← e5]; exact List.mem_map_of_mem hq)
    rw [hrq]
    by_contra hc
    rw [Bool.not_eq_false] at hc
    exact this ⟨fun hh => absurd rfl hh, fun _ => hc⟩
  · rintro ⟨hr, hi, before, after, e1, e2⟩
    obtain ⟨pre', rest, e4, e5, e6⟩ := List.map_eq_append_iff.1 e1
    obtain ⟨p', post', e7, e8, e9⟩ := List.map_eq_cons_iff.1 e6
    subst e4 e7
    have hrp : p'.region = p.region := by
      refine hasRegion_unique (h3 p' (by simp)) ?_
      rw [e8]; exact hr
    refine ⟨pre'.map Profile.forSelection, post'.map Profile.forSelection, ?_, ⟨fun hh => absurd rfl hh, fun _ => hi⟩, ?_⟩
    · have : Profile.forSelection p' = p := by
        unfold Profile.forSelection; rw [e8, hrp]
      simp [this]
    · intro q hq
      obtain ⟨q', hq', rfl⟩ := List.mem_map.1 hq
      rintro ⟨-, hc⟩
      have := e2 q'.name (by rw [← e5]; exact List.mem_map_of_mem hq') q'.region (h3 q' (by simp [hq']))
      have hc := hc rfl
      unfold Profile.forSelection at hc
      rw [this] at hc
      cases hc

/-- **C105f.** A profile named on the command line is given to every origin with coordinates, even if it is not in
`activeProfiles` and wherever the origin is. -/
theorem selected_by_name (g : Getters) (active : List String) (force : String) (hf : force ≠ "") (db : Bool)
    (h : (validate g active force db).ok = true) (distKm : ℚ → ℚ → ℚ → ℚ → ℚ) (lat lon : ℚ) :
    ∃ r, HasRegion g force r ∧
      getProfile distKm ((validate g active force db).profiles.map Profile.forSelection) (some (lat, lon)) force = some ⟨force, r⟩ := by
  obtain ⟨ps, h1, h2, h3⟩ := regions_configured g _ _ h
  have hps : (validate g active force db).profiles = ps := by
    unfold validate; rw [h1]; rfl
  have hmem : force ∈ ps.map (·.name) := by
    rw [h2, filter_toLoad]
    unfold names
    by_cases hm : force ∈ active
    · exact List.mem_append_left _ (List.mem_filter.2 ⟨hm, by simp [hf]⟩)
    · simp [hf, hm]
  rw [hps]
  cases hg : getProfile distKm (ps.map Profile.forSelection) (some (lat, lon)) force with
  | none =>
    rw [(Region.profile_selection distKm _ lat lon force).2] at hg
    obtain ⟨p, hp, e⟩ := List.mem_map.1 hmem
    exact absurd ⟨fun _ => e, fun hh => absurd hh hf⟩ (hg _ (List.mem_map_of_mem hp))
  | some p =>
    obtain ⟨pre, post, e1, e2, -⟩ := ((Region.profile_selection distKm _ lat lon force).1 p).1 hg
    have hp : p ∈ ps.map Profile.forSelection := by rw [e1]; simp
    obtain ⟨q, hq, rfl⟩ := List.mem_map.1 hp
    have hqn : q.name = force := e2.1 hf
    refine ⟨q.region, hqn ▸ h3 q hq, ?_⟩
    unfold Profile.forSelection
    rw [hqn]

/-- **C105g.** The connection to the database is not given up if a loaded profile takes its catalog from origin ids, or if the
command line names one file of origin ids. -/
theorem database_kept (g : Getters) (active : List String) (force : String) (inventory : Bool) (o : CommandLine.Options) (db : Bool)
    (h : (validate g active force db).ok = true) (hoff : databaseOff g active force inventory o = true) :
    inventory = false ∧ (∀ name ∈ names active force, ¬ TakesOriginIds g name) ∧
    ∀ file : List Char, CommandLine.Spec.Item file → o.dumpWaveforms ≠ file ∧ o.dumpClusters ≠ file ∧ o.relocateCatalog ≠ file := by
  unfold databaseOff at hoff
  simp only [Bool.and_eq_true, Bool.not_eq_true'] at hoff
  obtain ⟨⟨h1, h2⟩, -⟩ := hoff
  have hok : ∀ db', (validate g active force db').ok = true := fun db' => by
    rw [starts_iff] at h ⊢; exact h
  have hdb : ∀ db', (validate g active force db').db = true ↔ db' = true ∨ ∃ name ∈ names active force, TakesOriginIds g name := by
    intro db'
    have := readProfiles_db g (profilesToLoad active force) ⟨[], true, db'⟩ (hok db')
    rw [filter_toLoad] at this
    exact this
  rw [Bool.eq_false_iff, Ne, hdb, not_or] at h2
  obtain ⟨h3, h4⟩ := h2
  simp only [Bool.or_eq_true, not_or] at h3
  refine ⟨h1, fun name hn ht => h4 ⟨name, hn, ht⟩, ?_⟩
  intro file hfile
  have hsingle : CommandLine.single file = true := by
    have := CommandLine.tokens_commaSeparated (xs := [file]) (by simp) (by simpa using hfile)
    unfold CommandLine.single
    have hc : CommandLine.Spec.commaSeparated [file] = file := rfl
    rw [← hc, this]
    simp [hc, hfile.1]
  refine ⟨?_, ?_, ?_⟩ <;> rintro rfl
  · exact h3.1.1 hsingle
  · exact h3.1.2 hsingle
  · exact h3.2 hsingle

/-! ## an example -/

namespace Example

/-- The configuration of two profiles: a rectangle with a catalog of origin ids and its own damping factors, and a circle with
three catalog files and a lower number of neighbours. -/
def conf (neighbours : Int) : Getters where
  string k := if k = "profile.alps.regionType" then some "rectangular" else if k = "profile.rhein.regionType" then some "circular" else none
  strings k := if k = "profile.alps.region" then some ["45", "5", "48", "11"] else if k = "profile.rhein.region" then some ["48", "8", "50"] else
    if k = "profile.alps.pickUncertaintyClasses" then some ["0", "45"] else none
  bool k := if k = "profile.alps.crossCorrelation.enable" then some true else none
  int k := if k = "profile.rhein.doubleDifferenceSystem.eventFiltering.minNumNeighbours" then some neighbours else none
  double k := if k = "profile.rhein.crossCorrelation.s-phase.winEnd" then some (3/2) else none
  doubles k := if k = "profile.alps.solver.dampingFactor" then some [1/10, 1/100] else none
  path k := if k = "profile.alps.catalog.eventFile" then some "/alps/ids.csv" else if k = "profile.rhein.catalog.eventFile" then some "/rhein/event.csv" else
    if k = "profile.rhein.catalog.stationFile" then some "/rhein/station.csv" else
    if k = "profile.rhein.catalog.phaFile" then some "/rhein/phase.csv" else none
  fromString s := if s = "0" then some 0 else if s = "45" then some 45 else if s = "5" then some 5 else if s = "48" then some 48 else
    if s = "11" then some 11 else if s = "8" then some 8 else if s = "50" then some 50 else none

def two : List String := ["alps", "rhein"]

theorem starts : (validate (conf 6) two "" false).ok = true := by decide +kernel

theorem not_negative : ∀ name ∈ names two "", NotNegative (conf 6) name := by
  intro name _ s _ i hi
  simp only [conf] at hi
  split at hi
  · cases hi
    decide
  · cases hi

/-- the hypotheses of `starts_iff`, `profiles_configured_partial` -/
example : (validate (conf 6) two "" false).profiles.map (·.name) = ["alps", "rhein"] ∧
    ∀ p ∈ (validate (conf 6) two "" false).profiles, Configured (conf 6) p :=
  profiles_configured_partial _ _ _ _ not_negative starts

/-- the options of the two profiles -/
example : (validate (conf 6) two "" false).profiles.map (fun p => (p.single.minNumNeigh, p.multi.minNumNeigh, p.xcorr.enable)) =
      [(4, 4, true), (6, 6, false)] ∧
    (validate (conf 6) two "" false).profiles.map (fun p => (p.solver.dampingFactorStart, p.solver.dampingFactorEnd)) =
      [(1/10, 1/100), (1/100, 1/100)] ∧
    (validate (conf 6) two "" false).profiles.map (fun p => (p.eventIDFile, p.stationFile, p.methodID)) =
      [("/alps/ids.csv", "", "RTDD"), ("", "/rhein/station.csv", "RTDD")] := by
  decide +kernel

/-- `profiles_independent`: another number of neighbours for rhein leaves alps as it is -/
example : List.Forall₂ (fun p q => p.name = q.name ∧ (p.name ≠ "rhein" → p = q)) (validate (conf 6) two "" false).profiles
    (validate (conf 3) two "" false).profiles := by
  refine profiles_independent (g := conf 6) (g' := conf 3) "rhein" rfl ?_ _ _ _ starts (by decide +kernel)
  intro k hk
  refine ⟨rfl, rfl, rfl, ?_, rfl, rfl, rfl⟩
  have : k ≠ "profile.rhein.doubleDifferenceSystem.eventFiltering.minNumNeighbours" := by
    rintro rfl
    exact hk ⟨"doubleDifferenceSystem.eventFiltering.minNumNeighbours", by decide +kernel, by decide +kernel⟩
  simp only [conf, if_neg this]

/-- `selected_by_region`: with a distance of 300 km to the circle, an origin in the rectangle belongs to alps -/
example : getProfile (fun _ _ _ _ => 300) ((validate (conf 6) two "" false).profiles.map Profile.forSelection) (some (46, 8)) "" =
    some ⟨"alps", .rect 45 5 48 11⟩ := by
  rw [selected_by_region (conf 6) two false starts]
  refine ⟨.rectangle (t := "rectangular") (l := ["45", "5", "48", "11"]) rfl (by unfold Rectangular; decide +kernel) rfl
    (.cons (by decide +kernel) (.cons (by decide +kernel) (.cons (by decide +kernel) (.cons (by decide +kernel) .nil)))),
    by decide +kernel, [], ["rhein"], by decide +kernel, by simp⟩

/-- `selected_by_name`: named on the command line, rhein is given to an origin anywhere -/
example : ∃ r, HasRegion (conf 6) "rhein" r ∧
    getProfile (fun _ _ _ _ => 300) ((validate (conf 6) ["alps"] "rhein" false).profiles.map Profile.forSelection) (some (10, 8)) "rhein" =
      some ⟨"rhein", r⟩ :=
  selected_by_name (conf 6) ["alps"] "rhein" (by decide) false (by decide +kernel) _ _ _

/-- `database_kept`: with rhein alone the database is not needed to relocate the catalog of three files, with alps it is -/
example : databaseOff (conf 6) ["rhein"] "" false { relocateCatalog := "station.csv,event.csv,phase.csv".toList } = true ∧
    databaseOff (conf 6) two "" false { relocateCatalog := "station.csv,event.csv,phase.csv".toList } = false := by
  decide +kernel

/-- **C105b is false** of negative numbers: the program starts, and a number of −1 neighbours stands for 4294967295, so that no
event has enough of them. -/
theorem negative_wraps : (validate (conf (-1)) two "" false).ok = true ∧
    (validate (conf (-1)) two "" false).profiles.map (·.single.minNumNeigh) = [4, 4294967295] := by
  decide +kernel

/-- The type of a region is not checked: every word but `rectangular` stands for a circle. -/
theorem unknown_type_is_circle :
    let g := { conf 6 with string := fun k => if k = "profile.rhein.regionType" then some "rect" else none }
    (validate g ["rhein"] "" false).ok = true ∧ HasRegion g "rhein" (.circ 48 8 50) := by
  refine ⟨by decide +kernel, .circle (l := ["48", "8", "50"]) ?_ (by decide +kernel)
    (.cons (by decide +kernel) (.cons (by decide +kernel) (.cons (by decide +kernel) .nil)))⟩
  intro t ht
  have : t = "rect" := by
    exact (by simpa using ht.symm : _ ∧ t = "rect").2
  subst this
  unfold Rectangular
  decide +kernel

/-- A value that has not the type of its parameter is replaced with the default, and the program starts: the options of a
configuration do not depend on it. -/
theorem mistyped_is_default (g : Getters) (name : String) (hb : g.bool (fullName name "crossCorrelation.enable") = none) :
    ∀ p ok db, readProfile g name = .push p ok db → p.xcorr.enable = false := by
  intro p ok db h
  rw [readProfile_eq] at h
  split at h
  · cases h
  · cases h
  · injection h with h1 _ _
    subst h1
    have k := key name (a := ".crossCorrelation.") (b := "enable") (c := "crossCorrelation.enable") (by decide)
    change (g.bool ("profile." ++ name ++ ".crossCorrelation." ++ "enable")).getD false = false
    rw [k, hb]
    rfl

/-- Without the phase file, the event file is taken for a file of origin ids. -/
theorem two_files_are_origin_ids :
    let g := { conf 6 with path := fun k => if k = "profile.rhein.catalog.phaFile" then none else (conf 6).path k }
    (validate g ["rhein"] "" false).ok = true ∧
    (validate g ["rhein"] "" false).profiles.map (fun p => (p.stationFile, p.phaFile, p.eventFile, p.eventIDFile)) =
      [("/rhein/station.csv", "", "", "/rhein/event.csv")] := by
  decide +kernel

end Example

end Verif.Configuration
