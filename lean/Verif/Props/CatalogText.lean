import Verif.Proofs.CatalogText
import Verif.Props.CatalogFile

/-!
# C87: what catalog files mean
-/

set_option linter.unusedSimpArgs false

namespace Verif.CatalogFile
open Verif.Csv Verif.Catalog Verif.PairFile Verif.Decimal Verif.XCorrFile Verif.NumberSpec Verif.CatalogFile.Spec

/-- **C87** A text is read as a number exactly when it begins with one: decimal digits with an optional point and an
optional exponent, the same in hexadecimal after `0x`, `inf` or `nan`, after optional white space and an optional sign.  Whatever
follows is ignored.  A number without a double (too large, or too small and not exact) is refused. -/
theorem number_text (rnd : ℚ → ℚ) (s : Str) : (∀ v, stod rnd s = .ok v ↔ Number rnd s v) ∧
    ((¬ ∃ v, Number rnd s v) → stod rnd s = .throws) := by
  refine ⟨stod_iff rnd s, fun h => ?_⟩
  cases hs : stod rnd s with
  | ok v => exact absurd ⟨v, (stod_iff rnd s v).1 hs⟩ h
  | throws => rfl
  | ub => exact absurd hs (stod_ne_ub rnd s)

/-- **C87** A text is read as an id exactly when it begins with a whole number below 2^64. -/
theorem id_text (s : Str) : (∀ n, stoul s = .ok n ↔ Id s n) ∧ ((¬ ∃ n, Id s n) → stoul s = .throws) := by
  refine ⟨stoul_iff s, fun h => ?_⟩
  cases hs : stoul s with
  | ok v => exact absurd ⟨v, (stoul_iff s v).1 hs⟩ h
  | throws => rfl
  | ub => exact absurd hs (stoul_ne_ub s)

theorem known_iff (ss : List (Station (Fl ℚ))) : (fun id => (ss.any (fun s => s.id = id)) = true) = (fun id => ∃ s ∈ ss, s.id = id) := by
  funext id
  simp

theorem read_iff {rnd : ℚ → ℚ} {load : Bool} {u : Event (Fl ℚ)} {v : Phase (Fl ℚ)} {files : Files} {cat : Catalog (Fl ℚ)} :
    read rnd load u v files = .ok cat ↔ ∃ sr er pr ss es ps, readWithHeader files.station = .ok sr ∧
      readWithHeader files.event = .ok er ∧ readWithHeader files.phase = .ok pr ∧
      Describe rnd load u v sr er pr ss es ps ∧ Catalog.ofRows ss es ps = .ok cat := by
  unfold read
  simp only [bind_iff, mapRows_iff (fun _ _ => stationOf_iff), mapRows_iff (fun _ _ => eventOf_iff),
    mapRows_iff (fun _ _ => phaseOf_iff), known_iff]
  constructor
  · rintro ⟨sr, h1, ss, h2, er, h3, es, h4, pr, h5, ps, h6, h7⟩
    exact ⟨sr, er, pr, ss, es, ps, h1, h3, h5, ⟨h2, h4, h6⟩, h7⟩
  · rintro ⟨sr, er, pr, ss, es, ps, h1, h3, h5, ⟨h2, h4, h6⟩, h7⟩
    exact ⟨sr, h1, ss, h2, er, h3, es, h4, pr, h5, ps, h6, h7⟩

theorem forall₂_right {A B : Type} {R : A → B → Prop} {l : List A} {r : List B} (h : List.Forall₂ R l r) :
    ∀ b ∈ r, ∃ a ∈ l, R a b := by
  induction h with
  | nil => simp
  | cons h1 _ ih =>
    intro b hb
    rcases List.mem_cons.1 hb with rfl | hb
    · exact ⟨_, by simp, h1⟩
    · obtain ⟨a, ha, hr⟩ := ih b hb
      exact ⟨a, by simp [ha], hr⟩

theorem lastWith_isSome {K A : Type} [DecidableEq K] {key : A → K} {l : List A} {k : K} (h : ∃ a ∈ l, key a = k) :
    (lastWith key l k).isSome = true := by
  obtain ⟨a, ha, hk⟩ := h
  unfold lastWith
  have hne : l.filter (fun a => key a = k) ≠ [] := by
    intro h
    have : a ∈ l.filter (fun a => key a = k) := List.mem_filter.2 ⟨ha, by simpa using hk⟩
    rw [h] at this
    cases this
  rw [List.getLast?_eq_some_getLast hne]
  rfl

theorem ofRows_described {rnd : ℚ → ℚ} {load : Bool} {u : Event (Fl ℚ)} {v : Phase (Fl ℚ)} {sr er pr : List TableRow}
    {ss : List (Station (Fl ℚ))} {es : List (Event (Fl ℚ))} {ps : List (Phase (Fl ℚ))}
    (h : Describe rnd load u v sr er pr ss es ps) :
    ∃ cat, Catalog.ofRows ss es ps = .ok cat ∧ (∀ id, cat.stations.find? id = lastWith (fun s => s.id) ss id) ∧
      (∀ id, cat.events.find? id = lastWith (fun e => e.id) es id) ∧ cat.phases = ps.map (fun p => (p.eventId, p)) := by
  have hid : ∀ s ∈ ss, s.id = Catalog.stationIdOf s.networkCode s.stationCode s.locationCode := by
    intro s hs
    obtain ⟨row, -, hr⟩ := forall₂_right h.stations s hs
    exact hr.id
  have hst : ss.foldl (fun (m : AMap String (Station (Fl ℚ))) s =>
      let id := Catalog.stationIdOf s.networkCode s.stationCode s.locationCode
      m.set id { s with id := id }) ([] : AMap String (Station (Fl ℚ))) =
      ss.foldl (fun (m : AMap String (Station (Fl ℚ))) s => m.set s.id s) [] := by
    apply List.foldl_ext
    intro m s hs
    simp only
    rw [← hid s hs]
  have hph : ps.map (fun p => { p with stationId := Catalog.stationIdOf p.networkCode p.stationCode p.locationCode }) = ps := by
    conv_rhs => rw [← List.map_id ps]
    apply List.map_congr_left
    intro p hp
    obtain ⟨row, -, hr⟩ := forall₂_right h.phases p hp
    have := hr.stationId
    simp only [Catalog.stationIdOf, id_eq]
    rw [← this]
  have hfs : ∀ id, (ss.foldl (fun (m : AMap String (Station (Fl ℚ))) s => m.set s.id s) []).find? id =
      lastWith (fun s => s.id) ss id := by
    intro id
    rw [find?_last_set (fun s : Station (Fl ℚ) => s.id)]
    simp
  refine ⟨⟨ss.foldl (fun (m : AMap String (Station (Fl ℚ))) s => m.set s.id s) [],
    es.foldl (fun (m : AMap Nat (Event (Fl ℚ))) e => m.set e.id e) [], ps.map (fun p => (p.eventId, p))⟩, ?_, hfs, ?_, rfl⟩
  · unfold Catalog.ofRows
    simp only
    rw [hst, hph, if_pos]
    rw [List.all_eq_true]
    intro p hp
    obtain ⟨row, -, hr⟩ := forall₂_right h.phases p hp
    rw [hfs]
    exact lastWith_isSome hr.isKnown
  · intro id
    show AMap.find? _ id = _
    rw [find?_last_set (fun e : Event (Fl ℚ) => e.id)]
    simp

/-- **C87** Three catalog files are accepted exactly when every row of theirs describes a station, an event or a phase, and
every phase is of a station of the station file. -/
theorem catalog_files_accepted_iff (rnd : ℚ → ℚ) (load : Bool) (u : Event (Fl ℚ)) (v : Phase (Fl ℚ)) (files : Files) :
    (∃ cat, read rnd load u v files = .ok cat) ↔
      ∃ sr er pr ss es ps, readWithHeader files.station = .ok sr ∧ readWithHeader files.event = .ok er ∧
        readWithHeader files.phase = .ok pr ∧ Describe rnd load u v sr er pr ss es ps := by
  simp only [read_iff]
  constructor
  · rintro ⟨cat, sr, er, pr, ss, es, ps, h1, h2, h3, h4, -⟩
    exact ⟨sr, er, pr, ss, es, ps, h1, h2, h3, h4⟩
  · rintro ⟨sr, er, pr, ss, es, ps, h1, h2, h3, h4⟩
    obtain ⟨cat, h5, -⟩ := ofRows_described h4
    exact ⟨cat, sr, er, pr, ss, es, ps, h1, h2, h3, h4, h5⟩

/-- **C87** The catalog has exactly the stations, events and phases that the rows describe: all of the phases, in the order of
the file, and for every station and event id the last row with that id. -/
theorem catalog_files_meaning {rnd : ℚ → ℚ} {load : Bool} {u : Event (Fl ℚ)} {v : Phase (Fl ℚ)} {files : Files}
    {cat : Catalog (Fl ℚ)} (h : read rnd load u v files = .ok cat) {sr er pr : List TableRow}
    (hs : readWithHeader files.station = .ok sr) (he : readWithHeader files.event = .ok er)
    (hp : readWithHeader files.phase = .ok pr) :
    ∃ ss es ps, Describe rnd load u v sr er pr ss es ps ∧
      (∀ id, cat.stations.find? id = lastWith (fun s => s.id) ss id) ∧
      (∀ id, cat.events.find? id = lastWith (fun e => e.id) es id) ∧
      cat.phases = ps.map (fun p => (p.eventId, p)) := by
  obtain ⟨sr', er', pr', ss, es, ps, h1, h2, h3, h4, h5⟩ := read_iff.1 h
  rw [hs] at h1; cases h1
  rw [he] at h2; cases h2
  rw [hp] at h3; cases h3
  obtain ⟨cat', h6, h7⟩ := ofRows_described h4
  rw [h5] at h6; cases h6
  exact ⟨ss, es, ps, h4, h7⟩

/-! ## undefined behaviour -/

theorem bind_not_ub {A B : Type} {x : Outcome A} {f : A → Outcome B} (hx : x ≠ .ub) (hf : ∀ a, x = .ok a → f a ≠ .ub) :
    (x >>= f) ≠ .ub := by
  cases x with
  | ok a => exact hf a rfl
  | throws => simp
  | ub => exact absurd rfl hx

theorem bind_not_ub' {A B : Type} {x : Outcome A} {f : A → Outcome B} (hx : x ≠ .ub) (hf : ∀ a, x = .ok a → f a ≠ .ub) :
    x.bind f ≠ .ub := bind_not_ub hx hf

theorem orElse_ne_ub {A : Type} {x : Outcome A} {d : A} (hx : x ≠ .ub) : orElse x d ≠ .ub := by
  cases x <;> simp_all [orElse]

theorem stationOf_ne_ub (rnd : ℚ → ℚ) (row : AMap Str Str) : stationOf rnd row ≠ .ub := by
  unfold stationOf
  refine bind_not_ub (numberAt_ne_ub _ _ _) fun _ _ => bind_not_ub (numberAt_ne_ub _ _ _) fun _ _ =>
    bind_not_ub (numberAt_ne_ub _ _ _) fun _ _ => bind_not_ub (column_ne_ub _ _) fun _ _ => bind_not_ub (column_ne_ub _ _) fun _ _ =>
    bind_not_ub (column_ne_ub _ _) fun _ _ => ?_
  simp

/-- the time of the row is not one the conversion of which is undefined: its fraction fits an `int` -/
def TimeDefined (row : TableRow) : Prop := ∀ s, Cell row "isotime" s → Utc.fromString s ≠ .ub

theorem eventOf_ne_ub (rnd : ℚ → ℚ) (load : Bool) (u : Event (Fl ℚ)) {row : AMap Str Str} (h : TimeDefined row) :
    eventOf rnd load u row ≠ .ub := by
  unfold eventOf
  refine bind_not_ub (bind_not_ub' (column_ne_ub _ _) fun _ _ => stoul_ne_ub _) fun _ _ =>
    bind_not_ub (bind_not_ub' (column_ne_ub _ _) fun s hs => h s (column_iff.1 hs)) fun _ _ =>
    bind_not_ub (numberAt_ne_ub _ _ _) fun _ _ => bind_not_ub (numberAt_ne_ub _ _ _) fun _ _ =>
    bind_not_ub (numberAt_ne_ub _ _ _) fun _ _ => bind_not_ub (orElse_ne_ub (numberAt_ne_ub _ _ _)) fun _ _ => ?_
  simp only
  split
  · exact bind_not_ub (numberAt_ne_ub _ _ _) fun _ _ => bind_not_ub (numberAt_ne_ub _ _ _) fun _ _ => by simp
  · simp

theorem phaseOf_ne_ub (rnd : ℚ → ℚ) (load : Bool) (u : Phase (Fl ℚ)) (known : String → Bool) {row : AMap Str Str} (h : TimeDefined row) :
    phaseOf rnd load u known row ≠ .ub := by
  unfold phaseOf
  refine bind_not_ub (bind_not_ub' (column_ne_ub _ _) fun _ _ => stoul_ne_ub _) fun _ _ =>
    bind_not_ub (bind_not_ub' (column_ne_ub _ _) fun s hs => h s (column_iff.1 hs)) fun _ _ =>
    bind_not_ub (orElse_ne_ub (uncertainties_ne_ub _ _)) fun _ _ => bind_not_ub (column_ne_ub _ _) fun _ _ =>
    bind_not_ub (column_ne_ub _ _) fun _ _ => bind_not_ub (column_ne_ub _ _) fun _ _ => bind_not_ub (column_ne_ub _ _) fun _ _ =>
    bind_not_ub (column_ne_ub _ _) fun _ _ => bind_not_ub ?_ fun _ _ => ?_
  · split
    · exact bind_not_ub (numberAt_ne_ub _ _ _) fun _ _ => bind_not_ub (numberAt_ne_ub _ _ _) fun _ _ =>
        bind_not_ub (numberAt_ne_ub _ _ _) fun _ _ => by simp
    · simp
  · split <;> simp

/-- **C87** Files that are not accepted are rejected with an exception, unless one of them is empty or has a time whose
fraction does not fit an `int`. -/
theorem catalog_files_defined_partial (rnd : ℚ → ℚ) (load : Bool) (u : Event (Fl ℚ)) (v : Phase (Fl ℚ)) (files : Files)
    {sr er pr : List TableRow} (hs : readWithHeader files.station = .ok sr) (he : readWithHeader files.event = .ok er)
    (hp : readWithHeader files.phase = .ok pr) (hte : ∀ row ∈ er, TimeDefined row) (htp : ∀ row ∈ pr, TimeDefined row) :
    read rnd load u v files ≠ .ub := by
  unfold read
  rw [hs, he, hp]
  refine bind_not_ub (by simp) fun _ h1 => bind_not_ub (mapRows_ne_ub fun _ _ => stationOf_ne_ub _ _) fun ss _ =>
    bind_not_ub (by simp) fun _ h2 => bind_not_ub (mapRows_ne_ub fun _ hr => eventOf_ne_ub _ _ _ ?_) fun _ _ =>
    bind_not_ub (by simp) fun _ h3 => bind_not_ub (mapRows_ne_ub fun _ hr => phaseOf_ne_ub _ _ _ _ ?_) fun _ _ => ?_
  · cases h2; exact hte _ hr
  · cases h3; exact htp _ hr
  · unfold Catalog.ofRows
    simp only
    split <;> simp

/-- **C87** A file has a header row exactly when it is not empty. -/
theorem header_row_iff (s : Str) : (∃ rows, readWithHeader s = .ok rows) ↔ s ≠ [] := by
  have haux : ∀ (s cur : Str), linesAux cur s = [] ↔ cur = [] ∧ s = [] := by
    intro s
    induction s with
    | nil => intro cur; cases cur <;> simp [linesAux]
    | cons c s ih =>
      intro cur
      rw [linesAux]
      split
      · simp
      · rw [ih]; simp
  have : Csv.read s = [] ↔ s = [] := by
    unfold Csv.read Csv.lines
    rw [List.map_eq_nil_iff, haux]
    simp
  unfold readWithHeader
  cases h : Csv.read s with
  | nil => simp [this.1 h]
  | cons a l =>
    simp only [Outcome.ok.injEq, exists_eq', ne_eq, true_iff]
    intro h0
    rw [this.2 h0] at h
    cases h

namespace Example

/-- files as a user may write them: other columns, another order, an empty magnitude, one missing uncertainty -/
def files : Files where
  station := "networkCode,stationCode,locationCode,latitude,longitude,elevation,comment\nCH,ABC,,46.5,+7.5e0,1.234e3,\"a, b\"\n".toList
  event := "id,isotime,latitude,longitude,depth,magnitude\n 7,2024-02-29T12:34:56.789Z,.5,-7.5,1.,\n7,2024-02-29T12:34:57.0Z,46.4,7.5,nan,2.5x\n".toList
  phase := "eventId,isotime,lowerUncertainty,type,networkCode,stationCode,locationCode,channelCode,usedInReloc\n7,2024-02-29T12:34:59.0Z,0.1,P,CH,ABC,,HHZ,TRUE\n".toList

example : (read id false (ev 0 false) (ph 0 false) files).map (fun c => c.stations.map (·.2)) =
    .ok [⟨"CH.ABC.", .num (465/10), .num (75/10), .num 1234, "CH", "ABC", ""⟩] := by decide +kernel

/-- the second of the two rows of event 7 counts -/
example : (read id false (ev 0 false) (ph 0 false) files).map (fun c => c.events.map (fun kv => (kv.1, kv.2.time, [kv.2.latitude, kv.2.depth, kv.2.magnitude]))) =
    .ok [(7, 1709210097000000, [.num (464/10), .nan, .num (25/10)])] := by decide +kernel

example : (read id false (ev 0 false) (ph 0 false) files).map (fun c => c.phases.map (fun kv => (kv.1, kv.2.lowerUncertainty, kv.2.upperUncertainty, kv.2.isRelocated))) =
    .ok [(7, .nan, .nan, false)] := by decide +kernel

/-- the hypotheses of the theorems hold for these files -/
example : ∃ cat, read id false (ev 0 false) (ph 0 false) files = .ok cat := by
  cases h : read id false (ev 0 false) (ph 0 false) files with
  | ok c => exact ⟨c, rfl⟩
  | throws =>
    have : (read id false (ev 0 false) (ph 0 false) files).map (fun c => c.phases.length) = .ok 1 := by decide +kernel
    rw [h] at this; cases this
  | ub =>
    have : (read id false (ev 0 false) (ph 0 false) files).map (fun c => c.phases.length) = .ok 1 := by decide +kernel
    rw [h] at this; cases this

/-- a phase marked as used without residuals is an error when the relocation information is asked for -/
example : (read id true (ev 0 false) (ph 0 false) files).map (fun c => c.phases.length) = .throws := by decide +kernel

example : Number id "  -1.5e2 km".toList (.num (-150)) :=
  (stod_iff id _ _).1 (by decide +kernel)

example : Number id "-0x1F.8p+1,".toList (.num (-63)) ∧ Number id "0x".toList (.num 0) ∧ Number id "0x.gp1".toList (.num 0) :=
  ⟨(stod_iff id _ _).1 (by decide +kernel), (stod_iff id _ _).1 (by decide +kernel), (stod_iff id _ _).1 (by decide +kernel)⟩

/-- the largest double and numbers beyond it, the smallest normal double and numbers below it -/
example : (¬ ∃ v, Number id "-1e309".toList v) ∧ Number id "1.7976931348623157e308".toList (.num (17976931348623157 * 10 ^ 292)) ∧
    (¬ ∃ v, Number id "2.2e-308".toList v) ∧ Number id "0x1p-1074".toList (.num (1 / 2 ^ 1074)) ∧ Number id "0e-999".toList (.num 0) := by
  have hno : ∀ s : Str, stod id s = .throws → ¬ ∃ v, Number id s v := by
    rintro s h ⟨v, hv⟩
    rw [(stod_iff id s v).2 hv] at h
    cases h
  exact ⟨hno _ (by decide +kernel), (stod_iff id _ _).1 (by decide +kernel), hno _ (by decide +kernel),
    (stod_iff id _ _).1 (by decide +kernel), (stod_iff id _ _).1 (by decide +kernel)⟩

/-- (negation) An empty line at the end of a file makes the whole catalog unreadable. -/
theorem blank_line_rejected :
    (read id false (ev 0 false) (ph 0 false) { files with station := files.station ++ ['\n'] }).map (fun c => c.phases.length) =
      .throws := by decide +kernel

/-- (negation) A negative id is accepted, as another one. -/
theorem negative_id_accepted : stoul "-1".toList = .ok 4294967295 := by decide +kernel

/-- (negation) An id of more than 32 bits is accepted, as another one: two events of the file become one. -/
theorem long_id_collides : stoul "4294967303".toList = stoul "7".toList := by decide +kernel

/-- (negation) An empty file is undefined behaviour. -/
theorem empty_file_undefined : (read id false (ev 0 false) (ph 0 false) { files with event := [] }).map (fun c => c.phases.length) =
    .ub := by decide +kernel

end Example
end Verif.CatalogFile
