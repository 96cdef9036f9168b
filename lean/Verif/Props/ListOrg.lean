import Verif.Proofs.ListOrg
import Verif.Props.Csv
import Verif.Model.SeisComP
import Mathlib.Tactic.FinCases

/-!
# C128 and C129: the origins listed by `sclistorg`, and how `scrtdd` reads the list
-/

namespace Verif.ListOrgSpec
open Verif.ListOrg Verif.Region

/-! ## C128 -/

open Classical in
/-- **C128** (partial) The lines written are those of the events that are wanted, in the order of the database, each with the one origin that was
asked for; events without such an origin have no line.  If the listing breaks off, the lines written before are those of the first events.
Missing: a longitude a full turn to the east of the western limit of the area (C53), for which this is false. -/
theorem lists_what_was_asked_for_partial (lower : String → String) (s : Show) (db : Database) (o : Options)
    (hL : ∀ ev ∈ db.getEvents o.startTime o.endTime, ∀ x ∈ sources db o ev, Longitudes o x) :
    ∃ (answer : Event → Option Origin) (done rest : List Event),
      (db.getEvents o.startTime o.endTime).filter (fun ev => EventWanted o ev) = done ++ rest ∧
      ((run lower s db o).2 = true → rest = []) ∧
      (∀ ev ∈ done, Answer lower o (sources db o ev) (answer ev)) ∧
      (run lower s db o).1 = (if o.simple then [] else header ++ ['\n']) ++
        (done.filterMap (fun ev => (answer ev).map (fun org => (ev, org)))).flatMap (line s o) := by
  obtain ⟨answer, done, rest, e, h1, h2, h3⟩ := listed_eq (lower := lower) (db := db) (o := o) (events db o)
    (fun ev hev => hL ev (List.mem_of_mem_filter hev))
  refine ⟨answer, done, rest, ?_, h1, h2, ?_⟩
  · rw [← e]
    unfold events
    exact List.filter_congr (fun ev _ => by rw [Bool.eq_iff_iff, keep_iff, decide_eq_true_iff])
  · unfold run
    dsimp only
    rw [h3]

/-- **C128** There is only one such origin. -/
theorem answer_is_unique (lower : String → String) (o : Options) (l : List Origin) (r r' : Option Origin) (h : Answer lower o l r)
    (h' : Answer lower o l r') : r = r' := answer_unique h h'

/-- **C128** (partial) The listing reaches its end if what is compared is there: the depths of the origins if there is an area, and the times of
creation if the first or last origin is asked for.  Missing: origins without them, for which this is false. -/
theorem listing_ends_partial (lower : String → String) (s : Show) (db : Database) (o : Options)
    (h : ∀ ev ∈ db.getEvents o.startTime o.endTime, ∀ x ∈ sources db o ev, Complete o x) : (run lower s db o).2 = true :=
  listed_complete (events db o) (fun ev hev => h ev (List.mem_of_mem_filter hev))

theorem split_intercalate {parts : List String} (h : parts ≠ []) (hc : ∀ s ∈ parts, ',' ∉ s.toList) :
    split (",".intercalate parts) = parts := by
  unfold split
  rw [String.toList_intercalate, show (",".toList) = [','] from rfl, List.splitOn_intercalate]
  · rw [List.map_map]
    conv_rhs => rw [← List.map_id parts]
    exact List.map_congr_left (fun s _ => by simp)
  · intro l hl
    obtain ⟨s, hs, rfl⟩ := List.mem_map.1 hl
    exact hc s hs
  · simpa using h

/-- **C128** Each list on the command line is taken as written: the parts between commas (in lower case for the states), or no condition at all if
the option is not given. -/
theorem lists_are_read (env : Env) (o : Options) (h : init env = some o) (parts : List String) (hne : parts ≠ [])
    (hc : ∀ s ∈ parts, ',' ∉ s.toList) :
    (∀ x ∈ [("ev-type", o.evtypes), ("inc-author", o.incAuthor), ("excl-author", o.exclAuthor), ("inc-agency", o.incAgencyID),
        ("excl-agency", o.exclAgencyID), ("inc-method", o.incMethodID), ("excl-method", o.exclMethodID)],
      (env.optionString x.1 = none → x.2 = none) ∧ (env.optionString x.1 = some (",".intercalate parts) → x.2 = some parts)) ∧
    ∀ x ∈ [("inc-status", o.incEvalStat), ("excl-status", o.exclEvalStat)],
      (env.optionString x.1 = none → x.2 = none) ∧
      (env.optionString x.1 = some (",".intercalate parts) → x.2 = some (parts.map env.lower)) := by
  unfold init at h
  simp only [Option.bind_eq_bind, Option.bind_eq_some_iff, Option.some.injEq] at h
  obtain ⟨_, -, _, -, _, -, rfl⟩ := h
  have hs := split_intercalate hne hc
  refine ⟨?_, ?_⟩ <;> intro x hx <;> fin_cases hx <;> dsimp only <;>
    exact ⟨fun e => by rw [e]; rfl, fun e => by rw [e]; simp [hs]⟩

/-- **C128** The interval, the time of modification, the kind of origin, the modes and the area are those given; an area is a text with four
numbers, and without these options there is no condition.  `init` fails only on a time that cannot be read. -/
theorem options_are_read (env : Env) :
    (∀ o, init env = some o →
      env.parseTime ((env.optionString "begin").getD "1900-01-01T00:00:00Z") = some o.startTime ∧
      env.parseTime ((env.optionString "end").getD "2500-01-01T00:00:00Z") = some o.endTime ∧
      (env.optionString "modified-after" = none → o.modifiedAfter = none) ∧
      (∀ t, env.optionString "modified-after" = some t → o.modifiedAfter = env.parseTime t ∧ o.modifiedAfter ≠ none) ∧
      o.orgType = (env.optionString "org-type").getD "preferred" ∧
      o.simple = env.hasOption "simple" ∧ o.manualOnly = env.hasOption "manual-only" ∧ o.automaticOnly = env.hasOption "auto-only" ∧
      (env.optionString "area" = none → o.area = none) ∧
      ∀ a b c d : String, (∀ t ∈ [a, b, c, d], ',' ∉ t.toList ∧ env.float t ≠ none) →
        env.optionString "area" = some (",".intercalate [a, b, c, d]) →
        ∃ w x y z, env.float a = some w ∧ env.float b = some x ∧ env.float c = some y ∧ env.float d = some z ∧
          o.area = some ⟨w, x, y, z⟩) ∧
    (init env = none → ∃ name ∈ ["begin", "end", "modified-after"],
      ∃ t, env.parseTime t = none ∧ (env.optionString name = some t ∨
        name = "begin" ∧ t = "1900-01-01T00:00:00Z" ∨ name = "end" ∧ t = "2500-01-01T00:00:00Z")) := by
  constructor
  · intro o h
    unfold init at h
    simp only [Option.bind_eq_bind, Option.bind_eq_some_iff, Option.some.injEq] at h
    obtain ⟨t0, h0, t1, h1, m, hm, rfl⟩ := h
    refine ⟨h0, h1, ?_, ?_, rfl, rfl, rfl, rfl, ?_, ?_⟩
    · intro e; simp only [parseModified, e] at hm; simpa using hm.symm
    · intro t e
      simp only [parseModified, e] at hm
      dsimp only at hm ⊢
      obtain ⟨t', ht', rfl⟩ := Option.map_eq_some_iff.1 hm
      exact ⟨ht'.symm, by simp⟩
    · intro e; simp [parseArea, e]
    · intro a b c d hf e
      have hs := split_intercalate (parts := [a, b, c, d]) (by simp) (fun s hs => (hf s hs).1)
      obtain ⟨w, hw⟩ := Option.ne_none_iff_exists'.1 (hf a (by simp)).2
      obtain ⟨x, hx⟩ := Option.ne_none_iff_exists'.1 (hf b (by simp)).2
      obtain ⟨y, hy⟩ := Option.ne_none_iff_exists'.1 (hf c (by simp)).2
      obtain ⟨z, hz⟩ := Option.ne_none_iff_exists'.1 (hf d (by simp)).2
      refine ⟨w, x, y, z, hw, hx, hy, hz, ?_⟩
      show parseArea env = _
      unfold parseArea
      rw [e]
      simp only [Option.bind_eq_bind, Option.bind_some, hs]
      simp [hw, hx, hy, hz]
  · intro h
    unfold init at h
    rcases h0 : env.parseTime ((env.optionString "begin").getD "1900-01-01T00:00:00Z") with _ | t0
    · refine ⟨"begin", by simp, _, h0, ?_⟩
      rcases env.optionString "begin" with _ | t <;> simp
    rcases h1 : env.parseTime ((env.optionString "end").getD "2500-01-01T00:00:00Z") with _ | t1
    · refine ⟨"end", by simp, _, h1, ?_⟩
      rcases env.optionString "end" with _ | t <;> simp
    rcases h2 : env.optionString "modified-after" with _ | t
    · simp [h0, h1, parseModified, h2] at h
    · rcases h3 : env.parseTime t with _ | m
      · exact ⟨"modified-after", by simp, t, h3, .inl h2⟩
      · simp [h0, h1, parseModified, h2, h3] at h

/-! ### A concrete case -/

namespace Alps

/-- nothing is asked for but the interval -/
def all : Options := ⟨0, 10, none, none, "preferred", false, false, false, none, none, none, none, none, none, none, none, none⟩

/-- two origins of the first event, the second of them with more phases, and one of the second event -/
def o1 : Origin := ⟨"o1", some .automatic, none, some 1, none, some "SED", some "me", none, some (1/2), some 8, 46, 7, some 5, 1⟩
def o2 : Origin := ⟨"o2", some .manual, some "confirmed", some 2, none, some "SED", some "me", none, some 1, some 12, 46, 8, some 6, 1⟩
def o3 : Origin := ⟨"o3", some .manual, some "reviewed", some 3, none, some "SED", some "you", none, none, some 20, 47, 9, none, 5⟩

def db : Database where
  getEvents _ _ := [⟨"e1", "o1", some "earthquake", none⟩, ⟨"e2", "o3", none, some 4⟩]
  getObject id := [o1, o2, o3].find? (·.id == id)
  getOrigins id := if id = "e1" then [o1, o2] else if id = "e2" then [o3] else []

/-- the hypotheses are met, with an area, and the origin with the most phases is found for the first event -/
example : let o := { all with orgType := "maxPhases", area := some ⟨45, 6, 48, 10⟩, exclAuthor := some ["you"] }
    (∀ ev ∈ db.getEvents o.startTime o.endTime, ∀ x ∈ sources db o ev, Longitudes o x) ∧
    Answer id o (sources db o ⟨"e1", "o1", some "earthquake", none⟩) (some o2) := by
  have hL : ∀ ev ∈ db.getEvents 0 10, ∀ x ∈ sources db { all with orgType := "maxPhases", area := some ⟨45, 6, 48, 10⟩, exclAuthor := some ["you"] } ev,
      Longitudes { all with orgType := "maxPhases", area := some ⟨45, 6, 48, 10⟩, exclAuthor := some ["you"] } x := by
    intro ev hev x hx a ha
    simp only [Option.some.injEq] at ha
    subst ha
    have hx' : x ∈ [o1, o2, o3] := by
      simp only [db, List.mem_cons, List.not_mem_nil, or_false] at hev
      rcases hev with rfl | rfl <;> simp [sources, db] at hx <;> simp [hx]
      rcases hx with rfl | rfl <;> simp
    fin_cases hx' <;> norm_num [o1, o2, o3]
  refine ⟨hL, ?_⟩
  exact findOrigin_answer (fun x hx => hL _ (by simp [db]) x hx) (by decide +kernel)

/-- the hypothesis of `listing_ends_partial` is met when the last origins are asked for -/
example : let o := { all with orgType := "last" }
    ∀ ev ∈ db.getEvents o.startTime o.endTime, ∀ x ∈ sources db o ev, Complete o x := by
  intro o ev hev x hx
  refine ⟨by simp [o, all], fun _ => ?_⟩
  simp only [db, List.mem_cons, List.not_mem_nil, or_false] at hev
  rcases hev with rfl | rfl <;> simp [sources, o, db] at hx
  · rcases hx with rfl | rfl <;> simp [o1, o2]
  · subst hx; simp [o3]

/-- **C128 is false of the listing**: an origin without depth ends the listing when there is an area, although the next event has an origin
that is wanted. -/
theorem missing_depth_ends_listing (s : Show) : ∃ (db : Database) (o : Options) (ev : Event) (org : Origin),
    ev ∈ db.getEvents o.startTime o.endTime ∧ EventWanted o ev ∧ Answer id o (sources db o ev) (some org) ∧
    run id s db o = (header ++ ['\n'], false) := by
  refine ⟨{ db with getEvents := fun _ _ => [⟨"e2", "o3", none, some 4⟩, ⟨"e1", "o1", some "earthquake", none⟩] },
    { all with area := some ⟨45, 6, 48, 10⟩ }, ⟨"e1", "o1", some "earthquake", none⟩, o1, by simp, ⟨by simp [all], by simp [all]⟩, ?_, ?_⟩
  · refine findOrigin_answer (fun x hx a ha => ?_) (by decide +kernel)
    simp only [Option.some.injEq] at ha
    subst ha
    simp [sources, db, all, o1] at hx
    subst hx
    norm_num
  · have h : listed id { db with getEvents := fun _ _ => [⟨"e2", "o3", none, some 4⟩, ⟨"e1", "o1", some "earthquake", none⟩] }
        { all with area := some ⟨45, 6, 48, 10⟩ } (events { db with getEvents := fun _ _ => [⟨"e2", "o3", none, some 4⟩, ⟨"e1", "o1", some "earthquake", none⟩] }
          { all with area := some ⟨45, 6, 48, 10⟩ }) = ([], false) := by decide +kernel
    unfold run
    dsimp only
    rw [h]
    simp [all]

/-- **C128 is false of the listing**: so does an origin without a time of creation when the last or the first origins are asked for, even
if it is not wanted. -/
theorem missing_creation_time_ends_listing : ∃ (l : List Origin) (o : Options) (org : Origin), o.orgType = "last" ∧
    Answer id o l (some org) ∧ (∀ x ∈ l, x.creationTime = none → ¬ Wanted id o x) ∧
    ∀ (db : Database) (ev : Event), db.getOrigins ev.id = l → findOrigin id db o ev = .throws := by
  refine ⟨[o1, { o2 with creationTime := none, author := some "you" }], { all with orgType := "last", exclAuthor := some ["you"] }, o1, rfl, ?_, ?_, ?_⟩
  · refine ⟨[], [{ o2 with creationTime := none, author := some "you" }], rfl, ⟨?_, by simp⟩, by simp, ?_⟩
    · simp [Wanted, Among, all, o1]
    · intro x hx hc
      rw [List.mem_singleton.1 hx] at hc
      have := hc.1.2.2.2.1.2 ["you"] rfl "you" (by simp)
      exact absurd rfl this
  · intro x hx h
    simp only [List.mem_cons, List.not_mem_nil, or_false] at hx
    rcases hx with rfl | rfl
    · simp [o1] at h
    · intro hc
      have := hc.2.2.2.1.2 ["you"] rfl "you" (by simp)
      exact absurd rfl this
  · intro db ev h
    unfold findOrigin origins
    rw [if_neg (by decide), h]
    decide +kernel

/-- **C128 is false of the area**: a text that has not four numbers is taken for no area at all, so that origins from anywhere are listed. -/
theorem bad_area_ignored (env : Env) (h : env.optionString "area" = some "45,6,48") (o : Options) (ho : init env = some o) : o.area = none := by
  unfold init at ho
  simp only [Option.bind_eq_bind, Option.bind_eq_some_iff, Option.some.injEq] at ho
  obtain ⟨_, -, _, -, _, -, rfl⟩ := ho
  show parseArea env = none
  unfold parseArea
  rw [h]
  have : split "45,6,48" = ["45", "6", "48"] := by decide +kernel
  simp [this]

/-- **C128 is false of the kind of origin**: a misspelt kind is no error, and gives another origin than the preferred one. -/
theorem misspelt_kind_accepted :
    (∀ env : Env, env.optionString "org-type" = some "prefered" → ∀ o, init env = some o → o.orgType = "prefered") ∧
    findOrigin id db { all with orgType := "prefered" } ⟨"e1", "o1", some "earthquake", none⟩ = .ok (some o2) ∧
    findOrigin id db all ⟨"e1", "o1", some "earthquake", none⟩ = .ok (some o1) := by
  refine ⟨fun env h o ho => ?_, by decide +kernel, by decide +kernel⟩
  rw [((options_are_read env).1 o ho).2.2.2.2.1, h]
  rfl

/-- **C128 is false on the date line**, as C53: an origin at longitude 180 is not listed for an area that starts at -180. -/
theorem date_line_origin_not_listed : ∃ (o : Options) (org : Origin), Candidate id o org ∧
    ∀ db : Database, ∀ ev : Event, sources db o ev = [org] → findOrigin id db o ev = .ok none := by
  refine ⟨{ all with orgType := "last", area := some ⟨40, -180, 50, -170⟩ }, { o1 with longitude := 180 }, ⟨?_, by simp⟩, ?_⟩
  · have := rect_region_misses_date_line.2
    simp [Wanted, Among, all, o1]
    exact ⟨by norm_num, by norm_num, this⟩
  · intro db ev h
    have h' : origins db { all with orgType := "last", area := some ⟨40, -180, 50, -170⟩ } ev = [{ o1 with longitude := 180 }] := h
    unfold findOrigin
    rw [h']
    decide +kernel

end Alps

/-! ## C129 -/

section
open Verif.Csv

theorem done_head (t : Str) (st : CSVState) (d : Str) (ds : List Str) (cur : Str) :
    ∃ st' ds' cur', t.foldl Parser.step ⟨st, d :: ds, cur⟩ = ⟨st', d :: ds', cur'⟩ := by
  induction t generalizing st ds cur with
  | nil => exact ⟨st, ds, cur, rfl⟩
  | cons c t ih =>
    rw [List.foldl_cons]
    unfold Parser.step
    rcases st <;> dsimp only <;> split_ifs <;> exact ih ..

theorem readRow_first {f rest : Str} (h : ∀ c ∈ f, c ≠ ',' ∧ c ≠ '"') : (readRow (f ++ ',' :: rest)).getD 0 [] = f := by
  unfold readRow Parser.init
  rw [List.foldl_append, foldl_bare h, List.foldl_cons]
  have : Parser.step ⟨.unquotedField, [], [] ++ f⟩ ',' = ⟨.unquotedField, [f], []⟩ := by simp [Parser.step]
  rw [this]
  obtain ⟨st, ds, cur, e⟩ := done_head rest .unquotedField f [] []
  rw [e]
  rfl

theorem stripCr_first (f rest : Str) : ∃ rest', stripCr (f ++ ',' :: rest) = f ++ ',' :: rest' := by
  unfold stripCr
  split_ifs with h
  · rcases List.eq_nil_or_concat rest with rfl | ⟨r, c, rfl⟩
    · simp at h
    · refine ⟨r, ?_⟩
      rw [show f ++ ',' :: (r.concat c) = (f ++ ',' :: r) ++ [c] by simp, List.dropLast_concat]
  · exact ⟨rest, rfl⟩

theorem lines_rows : ∀ rows : List Str, (∀ r ∈ rows, '\n' ∉ r) → Csv.lines (rows.flatMap (· ++ ['\n'])) = rows
  | [], _ => rfl
  | r :: rows, h => by
    have : (r :: rows).flatMap (· ++ ['\n']) = r ++ '\n' :: rows.flatMap (· ++ ['\n']) := by simp
    have ih := lines_rows rows (fun x hx => h x (.tail _ hx))
    unfold Csv.lines at ih ⊢
    rw [this, linesAux_append (h r (.head _)), ih]
    rfl

theorem not_mem_commas : ∀ {fs : List Str} {c : Char}, c ≠ ',' → (∀ f ∈ fs, c ∉ f) → c ∉ commas fs
  | [], _, _, _ => by simp [commas]
  | [f], _, _, h => by simpa [commas] using h
  | f :: g :: fs, c, hc, h => by
    have ih := not_mem_commas (fs := g :: fs) hc (fun x hx => h x (.tail _ hx))
    simp only [commas, List.mem_append, List.mem_cons, not_or]
    exact ⟨h f (.head _), hc, ih⟩

end

/-- **C129** The first line names the columns, and each other line has under each name what the name says. -/
theorem columns_are_named : ∃ names : List String, names.Nodup ∧ names.length = 16 ∧
    header = commas (names.map String.toList) ∧
    ∀ (s : Show) (o : Options) (x : Event × Origin), o.simple = false →
      line s o x = commas (names.map (ListOrgSpec.cell s x.1 x.2)) ++ ['\n'] := by
  refine ⟨["origin", "event", "eventType", "evalMode", "evalStat", "agencyID", "author", "methodID",
      "RMS", "numPhases", "latitude", "longitude", "depth", "time", "creationTime", "modificationTime"], by decide +kernel, rfl,
      by decide +kernel, fun s o x ho => ?_⟩
  have hs : ∀ t : Option String, str t = (t.getD "None").toList := by rintro (_ | t) <;> rfl
  simp only [line, ho, Bool.false_eq_true, if_false, fields, List.map_cons, List.map_nil, ListOrgSpec.cell, hs]
  rcases x.2.evalMode with _ | (_ | _) <;> simp

/-- the header and a line -/
example : commas [['a'], ['b', 'c']] = "a,bc".toList := by decide

/-- **C129** (partial) `scrtdd` reads the list as the origins listed, in the same order, whatever is in the other columns except for line breaks.
Missing: the simple list, for which this is false. -/
theorem list_is_read_back_partial (lower : String → String) (s : Show) (db : Database) (o : Options) (hs : o.simple = false)
    (hid : ∀ x ∈ (listed lower db o (events db o)).1, ∀ c ∈ x.2.id.toList, c ≠ ',' ∧ c ≠ '"')
    (hnl : ∀ x ∈ (listed lower db o (events db o)).1, ∀ f ∈ fields s x.1 x.2, '\n' ∉ f)
    (src : SeisComP.DataSource) (inv : SeisComP.Inventory) (u : Catalog.Event SeisComP.Num) (v : Catalog.Phase SeisComP.Num)
    (st : Catalog.Catalog SeisComP.Num × AMap Nat SeisComP.Origin) :
    SeisComP.addIdFile src inv u v (some (run lower s db o).1) st =
      SeisComP.addIds src inv u v ((listed lower db o (events db o)).1.map (·.2.id)) st := by
  generalize hl : (listed lower db o (events db o)).1 = l at *
  have htext : (run lower s db o).1 = (header :: l.map (fun x => commas (fields s x.1 x.2))).flatMap (· ++ ['\n']) := by
    unfold run
    dsimp only
    rw [hl, hs]
    simp only [Bool.false_eq_true, if_false, List.flatMap_cons, List.flatMap_map]
    congr 1
    apply List.flatMap_congr
    intro x _
    simp [line, hs]
  have hlines := lines_rows (header :: l.map (fun x => commas (fields s x.1 x.2))) (by
    intro r hr
    rcases List.mem_cons.1 hr with h | hr
    · rw [h]; decide +kernel
    · obtain ⟨x, hx, rfl⟩ := List.mem_map.1 hr
      exact not_mem_commas (by decide) (hnl x hx))
  rw [← htext] at hlines
  have hhead : Csv.readRow (Csv.stripCr header) = ["origin", "event", "eventType", "evalMode", "evalStat", "agencyID", "author", "methodID",
      "RMS", "numPhases", "latitude", "longitude", "depth", "time", "creationTime", "modificationTime"].map String.toList := by decide +kernel
  have hrows : Csv.readWithHeader (run lower s db o).1 = .ok (Csv.format (Csv.readRow (Csv.stripCr header))
      (l.map (fun x => Csv.readRow (Csv.stripCr (commas (fields s x.1 x.2)))))) := by
    unfold Csv.readWithHeader Csv.read
    rw [hlines]
    simp [List.map_map, Function.comp_def]
  have hids : ∀ l' : List (Event × Origin), (∀ x ∈ l', ∀ c ∈ x.2.id.toList, c ≠ ',' ∧ c ≠ '"') →
      SeisComP.idsOf (Csv.format (Csv.readRow (Csv.stripCr header))
        (l'.map (fun x => Csv.readRow (Csv.stripCr (commas (fields s x.1 x.2)))))) = .ok (l'.map (·.2.id)) := by
    intro l' h'
    induction l' with
    | nil => rfl
    | cons x l' ih =>
      have hmap := (Csv.csv_header_mapping (Csv.readRow (Csv.stripCr header)) (by rw [hhead]; decide +kernel)
        [Csv.readRow (Csv.stripCr (commas (fields s x.1 x.2)))]).2 0 _ rfl
      obtain ⟨m, hm, hm1, -⟩ := hmap
      have hm' : m = Csv.formatRow (Csv.readRow (Csv.stripCr header)) (Csv.readRow (Csv.stripCr (commas (fields s x.1 x.2)))) := by
        simpa [Csv.format] using hm.symm
      have hfirst : (Csv.readRow (Csv.stripCr (commas (fields s x.1 x.2)))).getD 0 [] = x.2.id.toList := by
        have : ∃ rest, commas (fields s x.1 x.2) = x.2.id.toList ++ ',' :: rest := by
          exact ⟨commas (fields s x.1 x.2).tail, by simp [fields, commas]⟩
        obtain ⟨rest, e⟩ := this
        obtain ⟨rest', e'⟩ := stripCr_first x.2.id.toList rest
        rw [e, e']
        exact readRow_first (h' x (.head _))
      have h0 := hm1 0 "origin".toList (by rw [hhead]; simp)
      rw [hfirst, hm'] at h0
      have ih' := ih (fun y hy => h' y (.tail _ hy))
      simp only [Csv.format, List.map_cons] at ih' ⊢
      unfold SeisComP.idsOf
      rw [h0]
      dsimp only
      rw [ih']
      simp
  unfold SeisComP.addIdFile
  dsimp only
  rw [hrows, Outcome.bind_ok, hids l hid, Outcome.bind_ok]

/-- **C129 is false of the simple list**: it has no header, so that the first origin is taken for one.  Nothing is read from a list of one
origin, `scrtdd` gives up on a list of more (if the first is not called `origin`), and an empty list is undefined behaviour. -/
theorem simple_list_not_read (lower : String → String) (s : Show) (db : Database) (o : Options) (hs : o.simple = true)
    (hid : ∀ x ∈ (listed lower db o (events db o)).1, x.2.id ≠ "origin" ∧ ∀ c ∈ x.2.id.toList, c ≠ ',' ∧ c ≠ '"' ∧ c ≠ '\n' ∧ c ≠ '\r')
    (src : SeisComP.DataSource) (inv : SeisComP.Inventory) (u : Catalog.Event SeisComP.Num) (v : Catalog.Phase SeisComP.Num)
    (st : Catalog.Catalog SeisComP.Num × AMap Nat SeisComP.Origin) :
    SeisComP.addIdFile src inv u v (some (run lower s db o).1) st =
      match (listed lower db o (events db o)).1 with
      | [] => .ub
      | [_] => .ok st
      | _ => .throws := by
  generalize hl : (listed lower db o (events db o)).1 = l at *
  have htext : (run lower s db o).1 = (l.map (fun x => x.2.id.toList)).flatMap (· ++ ['\n']) := by
    unfold run
    dsimp only
    rw [hl, hs]
    simp only [if_true, List.nil_append, List.flatMap_map]
    apply List.flatMap_congr
    intro x _
    simp [line, hs]
  have hlines := lines_rows (l.map (fun x => x.2.id.toList)) (by
    intro r hr hn
    obtain ⟨x, hx, rfl⟩ := List.mem_map.1 hr
    exact ((hid x hx).2 _ hn).2.2.1 rfl)
  rw [← htext] at hlines
  have hread : ∀ x ∈ l, Csv.readRow (Csv.stripCr x.2.id.toList) = [x.2.id.toList] := by
    intro x hx
    rw [Csv.stripCr_of_not_mem (fun hn => ((hid x hx).2 _ hn).2.2.2 rfl)]
    unfold Csv.readRow Csv.Parser.init
    rw [Csv.foldl_bare (fun c hc => ⟨((hid x hx).2 c hc).1, ((hid x hx).2 c hc).2.1⟩)]
    rfl
  unfold SeisComP.addIdFile Csv.readWithHeader Csv.read
  dsimp only
  rw [hlines]
  rcases l with _ | ⟨x, _ | ⟨y, l⟩⟩
  · rfl
  · rfl
  · simp only [List.map_cons, hread x (.head _), Outcome.bind_ok, Csv.format]
    have hne : (Csv.formatRow [x.2.id.toList] (Csv.readRow (Csv.stripCr y.2.id.toList))).find? "origin".toList = none := by
      have hmap := (Csv.csv_header_mapping [x.2.id.toList] (by simp) [Csv.readRow (Csv.stripCr y.2.id.toList)]).2 0 _ rfl
      obtain ⟨m, hm, -, hm2⟩ := hmap
      have hm' : m = Csv.formatRow [x.2.id.toList] (Csv.readRow (Csv.stripCr y.2.id.toList)) := by
        simpa [Csv.format] using hm.symm
      rw [← hm']
      apply hm2
      intro h
      exact (hid x (.head _)).1 (String.toList_injective (List.mem_singleton.1 h).symm)
    unfold SeisComP.idsOf
    rw [hne]
    rfl

/-- both theorems apply to the database of the example: two origins are listed -/
example (s : Show) (hnum : ∀ x, '\n' ∉ s.num x) (hc : ∀ x, '\n' ∉ s.count x) (ht : ∀ x, '\n' ∉ s.time x) :
    let l := (listed id Alps.db Alps.all (events Alps.db Alps.all)).1
    l.map (·.2.id) = ["o1", "o3"] ∧ (∀ x ∈ l, x.2.id ≠ "origin" ∧ ∀ c ∈ x.2.id.toList, c ≠ ',' ∧ c ≠ '"' ∧ c ≠ '\n' ∧ c ≠ '\r') ∧
    ∀ x ∈ l, ∀ f ∈ fields s x.1 x.2, '\n' ∉ f := by
  have h : (listed id Alps.db Alps.all (events Alps.db Alps.all)).1 =
      [(⟨"e1", "o1", some "earthquake", none⟩, Alps.o1), (⟨"e2", "o3", none, some 4⟩, Alps.o3)] := by decide +kernel
  intro l
  have hl : l = _ := h
  rw [hl]
  refine ⟨rfl, by decide +kernel, ?_⟩
  intro x hx f hf
  fin_cases hx <;> simp [fields, Alps.o1, Alps.o3, Origin.place, str] at hf <;>
    rcases hf with rfl | rfl | rfl | rfl | rfl | rfl | rfl | rfl | rfl | rfl | rfl | rfl | rfl | rfl | rfl | rfl <;>
    first | exact hnum _ | exact hc _ | exact ht _ | decide

end Verif.ListOrgSpec
