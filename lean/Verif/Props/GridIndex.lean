import Verif.Proofs.GridIndex
import Verif.Props.GridHeader

/-! C86: the grids found in a directory, and the constructors of the transforms in a header. -/

set_option linter.unusedSectionVars false
set_option linter.unusedSimpArgs false

namespace Verif.GridHeader
open Verif.Csv Verif.Decimal

variable {rnd : ℚ → ℚ} {swap : Bool} {model : Str} {text : Str → Str} {ex : Str → Bool}

theorem listed_some {sel : Str → Bool} {f : Str → Outcome Point} {n : Str} {pt : Point} :
    listed sel f n = some pt ↔ sel n = true ∧ f n = .ok pt := by
  unfold listed
  cases sel n <;> cases f n <;> simp

theorem open_ok {method : String} {files : List Str} {ix : Index} (h : open_ rnd swap method model text ex files = .ok ix) :
    search rnd swap model text ex {} files = .ok ix := by
  unfold open_ at h
  split at h
  · exact h
  · cases h

/-- **C86**: the time grids of a phase are the files named after the velocity model and the phase whose header describes
a time grid with a transform other than the global one and whose data file exists. -/
theorem time_grids_found (method : String) (files : List Str) (ix : Index)
    (h : open_ rnd swap method model text ex files = .ok ix) (p : Bool) (pt : Point) :
    pt ∈ ix.time p ↔ pt.file ∈ files ∧ FileName model p ".time.hdr" pt.file ∧
      HeaderOf rnd .time swap (text pt.file) pt.header ∧ ex (pt.file.take (pt.file.length - 4) ++ ".buf".toList) = true ∧
      (pt.header.dims.type = "TIME".toList ∨ pt.header.dims.type = "TIME2D".toList) ∧
      pt.header.transform = some pt.transform ∧ pt.transform ≠ .global ∧ pt.header.src = some pt.src := by
  have e := (search_lists (open_ok h)).1 p
  rw [e]
  simp only [List.nil_append, List.mem_filterMap, listed_some, decide_eq_true_eq, role_time, timePoint, point_ok, timeGrid_ok, bufOf]
  constructor
  · rintro ⟨n, hn, hf, ⟨hp, hb, ht⟩, rfl, h1, h2, h3⟩
    exact ⟨hn, hf, (header_accepted_iff _ _ _).1 ⟨hp, .inr (by rw [h3]; simp)⟩, hb, ht, h1, h2, h3⟩
  · rintro ⟨hn, hf, hh, hb, ht, h1, h2, h3⟩
    exact ⟨_, hn, hf, ⟨((header_accepted_iff _ _ _).2 hh).1, hb, ht⟩, rfl, h1, h2, h3⟩

/-- **C86**: the angle grids of a phase, likewise; they hold four-byte values. -/
theorem angle_grids_found (method : String) (files : List Str) (ix : Index)
    (h : open_ rnd swap method model text ex files = .ok ix) (p : Bool) (pt : Point) :
    pt ∈ ix.angle p ↔ pt.file ∈ files ∧ FileName model p ".angle.hdr" pt.file ∧
      HeaderOf rnd .angle swap (text pt.file) pt.header ∧ ex (pt.file.take (pt.file.length - 4) ++ ".buf".toList) = true ∧
      (pt.header.dims.type = "ANGLE".toList ∨ pt.header.dims.type = "ANGLE2D".toList) ∧ pt.header.dims.useDouble = false ∧
      pt.header.transform = some pt.transform ∧ pt.transform ≠ .global ∧ pt.header.src = some pt.src := by
  have e := (search_lists (open_ok h)).2 p
  rw [e]
  simp only [List.nil_append, List.mem_filterMap, listed_some, decide_eq_true_eq, role_angle, anglePoint, point_ok, angleGrid_ok, bufOf]
  constructor
  · rintro ⟨n, hn, hf, ⟨hp, hb, ht, hu⟩, rfl, h1, h2, h3⟩
    exact ⟨hn, hf, (header_accepted_iff _ _ _).1 ⟨hp, .inr (by rw [h3]; simp)⟩, hb, ht, hu, h1, h2, h3⟩
  · rintro ⟨hn, hf, hh, hb, ht, hu, h1, h2, h3⟩
    exact ⟨_, hn, hf, ⟨((header_accepted_iff _ _ _).2 hh).1, hb, ht, hu⟩, rfl, h1, h2, h3⟩

/-- **C86**: the velocity grid of a phase is the file of the velocity model, if its header describes a velocity grid of at
least two columns, of a known type, and its data file exists. -/
theorem velocity_grid_found (method : String) (files : List Str) (ix : Index)
    (h : open_ rnd swap method model text ex files = .ok ix) (p : Bool) (name : Str) (hd : Header) :
    ix.vel p = some (name, hd) ↔ name ∈ files ∧ name = model ++ (if p then ".P.mod.hdr" else ".S.mod.hdr").toList ∧
      HeaderOf rnd .velocity swap (text name) hd ∧ ex (name.take (name.length - 4) ++ ".buf".toList) = true ∧
      2 ≤ hd.dims.numx ∧ ∃ v ∈ ["VELOCITY_METERS", "SLOWNESS", "SLOW_LEN", "VEL2", "SLOW2", "SLOW2_METERS", "VELOCITY"],
        hd.dims.type = v.toList := by
  rw [search_vel (open_ok h)]
  simp only [velOf, velGrid_ok, Prod.mk.injEq, reduceCtorEq, false_and, or_false]
  constructor
  · rintro ⟨n, g, hn, hm, ⟨hp, hb, h2, hv⟩, rfl, rfl⟩
    exact ⟨hn, hm, (header_accepted_iff _ _ _).1 ⟨hp, .inl rfl⟩, hb, h2, hv⟩
  · rintro ⟨hn, hm, hh, hb, h2, hv⟩
    exact ⟨_, _, hn, hm, ⟨((header_accepted_iff _ _ _).2 hh).1, hb, h2, hv⟩, rfl, rfl⟩

/-- **C86**: the order in which the directory is read does not matter: the same grids are found. -/
theorem search_order (method : String) (files files' : List Str) (hf : files.Perm files') (ix ix' : Index)
    (h : open_ rnd swap method model text ex files = .ok ix) (h' : open_ rnd swap method model text ex files' = .ok ix') (p : Bool) :
    (ix.time p).Perm (ix'.time p) ∧ (ix.angle p).Perm (ix'.angle p) ∧ ix.vel p = ix'.vel p := by
  obtain ⟨a1, a2⟩ := search_lists (open_ok h)
  obtain ⟨b1, b2⟩ := search_lists (open_ok h')
  refine ⟨?_, ?_, ?_⟩
  · rw [a1, b1]; exact (hf.filterMap _)
  · rw [a2, b2]; exact (hf.filterMap _)
  · apply Option.ext
    rintro ⟨n, g⟩
    rw [velocity_grid_found _ _ _ h, velocity_grid_found _ _ _ h', hf.mem_iff]

theorem visit_defined {ix : Index} {n : Str} (h : transLines ((lines (text n)).map words) ≤ 1) :
    ∃ ix', visit rnd swap model text ex ix n = .ok ix' := by
  have key : ∀ {A : Type} {g : Outcome A} (use : A → Index), g ≠ .ub → ∃ ix', attempt g use ix = .ok ix' := by
    intro A g use hg
    cases g with
    | ub => exact absurd rfl hg
    | ok a => exact ⟨_, rfl⟩
    | throws => exact ⟨_, rfl⟩
  unfold visit
  simp only
  cases hr : role model n with
  | none => exact ⟨_, rfl⟩
  | some x =>
    cases x with
    | time p =>
      refine key _ (point_ne_ub (bind_ne_ub (grid_ne_ub _ h) (fun g => ite_ne_ub (by simp) (by simp))) (fun x hx => ?_))
      obtain ⟨hp, -, -⟩ := timeGrid_ok.1 hx
      obtain ⟨p, ht, -⟩ := accepted_header_has_transform _ _ _ hp
      exact ⟨by rw [ht]; simp, (parse_defined h).2 _ hp (by simp)⟩
    | angle p =>
      refine key _ (point_ne_ub (bind_ne_ub (grid_ne_ub _ h) (fun g => ite_ne_ub (by simp) (ite_ne_ub (by simp) (by simp)))) (fun x hx => ?_))
      obtain ⟨hp, -, -⟩ := angleGrid_ok.1 hx
      obtain ⟨p, ht, -⟩ := accepted_header_has_transform _ _ _ hp
      exact ⟨by rw [ht]; simp, (parse_defined h).2 _ hp (by simp)⟩
    | model p => exact key _ (bind_ne_ub (grid_ne_ub _ h) (fun g => ite_ne_ub (by simp) (ite_ne_ub (by simp) (by simp))))

/-- **C86**: with a known access method and headers of at most one transform line each, the directory is always searched
to the end: a file that is not a grid only goes missing itself. -/
theorem search_completes_partial (method : String) (hm : method = "LoadIntoMemory" ∨ method = "MemoryMapping" ∨ method = "KeepOpen")
    (files : List Str) (h1 : ∀ f ∈ files, transLines ((lines (text f)).map words) ≤ 1) :
    ∃ ix, open_ rnd swap method model text ex files = .ok ix := by
  have hm' : method ∈ accessMethods := by rcases hm with rfl | rfl | rfl <;> decide
  unfold open_
  rw [if_pos hm']
  generalize ({} : Index) = ix
  induction files generalizing ix with
  | nil => exact ⟨ix, rfl⟩
  | cons f fs ih =>
    obtain ⟨m, hv⟩ := visit_defined (rnd := rnd) (swap := swap) (model := model) (ex := ex) (ix := ix) (h1 f (by simp))
    obtain ⟨ix', hs⟩ := ih (fun f hf => h1 f (by simp [hf])) m
    exact ⟨ix', by rw [search, hv]; exact hs⟩

/-- **C86**: an unknown access method is refused. -/
theorem access_method_checked (method : String) (files : List Str)
    (hm : ¬(method = "LoadIntoMemory" ∨ method = "MemoryMapping" ∨ method = "KeepOpen")) :
    open_ rnd swap method model text ex files = .throws := by
  unfold open_
  rw [if_neg (by simpa [accessMethods] using hm)]

/-- One header with two transform lines and no station makes the whole search undefined. -/
theorem search_undefined :
    open_ id false "KeepOpen" "m".toList
      (fun _ => "1 3 2 0 0 -1 1 1 1 TIME2D\nTRANS SIMPLE LatOrig 46 LongOrig 8 RotCW 0\nTRANS SIMPLE LatOrig 46 LongOrig 8 RotCW 0\n".toList)
      (fun _ => true) ["m.P.STA.time.hdr".toList] = .ub := by
  have : visit id false "m".toList
      (fun _ => "1 3 2 0 0 -1 1 1 1 TIME2D\nTRANS SIMPLE LatOrig 46 LongOrig 8 RotCW 0\nTRANS SIMPLE LatOrig 46 LongOrig 8 RotCW 0\n".toList)
      (fun _ => true) {} "m.P.STA.time.hdr".toList = .ub := by
    unfold visit
    have hr : role "m".toList "m.P.STA.time.hdr".toList = some (.time true) := by decide +kernel
    simp only [hr]
    have hp : point "m.P.STA.time.hdr".toList (timeGrid id false
        "1 3 2 0 0 -1 1 1 1 TIME2D\nTRANS SIMPLE LatOrig 46 LongOrig 8 RotCW 0\nTRANS SIMPLE LatOrig 46 LongOrig 8 RotCW 0\n".toList true) =
        .ub := by decide +kernel
    rw [hp]
    rfl
  unfold open_
  rw [if_pos (by decide), search, this]
  rfl

/-! ## The transforms of a header -/

/-- the names of the reference ellipsoids are those of the projections -/
theorem ellipsoidNames_eq : ellipsoidNames = Geo.ellipsoids.map (·.1) := by
  simp [ellipsoidNames, Geo.ellipsoids]

theorem within_real {k q : ℚ} : Within k (.num q) ↔ |(q : ℝ)| ≤ (k : ℝ) := by
  unfold Within
  constructor
  · rintro (h | ⟨q', h, hk⟩)
    · cases h
    · cases h
      exact_mod_cast hk
  · intro h
    exact .inr ⟨q, rfl, by exact_mod_cast h⟩

theorem known_real {e : Str} : KnownEllipsoid e ↔ String.ofList e ∈ Geo.ellipsoids.map (·.1) := by
  rw [← ellipsoidNames_eq]
  unfold KnownEllipsoid
  constructor
  · rintro ⟨n, hn, rfl⟩
    simpa using hn
  · intro h
    exact ⟨_, h, by simp⟩

/-- **C85**: with finite numbers the transform of a line is accepted exactly if the transform itself can be constructed with
these arguments. -/
theorem accepted_transform_constructed (e : Str) (lat lon rot pha phb k : ℚ) (use : Bool) (fe : Int) :
    ((∃ p, construct (.simple (.num lat) (.num lon) (.num rot)) = .ok p) ↔ ∃ f, Geo.Frame.make lat lon rot = .ok f) ∧
    ((∃ p, construct (.sdc (.num lat) (.num lon) (.num rot)) = .ok p) ↔ ∃ f, Geo.Frame.make lat lon rot = .ok f) ∧
    ((∃ p, construct (.lambert e (.num lat) (.num lon) (.num rot) (.num pha) (.num phb)) = .ok p) ↔
      ∃ tr, Geo.lambertMake (String.ofList e) lat lon rot pha phb = .ok tr) ∧
    ((∃ p, construct (.transMerc e (.num lat) (.num lon) (.num rot) use fe (.num k)) = .ok p) ↔
      ∃ tr, Geo.transMercMake (String.ofList e) lat lon rot use fe k = .ok tr) ∧
    ((∃ p, construct (.aziEqdist e (.num lat) (.num lon) (.num rot)) = .ok p) ↔
      ∃ tr, Geo.aziEqdistMake (String.ofList e) lat lon rot = .ok tr) := by
  obtain ⟨h1, h2, h3, h4⟩ := Geo.transform_arguments_checked (String.ofList e) lat lon rot pha phb use fe k
  rw [h1, h2, h3, h4, ← known_real]
  have e90 : ((90 : ℚ) : ℝ) = 90 := by norm_num
  have e180 : ((180 : ℚ) : ℝ) = 180 := by norm_num
  have e360 : ((360 : ℚ) : ℝ) = 360 := by norm_num
  simp only [construct_simple, construct_sdc, construct_lambert, construct_transMerc, construct_aziEqdist, within_real, e90, e180, e360]
  refine ⟨⟨?_, ?_⟩, ⟨?_, ?_⟩, ⟨?_, ?_⟩, ⟨?_, ?_⟩, ⟨?_, ?_⟩⟩
  · rintro ⟨_, a, b, c, _⟩; exact ⟨a, b, c⟩
  · rintro ⟨a, b, c⟩; exact ⟨_, a, b, c, rfl⟩
  · rintro ⟨_, a, b, c, _⟩; exact ⟨a, b, c⟩
  · rintro ⟨a, b, c⟩; exact ⟨_, a, b, c, rfl⟩
  · rintro ⟨_, a, b, c, d, f, g, _⟩; exact ⟨a, b, c, d, f, g⟩
  · rintro ⟨a, b, c, d, f, g⟩; exact ⟨_, a, b, c, d, f, g, rfl⟩
  · rintro ⟨_, a, b, c, d, _⟩; exact ⟨a, b, c, d⟩
  · rintro ⟨a, b, c, d⟩; exact ⟨_, a, b, c, d, rfl⟩
  · rintro ⟨_, a, b, c, d, _⟩; exact ⟨a, b, c, d⟩
  · rintro ⟨a, b, c, d⟩; exact ⟨_, a, b, c, d, rfl⟩

/-! ## A directory -/

/-- a directory with a good time grid, one of the global transform, one without data, a text file and a velocity model -/
def dirText (n : Str) : Str :=
  if n = "swiss.P.STA1.time.hdr".toList then
    "1 101 51 0 0 -3 1 1 1 TIME2D FLOAT\nSTA1 1.5 -2 0.25\nTRANSFORM SIMPLE LatOrig 46.5 LongOrig 8.25 RotCW 0\n".toList
  else if n = "swiss.P.GLOB.time.hdr".toList then
    "1 101 51 0 0 -3 1 1 1 TIME2D FLOAT\nGLOB 1.5 -2 0.25\nTRANSFORM GLOBAL\n".toList
  else if n = "swiss.P.NODATA.time.hdr".toList then
    "1 101 51 0 0 -3 1 1 1 TIME2D FLOAT\nNODATA 1.5 -2 0.25\nTRANSFORM SIMPLE LatOrig 46.5 LongOrig 8.25 RotCW 0\n".toList
  else if n = "swiss.S.mod.hdr".toList then "2 101 51 0 0 -3 1 1 1 SLOW_LEN FLOAT\nTRANSFORM NONE\n".toList
  else if n = "swiss.P.mod.hdr".toList then
    "2 101 51 0 0 -3 1 1 1 SLOW_LEN FLOAT\nTRANSFORM SIMPLE LatOrig 46.5 LongOrig 8.25 RotCW 0\n".toList
  else "some notes\n".toList

def dirFiles : List Str :=
  ["notes.txt", "swiss.P.GLOB.time.hdr", "swiss.P.NODATA.time.hdr", "swiss.P.STA1.time.hdr", "swiss.S.mod.hdr", "swiss.P.mod.hdr"].map String.toList

def dirExists (n : Str) : Bool := n ≠ "swiss.P.NODATA.time.buf".toList

/-- the search meets the hypotheses of the theorems -/
theorem dir_found : ∃ ix, open_ id false "MemoryMapping" "swiss".toList dirText dirExists dirFiles = .ok ix :=
  search_completes_partial _ (.inr (.inl rfl)) _ (by decide +kernel)

/-- what is found -/
example : ∀ ix, open_ id false "MemoryMapping" "swiss".toList dirText dirExists dirFiles = .ok ix →
    (ix.time true).map (·.file) = ["swiss.P.STA1.time.hdr".toList] ∧ (ix.time false) = [] ∧ ix.vel false = none ∧
    (ix.vel true).isSome = true := by
  intro ix h
  have e := search_lists (open_ok h)
  refine ⟨?_, ?_, ?_, ?_⟩
  · rw [e.1]; decide +kernel
  · rw [e.1]; decide +kernel
  · cases hv : ix.vel false with
    | none => rfl
    | some x =>
      obtain ⟨n, g⟩ := x
      obtain ⟨-, rfl, hh, -⟩ := (velocity_grid_found _ _ _ h false n g).1 hv
      have := ((header_accepted_iff _ _ _).2 hh).1
      rw [show parse id .velocity false (dirText ("swiss".toList ++ (if false = true then ".P.mod.hdr" else ".S.mod.hdr").toList)) = .throws by
        decide +kernel] at this
      cases this
  · have hp : parse id .velocity false (dirText "swiss.P.mod.hdr".toList) =
        .ok ⟨⟨2, 101, 51, .num 0, .num 0, .num (-3), .num 1, .num 1, .num 1, "SLOW_LEN".toList, false⟩, none,
          some (.simple (.num (93 / 2)) (.num (33 / 4)) (.num 0))⟩ := by decide +kernel
    have := (velocity_grid_found _ _ _ h true "swiss.P.mod.hdr".toList _).2
      ⟨by decide +kernel, by decide +kernel, (header_accepted_iff _ _ _).1 ⟨hp, .inl rfl⟩, by decide +kernel, by decide, "SLOW_LEN", by simp, rfl⟩
    rw [this]
    rfl

end Verif.GridHeader
