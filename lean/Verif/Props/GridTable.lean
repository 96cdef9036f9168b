import Verif.Proofs.GridTable

/-!
# C115: what the answers of a table of grids depend on
-/

set_option linter.unusedSectionVars false
set_option linter.unusedSimpArgs false

namespace Verif.GridTable
open Verif.Grid Verif.NllGrid Verif.GridSpec

variable {S G : Type} [DecidableEq S] [DecidableEq G]

/-- **C115**: the answer to a request, a time or a time with the direction of the ray, does not depend on what was asked
before, on how many grids may be open at a time nor on the access method: it is the one of a table just created. -/
theorem same_answer (T : Tables S G) (hp : PrintedApart T) (hfit : ∀ g, Fits (T.data g)) (n n' : Nat) (mode mode' : Mode)
    (m0 m0' : G → Mode) (hist : List (Request S)) (hh : ∀ r ∈ hist, r.All (Works T)) (r r' : Request S) (hs : Same r r')
    (hr : r.All (Works T)) (hr' : r'.All (Works T)) :
    (serve T (history T (init n mode m0) hist) r).2 = (serve T (init n' mode' m0') r').2 := by
  have h1 := history_inv (policy_works hfit mode) hp hfit hist hh
    (init_inv (Ch := For T) (w := True) n m0 (fun g => Or.inl ⟨_, rfl⟩))
  have h2 := (serve_right (policy_works hfit mode) hp hfit h1 r hr).2
  have h3 := (serve_right (policy_works hfit mode') hp hfit
    (init_inv (Ch := For T) (w := True) n' m0' (fun g => Or.inl ⟨_, rfl⟩)) r' hr').2
  have e : answer T r = answer T r' := by cases hs <;> rfl
  rcases h2 with h2 | ⟨h2, _⟩
  · rcases h3 with h3 | ⟨h3, _⟩
    · rw [h2, h3, e]
    · exact absurd trivial h3
  · exact absurd trivial h2

/-- **C115 (partial: not when the grids are loaded into memory)**: with grids that are mapped or kept open, a failure of the
operating system at any time only makes requests fail: every answer given is still the one of a table just created. -/
theorem failures_do_not_alter_partial (T : Tables S G) (hp : PrintedApart T) (hfit : ∀ g, Fits (T.data g)) (n n' : Nat)
    (mode mode' : Mode) (hm : mode ≠ .loadIntoMemory) (m0 m0' : G → Mode) (hist : List (Request S))
    (hh : ∀ r ∈ hist, r.All (MayFail T)) (r r' : Request S) (hs : Same r r') (hr : r.All (MayFail T)) (hr' : r'.All (Works T)) :
    (serve T (history T (init n mode m0) hist) r).2 = .throws ∨
    (serve T (history T (init n mode m0) hist) r).2 = (serve T (init n' mode' m0') r').2 := by
  have h1 := history_inv (policy_fails hfit mode hm) hp hfit hist hh
    (init_inv (Ch := For T) (w := False) n m0 (fun g => Or.inl ⟨_, rfl⟩))
  have h2 := (serve_right (policy_fails hfit mode hm) hp hfit h1 r hr).2
  have h3 := (serve_right (policy_works hfit mode') hp hfit
    (init_inv (Ch := For T) (w := True) n' m0' (fun g => Or.inl ⟨_, rfl⟩)) r' hr').2
  have e : answer T r = answer T r' := by cases hs <;> rfl
  rcases h2 with h2 | ⟨_, h2⟩
  · rcases h3 with h3 | ⟨h3, _⟩
    · right; rw [h2, h3, e]
    · exact absurd trivial h3
  · exact Or.inl h2

/-- **C115**: a station without a grid within the search distance is refused, whatever was asked before. -/
theorem no_grid_refused (T : Tables S G) (hp : PrintedApart T) (hfit : ∀ g, Fits (T.data g)) (n : Nat) (mode : Mode)
    (m0 : G → Mode) (hist : List (Request S)) (hh : ∀ r ∈ hist, r.All (Works T)) (phase : String) (ev sta : Place)
    (os : Key S → Answers) (ho : Works T os) (hno : inReach (T.time phase sta) = none) :
    (serve T (history T (init n mode m0) hist) (.time phase ev sta os)).2 = .throws ∧
    (serve T (history T (init n mode m0) hist) (.ray phase ev sta os)).2 = .throws := by
  have h1 := history_inv (policy_works hfit mode) hp hfit hist hh
    (init_inv (Ch := For T) (w := True) n m0 (fun g => Or.inl ⟨_, rfl⟩))
  have e : answerTime T phase ev sta = .throws := by unfold answerTime; rw [hno]
  constructor
  · rcases (serve_right (policy_works hfit mode) hp hfit h1 (.time phase ev sta os) ho).2 with h | ⟨h, _⟩
    · rw [h]; simp only [answer, e]; rfl
    · exact absurd trivial h
  · rcases (serve_right (policy_works hfit mode) hp hfit h1 (.ray phase ev sta os) ho).2 with h | ⟨h, _⟩
    · rw [h]; simp only [answer, answerRay, e]; rfl
    · exact absurd trivial h

/-- **C115**: the two forms of a request agree: the time in the answer with the direction of the ray is the time answered when
only the time is asked for, each after its own history. -/
theorem ray_has_the_time (T : Tables S G) (hp : PrintedApart T) (hfit : ∀ g, Fits (T.data g)) (n n' : Nat) (mode mode' : Mode)
    (m0 m0' : G → Mode) (hist hist' : List (Request S)) (hh : ∀ r ∈ hist, r.All (Works T)) (hh' : ∀ r ∈ hist', r.All (Works T))
    (phase : String) (ev sta : Place) (os os' : Key S → Answers) (ho : Works T os) (ho' : Works T os') (r : TravelTime.Ray)
    (h : (serve T (history T (init n mode m0) hist) (.ray phase ev sta os)).2 = .ok (.ray r)) :
    (serve T (history T (init n' mode' m0') hist') (.time phase ev sta os')).2 = .ok (.time r.travelTime) := by
  have h1 := history_inv (policy_works hfit mode) hp hfit hist hh
    (init_inv (Ch := For T) (w := True) n m0 (fun g => Or.inl ⟨_, rfl⟩))
  have h1' := history_inv (policy_works hfit mode') hp hfit hist' hh'
    (init_inv (Ch := For T) (w := True) n' m0' (fun g => Or.inl ⟨_, rfl⟩))
  rcases (serve_right (policy_works hfit mode) hp hfit h1 (.ray phase ev sta os) ho).2 with e | ⟨e, _⟩
  · rcases (serve_right (policy_works hfit mode') hp hfit h1' (.time phase ev sta os') ho').2 with e' | ⟨e', _⟩
    · rw [e'] ; rw [e] at h
      simp only [answer, answerRay] at h ⊢
      cases ht : answerTime T phase ev sta with
      | throws => rw [ht] at h; simp [Outcome.map] at h
      | ub => rw [ht] at h; simp [Outcome.map] at h
      | ok t =>
        rw [ht] at h
        cases hv : answerVel T phase ev with
        | throws => rw [hv] at h; simp [Outcome.map] at h
        | ub => rw [hv] at h; simp [Outcome.map] at h
        | ok v =>
          rw [hv] at h
          cases ha : answerAngles T phase ev sta with
          | throws => rw [ha] at h; simp [Outcome.map] at h
          | ub => rw [ha] at h; simp [Outcome.map] at h
          | ok a =>
            rw [ha] at h
            simp only [Outcome.bind_ok, Outcome.pure_eq, Outcome.map, Outcome.ok.injEq, Answer.ray.injEq] at h ⊢
            rw [← h]
    · exact absurd trivial e'
  · exact absurd trivial e

/-- a grid written node by node: `enc` gives the bytes and `f` the values of the nodes -/
structure Written (d : GridData) (enc : Nat → Nat → Nat → List UInt8) (f : Nat → Nat → Nat → ℝ) : Prop where
  size : ∀ i j k, (enc i j k).length = if d.useDouble then 8 else 4
  file : ∃ rest, d.file = layout d.info.numx d.info.numy d.info.numz enc ++ rest
  value : ∀ i < d.info.numx, ∀ j < d.info.numy, ∀ k < d.info.numz,
    (if d.useDouble then d.double else d.float) (if d.info.swapBytes then (enc i j k).reverse else enc i j k) = f i j k ∧ 0 ≤ f i j k

theorem Written.node {d : GridData} {enc : Nat → Nat → Nat → List UInt8} {f : Nat → Nat → Nat → ℝ} (h : Written d enc f)
    (hfit : Fits d) : ∀ i < d.info.numx, ∀ j < d.info.numy, ∀ k < d.info.numz,
      node d (opened .mmap d.file) i j k = .ok (f i j k) ∧ 0 ≤ f i j k := by
  intro i hi j hj k hk
  obtain ⟨rest, hfile⟩ := h.file
  obtain ⟨hv, h0⟩ := h.value i hi j hj k hk
  refine ⟨?_, h0⟩
  have hlen := hfit.2
  rw [hfile] at hlen
  have hopen := open_closed .mmap .mmap d.file
  have key := grid_file_roundtrip d.info (if d.useDouble then 8 else 4) (by split <;> omega) enc h.size rest hlen .mmap .mmap
    ⟨some d.file, true, true, some d.file.length⟩ (by rw [← hfile]) hopen hi hj hk
  unfold GridTable.node
  cases hu : d.useDouble with
  | true =>
    simp only [hu, if_true] at key hv ⊢
    rw [key, ← hv]; rfl
  | false =>
    simp only [hu, Bool.false_eq_true, if_false] at key hv ⊢
    rw [key, ← hv]; rfl

theorem time_answer (T : Tables S G) (hp : PrintedApart T) (hfit : ∀ g, Fits (T.data g)) (n : Nat) (mode : Mode)
    (m0 : G → Mode) (hist : List (Request S)) (hh : ∀ r ∈ hist, r.All (Works T)) (phase : String) (ev sta : Place)
    (os : Key S → Answers) (ho : Works T os) (g : G) (hg : T.time phase sta = (some g, false)) :
    (serve T (history T (init n mode m0) hist) (.time phase ev sta os)).2 =
      (getTime (T.data g) (opened .mmap (T.data g).file) ev).map .time := by
  have h1 := history_inv (policy_works hfit mode) hp hfit hist hh
    (init_inv (Ch := For T) (w := True) n m0 (fun g => Or.inl ⟨_, rfl⟩))
  rcases (serve_right (policy_works hfit mode) hp hfit h1 (.time phase ev sta os) ho).2 with h | ⟨h, _⟩
  · rw [h]; simp only [answer, answerTime, hg]; rfl
  · exact absurd trivial h

/-- **C115**: from the files to the caller: for a station whose nearest grid is within the search distance and has three axes,
and an event in its box, the time answered after any history is the piecewise linear interpolant of the node values written to
the file, at the coordinates of the event in the frame of the grid. -/
theorem time_interpolated (T : Tables S G) (hp : PrintedApart T) (hfit : ∀ g, Fits (T.data g)) (n : Nat) (mode : Mode)
    (m0 : G → Mode) (hist : List (Request S)) (hh : ∀ r ∈ hist, r.All (Works T)) (phase : String) (ev sta : Place)
    (os : Key S → Answers) (ho : Works T os) (g : G) (hg : T.time phase sta = (some g, false))
    (d : GridData) (hd : T.data g = d) (enc : Nat → Nat → Nat → List UInt8) (f : Nat → Nat → Nat → ℝ) (hw : Written d enc f)
    (hu : Usable d.info) (x y : ℝ) (hxy : d.fromLatLon ev.1 ev.2.1 = (x, y)) (hin : InBox d.info x y ev.2.2) :
    (serve T (history T (init n mode m0) hist) (.time phase ev sta os)).2 =
      .ok (.time (interpolant3 d.info.numx d.info.numy d.info.numz f
        ((x - d.info.origx) / d.info.dx) ((y - d.info.origy) / d.info.dy) ((ev.2.2 - d.info.origz) / d.info.dz))) := by
  subst hd
  rw [time_answer T hp hfit n mode m0 hist hh phase ev sta os ho g hg]
  unfold getTime
  have h2 := hu.x.1
  simp only [if_pos (show (T.data g).info.numx > 1 by omega), hxy]
  rw [grid_interpolates_3d hu f _ (hw.node (hfit g)) hin]
  rfl

/-- **C115**: likewise with two axes, the distance from the station in the frame of the grid and the depth. -/
theorem time_interpolated_2d (T : Tables S G) (hp : PrintedApart T) (hfit : ∀ g, Fits (T.data g)) (n : Nat) (mode : Mode)
    (m0 : G → Mode) (hist : List (Request S)) (hh : ∀ r ∈ hist, r.All (Works T)) (phase : String) (ev sta : Place)
    (os : Key S → Answers) (ho : Works T os) (g : G) (hg : T.time phase sta = (some g, false))
    (d : GridData) (hd : T.data g = d) (enc : Nat → Nat → Nat → List UInt8) (f : Nat → Nat → Nat → ℝ) (hw : Written d enc f)
    (hx : d.info.numx = 1) (hdx : 0 ≤ d.info.dx) (hy : 2 ≤ d.info.numy ∧ d.info.numy < 2 ^ 64 ∧ 0 < d.info.dy)
    (hz : 2 ≤ d.info.numz ∧ d.info.numz < 2 ^ 64 ∧ 0 < d.info.dz) (dist : ℝ)
    (hdist : d.distance (d.fromLatLon ev.1 ev.2.1) d.srce = dist)
    (hiny : d.info.origy ≤ dist ∧ dist ≤ d.info.origy + ((d.info.numy : ℝ) - 1) * d.info.dy)
    (hinz : d.info.origz ≤ ev.2.2 ∧ ev.2.2 ≤ d.info.origz + ((d.info.numz : ℝ) - 1) * d.info.dz) :
    (serve T (history T (init n mode m0) hist) (.time phase ev sta os)).2 =
      .ok (.time (interpolant2 d.info.numy d.info.numz (f 0) ((dist - d.info.origy) / d.info.dy)
        ((ev.2.2 - d.info.origz) / d.info.dz))) := by
  subst hd
  rw [time_answer T hp hfit n mode m0 hist hh phase ev sta os ho g hg]
  unfold getTime
  simp only [if_neg (show ¬ (T.data g).info.numx > 1 by omega), hdist]
  rw [grid_interpolates_2d (by omega) hdx hy hz (f 0) _
    (fun j hj k hk => hw.node (hfit g) 0 (by omega) j hj k hk) hiny hinz]
  rfl

/-! ### examples -/

namespace Example

/-- a grid of two axes whose nodes all have the value `b` -/
noncomputable def flat (b : UInt8) : GridData where
  info := ⟨1, 2, 2, 0, 0, 0, 1, 1, 1, false⟩
  useDouble := false
  float := fun bs => ((bs.headD 0).toNat : ℝ)
  double := fun _ => 0
  fromLatLon := fun lat lon => (lon, lat)
  distance := fun p q => |p.1 - q.1| + |p.2 - q.2|
  frame := ⟨0, 0, 0, 1, 0⟩
  srce := (0, 0)
  velType := .velocity
  file := List.replicate 16 b

theorem flat_fits (b : UInt8) : Fits (flat b) := by
  constructor
  · show 1 * 2 * 2 * 8 < 2 ^ 64; decide
  · show (List.replicate 16 b).length < 2 ^ 63; simp

theorem flat_written (b : UInt8) : Written (flat b) (fun _ _ _ => List.replicate 4 b) (fun _ _ _ => (b.toNat : ℝ)) where
  size := fun _ _ _ => rfl
  file := ⟨[], rfl⟩
  value := fun _ _ _ _ _ _ => ⟨rfl, Nat.cast_nonneg _⟩

/-- the answer of a file that is all `b` is `b`, here at the place of the station -/
theorem flat_time (b : UInt8) {h : Handle} (hr : Reads (flat b) h) : getTime (flat b) h (0, 0, 0) = .ok (b.toNat : ℝ) := by
  rw [(reads_getTime hr (reads_openOn (flat_fits b) (mode := .mmap) (Or.inr rfl)) (0, 0, 0)).1]
  unfold getTime
  simp only [if_neg (show ¬ (flat b).info.numx > 1 from by show ¬ 1 > 1; omega)]
  rw [show (flat b).distance ((flat b).fromLatLon 0 0) (flat b).srce = 0 from by simp [flat],
    grid_interpolates_2d (g := (flat b).info) (by simp [flat]) (by simp [flat]) (by simp [flat]) (by simp [flat])
      (fun _ _ => (b.toNat : ℝ)) _ (fun j hj k hk => (flat_written b).node (flat_fits b) 0 (by simp [flat]) j hj k hk)
      (by simp [flat]) (by simp [flat])]
  simp [flat, interpolant2, hat, Finset.sum_range_succ]

theorem flat_opened (b : UInt8) (mode : Mode) : getTime (flat b) (opened mode (List.replicate 16 b)) (0, 0, 0) = .ok (b.toNat : ℝ) :=
  flat_time b (reads_openOn (flat_fits b) (mode := mode) (Or.inr rfl))

/-- two grids; every station has the first one if its elevation is zero -/
noncomputable def table (apart : Bool) : Tables Bool Bool where
  print := fun p => if apart then decide (p.2.2 = 0) else true
  time := fun _ p => (some (decide (p.2.2 = 0)), false)
  velocity := fun _ => none
  angle := fun _ _ => (none, false)
  data := fun g => if g then flat 1 else flat 2
  cutoff := 0

theorem table_fits (a : Bool) : ∀ g, Fits ((table a).data g) := by
  intro g; cases g <;> exact flat_fits _

theorem table_apart : PrintedApart (table true) := by
  intro p q h phase
  simp only [table, if_true] at h ⊢
  exact ⟨by rw [h], trivial⟩

/-- the operating system gives the file of the grid of a key -/
noncomputable def os : Key Bool → Answers
  | .time _ b => ⟨some ((table true).data b).file, true, true, some ((table true).data b).file.length⟩
  | _ => ⟨none, true, true, none⟩

theorem os_works : Works (table true) os := by
  intro k g h
  cases h with
  | @time phase sta g h =>
    have hg : decide (sta.2.2 = 0) = g := by simpa [table, inReach] using h
    subst hg
    simp [os, table]
  | velocity h => simp [table] at h
  | angle h => simp [table, inReach] at h

/-- the hypotheses are met: after requests for both stations with one grid open at a time the first one still gets its time -/
example : (serve (table true) (history (table true) (init 1 .mmap fun _ => .pread)
      [.time "P" (0, 0, 0) (0, 0, 0) os, .time "P" (0, 0, 0) (0, 0, 1) os, .closeOpenFiles])
      (.time "P" (0, 0, 0) (0, 0, 0) os)).2 = .ok (.time 1) := by
  rw [time_answer (table true) table_apart (table_fits true) 1 .mmap _ _ (by
      intro r hr
      simp only [List.mem_cons, List.not_mem_nil, or_false] at hr
      rcases hr with rfl | rfl | rfl
      · exact os_works
      · exact os_works
      · exact trivial) "P" (0, 0, 0) (0, 0, 0) os os_works true (by simp [table])]
  have : (table true).data true = flat 1 := by simp [table]
  rw [this, flat_time 1 (reads_openOn (flat_fits 1) (Or.inr rfl))]
  simp [Outcome.map]

/-- the hypotheses of the interpolation with two axes are met -/
example : (serve (table true) (history (table true) (init 1 .pread fun _ => .pread)
      [.time "P" (0, 0, 0) (0, 0, 0) os, .time "P" (0, 0, 0) (0, 0, 1) os])
      (.time "P" (1 / 2, 1 / 4, 1 / 3) (0, 0, 1) os)).2 =
      .ok (.time (interpolant2 2 2 (fun _ _ => ((2 : UInt8).toNat : ℝ)) ((3 / 4 - 0) / 1) ((1 / 3 - 0) / 1))) := by
  have h := time_interpolated_2d (table true) table_apart (table_fits true) 1 .pread (fun _ => .pread)
      [.time "P" (0, 0, 0) (0, 0, 0) os, .time "P" (0, 0, 0) (0, 0, 1) os] (by
      intro r hr
      simp only [List.mem_cons, List.not_mem_nil, or_false] at hr
      rcases hr with rfl | rfl
      · exact os_works
      · exact os_works) "P" (1 / 2, 1 / 4, 1 / 3) (0, 0, 1) os os_works false (by simp [table]) (flat 2) (by simp [table]) _ _
      (flat_written 2) rfl (by simp [flat]) (by simp [flat]) (by simp [flat]) (3 / 4) (by norm_num [flat, abs_of_pos])
      (by norm_num [flat]) (by norm_num [flat])
  exact h

/-- a grid of three axes, eight nodes of value 3, in a table of one grid -/
noncomputable def cube : GridData := { flat 3 with info := ⟨2, 2, 2, 0, 0, 0, 1, 1, 1, false⟩, file := List.replicate 32 3 }

noncomputable def single : Tables Unit Unit where
  print := fun _ => ()
  time := fun _ _ => (some (), false)
  velocity := fun _ => some ()
  angle := fun _ _ => (some (), false)
  data := fun _ => cube
  cutoff := 0

theorem cube_fits (g : Unit) : Fits (single.data g) := by
  constructor
  · show 2 * 2 * 2 * 8 < 2 ^ 64; decide
  · show (List.replicate 32 (3 : UInt8)).length < 2 ^ 63; simp

theorem cube_written : Written cube (fun _ _ _ => List.replicate 4 3) (fun _ _ _ => ((3 : UInt8).toNat : ℝ)) where
  size := fun _ _ _ => rfl
  file := ⟨[], rfl⟩
  value := fun _ _ _ _ _ _ => ⟨rfl, Nat.cast_nonneg _⟩

noncomputable def osCube : Key Unit → Answers := fun _ => ⟨some cube.file, true, true, some cube.file.length⟩

theorem osCube_works : Works single osCube := fun _ _ _ => rfl

/-- the hypotheses of the interpolation with three axes are met, after a request for the whole ray and one that failed -/
example : (serve single (history single (init 2 .loadIntoMemory fun _ => .mmap)
      [.ray "P" (0, 0, 0) (0, 0, 0) osCube, .ray "P" (9, 9, 9) (0, 0, 0) osCube]) (.time "P" (1 / 2, 1 / 4, 1 / 3) (0, 0, 1) osCube)).2 =
      .ok (.time (interpolant3 2 2 2 (fun _ _ _ => ((3 : UInt8).toNat : ℝ)) ((1 / 4 - 0) / 1) ((1 / 2 - 0) / 1) ((1 / 3 - 0) / 1))) := by
  have h := time_interpolated single (fun _ _ _ _ => ⟨rfl, rfl⟩) cube_fits 2 .loadIntoMemory (fun _ => .mmap)
      [.ray "P" (0, 0, 0) (0, 0, 0) osCube, .ray "P" (9, 9, 9) (0, 0, 0) osCube] (by
      intro r hr
      simp only [List.mem_cons, List.not_mem_nil, or_false] at hr
      rcases hr with rfl | rfl <;> exact osCube_works) "P" (1 / 2, 1 / 4, 1 / 3) (0, 0, 1) osCube osCube_works () rfl cube rfl _ _
      cube_written ⟨by norm_num [cube], by norm_num [cube], by norm_num [cube]⟩ (1 / 4) (1 / 2) rfl
      (by norm_num [InBox, cube])
  exact h

theorem cube_time (ev : Place) (hin : InBox cube.info ev.2.1 ev.1 ev.2.2) : ∃ t, answerTime single "P" ev (0, 0, 0) = .ok t := by
  refine ⟨interpolant3 2 2 2 (fun _ _ _ => ((3 : UInt8).toNat : ℝ)) ((ev.2.1 - 0) / 1) ((ev.1 - 0) / 1) ((ev.2.2 - 0) / 1), ?_⟩
  show getTime cube (opened .mmap cube.file) ev = _
  unfold getTime
  rw [if_pos (show cube.info.numx > 1 from by show 2 > 1; omega)]
  exact grid_interpolates_3d (g := cube.info) ⟨by norm_num [cube], by norm_num [cube], by norm_num [cube]⟩ _ _
    (cube_written.node (cube_fits ())) hin

theorem cube_vel : ∃ v, answerVel single "P" (0, 0, 0) = .ok v := by
  refine ⟨interpolant2 2 2 (fun _ _ => ((3 : UInt8).toNat : ℝ)) ((0 - 0) / 1) ((0 - 0) / 1), ?_⟩
  show getVel cube (opened .mmap cube.file) (0, 0, 0) = _
  unfold getVel
  simp only [if_neg (show ¬ cube.info.numx > 2 from by show ¬ 2 > 2; omega)]
  have h := grid_interpolates_2d (g := cube.info) (y := cube.info.origy) (z := (0, 0, (0 : ℝ)).2.2) (by norm_num [cube])
    (by norm_num [cube]) (by norm_num [cube])
    (by norm_num [cube]) (fun _ _ => ((3 : UInt8).toNat : ℝ)) (node cube (opened .mmap cube.file))
    (fun j hj k hk => cube_written.node (cube_fits ()) 0 (by norm_num [cube]) j hj k hk) (by norm_num [cube]) (by norm_num [cube])
  rw [h]
  rfl

theorem cube_angles : ∃ a, answerAngles single "P" (0, 0, 0) (0, 0, 0) = .ok a := by
  have hread : ∀ i < 2, ∀ j < 2, ∀ k < 2, (getBytesAt cube.info (opened .mmap cube.file) 4 i j k).map TravelTime.decodeAngles =
      .ok ⟨3, 48, 771⟩ := by
    intro i hi j hj k hk
    rw [grid_file_roundtrip cube.info 4 (by omega) (fun _ _ _ => List.replicate 4 3) (fun _ _ _ => rfl) []
      (cube_fits ()).2 .mmap .mmap ⟨some cube.file, true, true, some cube.file.length⟩ rfl
      (open_closed .mmap .mmap cube.file) hi hj hk]
    rfl
  have hax : axisCell 2 (0 : ℝ) 1 0 = .ok (0, 1, 0) := by
    simp [axisCell, toULL, pred64]
  show ∃ a, getAngles 0 cube (opened .mmap cube.file) (0, 0, 0) = .ok a
  unfold getAngles
  rw [if_pos (show cube.info.numx > 1 from by show 2 > 1; omega)]
  unfold TravelTime.getAngles3D getValuesAt3DLocation
  have hin : cube.info.isLocationInside (cube.fromLatLon 0 0).1 (cube.fromLatLon 0 0).2 0 = true := by
    simp [Info.isLocationInside, cube, flat, pred64]
  have hx : axisCell cube.info.numx cube.info.origx cube.info.dx (cube.fromLatLon 0 0).1 = .ok (0, 1, 0) := hax
  have hy : axisCell cube.info.numy cube.info.origy cube.info.dy (cube.fromLatLon 0 0).2 = .ok (0, 1, 0) := hax
  have hz : axisCell cube.info.numz cube.info.origz cube.info.dz 0 = .ok (0, 1, 0) := hax
  simp only [hin, hx, hy, hz, Bool.not_true, Bool.false_eq_true, if_false, Outcome.bind_ok, Outcome.pure_eq,
    hread 0 (by omega) 0 (by omega) 0 (by omega), hread 0 (by omega) 0 (by omega) 1 (by omega),
    hread 0 (by omega) 1 (by omega) 0 (by omega), hread 0 (by omega) 1 (by omega) 1 (by omega),
    hread 1 (by omega) 0 (by omega) 0 (by omega), hread 1 (by omega) 0 (by omega) 1 (by omega),
    hread 1 (by omega) 1 (by omega) 0 (by omega), hread 1 (by omega) 1 (by omega) 1 (by omega)]
  unfold TravelTime.convertAngles
  rw [if_neg (Nat.not_lt_zero _)]
  exact ⟨_, rfl⟩

/-- a request for the ray is answered, also after one that failed -/
example : ∃ r, (serve single (history single (init 2 .loadIntoMemory fun _ => .mmap) [.ray "P" (9, 9, 9) (0, 0, 0) osCube])
    (.ray "P" (0, 0, 0) (0, 0, 0) osCube)).2 = .ok (.ray r) := by
  have h1 := history_inv (policy_works cube_fits .loadIntoMemory) (fun _ _ _ _ => ⟨rfl, rfl⟩) cube_fits
    [.ray "P" (9, 9, 9) (0, 0, 0) osCube] (by
      intro r hr
      simp only [List.mem_cons, List.not_mem_nil, or_false] at hr
      subst hr; exact osCube_works)
    (init_inv (Ch := For single) (w := True) 2 (fun _ => .mmap) (fun g => Or.inl ⟨_, rfl⟩))
  obtain ⟨t, ht⟩ := cube_time (0, 0, 0) (by norm_num [InBox, cube])
  obtain ⟨v, hv⟩ := cube_vel
  obtain ⟨a, ha⟩ := cube_angles
  rcases (serve_right (policy_works cube_fits .loadIntoMemory) (fun _ _ _ _ => ⟨rfl, rfl⟩) cube_fits h1
    (.ray "P" (0, 0, 0) (0, 0, 0) osCube) osCube_works).2 with e | ⟨e, _⟩
  · rw [e]
    simp only [answer, answerRay, ht, hv, ha, Outcome.bind_ok, Outcome.pure_eq, Outcome.map]
    exact ⟨_, rfl⟩
  · exact absurd trivial e

/-- the same table may also meet failures: nothing can be opened during the first request -/
example : (∀ r ∈ [Request.time "P" (0, 0, 0) (0, 0, 0) (fun _ : Key Unit => ⟨none, true, true, none⟩)], r.All (MayFail single)) ∧
    (Request.time "P" (0, 0, 0) (0, 0, 0) osCube).All (MayFail single) :=
  ⟨by
    intro r hr
    simp only [List.mem_cons, List.not_mem_nil, or_false] at hr
    subst hr
    exact fun _ _ _ => Or.inl rfl, fun _ _ _ => Or.inr rfl⟩

/-- the key of the examples below, and the answers of an operating system that opens and reads the file of one grid -/
def key : Key Bool := .time "P" true
def full (b : UInt8) : Answers := ⟨some (List.replicate 16 b), true, true, some 16⟩

theorem travelTime_of (a : Bool) (s : State Bool Bool) (os : Key Bool → Answers) (sta : Place) (g : Bool)
    (hk : (table a).print sta = true) (hg : decide (sta.2.2 = 0) = g) (g' : Bool) (h : Handle) (s' : State Bool Bool)
    (ha : access s key ⟨some g, false, os key⟩ = (s', .ok (g', h))) :
    serve (table a) s (.time "P" (0, 0, 0) sta os) =
      (s', (getTime (if g' then flat 1 else flat 2) h (0, 0, 0)).map .time) := by
  subst hg
  simp only [serve, travelTime, hk]
  have e : access s (Key.time "P" true) ⟨((table a).time "P" sta).1, ((table a).time "P" sta).2, os (Key.time "P" true)⟩ =
      (s', .ok (g', h)) := ha
  rw [e]
  rfl

theorem travelTime_fails (a : Bool) (s : State Bool Bool) (os : Key Bool → Answers) (sta : Place) (g : Bool)
    (hk : (table a).print sta = true) (hg : decide (sta.2.2 = 0) = g) (s' : State Bool Bool)
    (ha : access s key ⟨some g, false, os key⟩ = (s', .throws)) :
    serve (table a) s (.time "P" (0, 0, 0) sta os) = (s', .throws) := by
  subst hg
  simp only [serve, travelTime, hk]
  have e : access s (Key.time "P" true) ⟨((table a).time "P" sta).1, ((table a).time "P" sta).2, os (Key.time "P" true)⟩ =
      (s', .throws) := ha
  rw [e]
  rfl

/-- a table just created -/
def new (mode : Mode) : State Bool Bool := init 1 mode fun _ => .mmap

theorem access_new (g : Bool) (b : UInt8) (mode : Mode) :
    access (new mode) key ⟨some g, false, full b⟩ =
      ((access (new mode) key ⟨some g, false, full b⟩).1, .ok (g, opened mode (List.replicate 16 b))) := by
  cases mode <;> cases g <;> rfl

theorem access_again (b b' : UInt8) :
    access (access (new .mmap) key ⟨some true, false, full b⟩).1 key ⟨some false, false, full b'⟩ =
      ((access (access (new .mmap) key ⟨some true, false, full b⟩).1 key ⟨some false, false, full b'⟩).1,
        .ok (true, opened .mmap (List.replicate 16 b))) := by
  rfl

/-- the answers of an operating system that delivers no byte -/
def short : Answers := ⟨some (List.replicate 16 1), true, true, some 0⟩

theorem access_short : access (new .loadIntoMemory) key ⟨some true, false, short⟩ =
      ((access (new .loadIntoMemory) key ⟨some true, false, short⟩).1, .throws) := by
  rfl

/-- what is left by the failed load -/
def zeros : Handle := ⟨.loadIntoMemory, some (List.replicate 16 1), none, List.replicate 16 0, 16⟩

theorem access_after_short : access (access (new .loadIntoMemory) key ⟨some true, false, short⟩).1 key ⟨some true, false, full 1⟩ =
      ((access (access (new .loadIntoMemory) key ⟨some true, false, short⟩).1 key ⟨some true, false, full 1⟩).1, .ok (true, zeros)) := by
  rfl

end Example
open Example

/-- **C115 (negative)**: stations whose printed coordinates are the same share the grid of the one asked first, also if they
have different nearest grids: after a request for the first one, the second one gets 1 instead of 2. -/
theorem alike_stations_share :
    ∃ (T : Tables Bool Bool) (os os' : Key Bool → Answers) (a b : Place), (∀ g, Fits (T.data g)) ∧
      (serve T (history T (new .mmap) [.time "P" (0, 0, 0) a os]) (.time "P" (0, 0, 0) b os')).2 = .ok (.time 1) ∧
      (serve T (new .mmap) (.time "P" (0, 0, 0) b os')).2 = .ok (.time 2) := by
  refine ⟨table false, fun _ => full 1, fun _ => full 2, (0, 0, 0), (0, 0, 1), table_fits false, ?_, ?_⟩
  · have h1 := travelTime_of false (new .mmap) (fun _ => full 1) (0, 0, 0) true rfl (by simp) true _ _ (access_new true 1 .mmap)
    simp only [history, h1]
    rw [travelTime_of false _ (fun _ => full 2) (0, 0, 1) false rfl (by simp) true _ _ (access_again 1 2)]
    simp only [if_true]
    rw [flat_opened 1]
    simp [Outcome.map]
  · rw [travelTime_of false _ (fun _ => full 2) (0, 0, 1) false rfl (by simp) false _ _ (access_new false 2 .mmap)]
    simp only [Bool.false_eq_true, if_false]
    rw [flat_opened 2]
    simp [Outcome.map]

/-- **C115 (negative)**: with grids loaded into memory a failed read is remembered as zeros: the request that met the failure
throws, and the same request, made again, gets the time 0 instead of 1. -/
theorem failed_load_gives_zero :
    ∃ (T : Tables Bool Bool) (os os' : Key Bool → Answers) (a : Place), (∀ g, Fits (T.data g)) ∧
      (serve T (new .loadIntoMemory) (.time "P" (0, 0, 0) a os)).2 = .throws ∧
      (serve T (history T (new .loadIntoMemory) [.time "P" (0, 0, 0) a os]) (.time "P" (0, 0, 0) a os')).2 = .ok (.time 0) ∧
      (serve T (new .loadIntoMemory) (.time "P" (0, 0, 0) a os')).2 = .ok (.time 1) := by
  refine ⟨table true, fun _ => short, fun _ => full 1, (0, 0, 0), table_fits true, ?_, ?_, ?_⟩
  · rw [travelTime_fails true _ (fun _ => short) (0, 0, 0) true (by simp [table]) (by simp) _ access_short]
  · have h1 := travelTime_fails true (new .loadIntoMemory) (fun _ => short) (0, 0, 0) true (by simp [table]) (by simp) _ access_short
    simp only [history, h1]
    rw [travelTime_of true _ (fun _ => full 1) (0, 0, 0) true (by simp [table]) (by simp) true _ _ access_after_short]
    simp only [if_true]
    have e : getTime (flat 1) zeros (0, 0, 0) = getTime (flat 0) (opened .loadIntoMemory (List.replicate 16 0)) (0, 0, 0) := rfl
    rw [e, flat_opened 0]
    simp [Outcome.map]
  · rw [travelTime_of true _ (fun _ => full 1) (0, 0, 0) true (by simp [table]) (by simp) true _ _ (access_new true 1 _)]
    simp only [if_true]
    rw [flat_opened 1]
    simp [Outcome.map]

end Verif.GridTable
