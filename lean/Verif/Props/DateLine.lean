import Verif.Spec.DateLine
import Verif.Props.Ellipsoid
import Verif.Props.Geo
import Verif.Props.GreatCircle
import Mathlib.Tactic.IntervalCases

/-!
# C127: the date line
-/

set_option linter.unusedSimpArgs false

namespace Verif.DateLine
open Real Verif.Geo Verif.Catalog Verif.Selection Verif.KdTree

theorem turned_diff {c : ℝ} {p p' q q' : Pt ℝ} (hp : Turned c p p') (hq : Turned c q q') :
    ∃ k : ℤ, q'.lon - p'.lon = q.lon - p.lon + 360 * k := by
  obtain ⟨-, -, k, hk⟩ := hp
  obtain ⟨-, -, l, hl⟩ := hq
  exact ⟨l - k, by rw [hk, hl]; push_cast; ring⟩

theorem degToRad_turn (x : ℝ) (k : ℤ) : degToRad (x + 360 * k) = degToRad x + k * (2 * π) := by unfold degToRad; ring

theorem sin_half_sq (x : ℝ) (k : ℤ) : sin (degToRad (x + 360 * k) / 2) ^ 2 = sin (degToRad x / 2) ^ 2 := by
  rw [degToRad_turn, show (degToRad x + k * (2 * π)) / 2 = degToRad x / 2 + k * π by ring, sin_add_int_mul_pi, mul_pow]
  rcases Int.even_or_odd k with h | h
  · rw [h.neg_one_zpow]; ring
  · rw [h.neg_one_zpow]; ring

theorem haversine_turned {c : ℝ} {p p' q q' : Pt ℝ} (hp : Turned c p p') (hq : Turned c q q') :
    haversine p'.lat p'.lon q'.lat q'.lon = haversine p.lat p.lon q.lat q.lon := by
  obtain ⟨k, hk⟩ := turned_diff hp hq
  unfold haversine
  rw [hk, sin_half_sq, hp.1, hq.1]

theorem Apart.turned {c : ℝ} {p p' q q' : Pt ℝ} (h : Apart p q) (hp : Turned c p p') (hq : Turned c q q') : Apart p' q' := by
  obtain ⟨k, hk⟩ := turned_diff hp hq
  intro l
  rw [hk, hp.1, hq.1]
  have := h (k + l)
  push_cast at this
  rwa [show q.lon - p.lon + 360 * k + 360 * l = q.lon - p.lon + 360 * (k + l) by ring]

theorem Apart.distinct {p q : Pt ℝ} (h : Apart p q) : Distinct p.lat p.lon q.lat q.lon := by
  have := h 0
  unfold Distinct
  simpa using this

theorem hAngle_turned {c : ℝ} {p p' q q' : Pt ℝ} (h : Apart p q) (hp : Turned c p p') (hq : Turned c q q') : hAngle p' q' = hAngle p q := by
  unfold hAngle
  rw [computeDistance_rad h.distinct, computeDistance_rad (h.turned hp hq).distinct]
  unfold angle
  rw [haversine_turned hp hq]

/-- **C127** Turning two places together by any angle, over the date line or not, and writing the longitudes in any way changes neither
their distance, nor the azimuth from one to the other, nor whether one is in an ellipsoid about the other or in one of its quadrants. -/
theorem turning_changes_nothing (c : ℝ) (p p' q q' : Pt ℝ) (hp : Turned c p p') (hq : Turned c q q') (h : Apart p q) :
    computeDistance3D p' q' = computeDistance3D p q ∧
    computeAzimuth p'.lat p'.lon q'.lat q'.lon = computeAzimuth p.lat p.lon q.lat q.lon ∧
    (∀ v, isInside v q' p' = isInside v q p) ∧ ∀ n, isInQuadrant q' p' n = isInQuadrant q p n := by
  have ha := hAngle_turned h hp hq
  refine ⟨?_, ?_, ?_, ?_⟩
  · rw [dist3D_eq, dist3D_eq, ha, hp.2.1, hq.2.1]
  · obtain ⟨k, hk⟩ := turned_diff hp hq
    have d1 := h.distinct
    have d2 := (h.turned hp hq).distinct
    unfold Distinct at d1 d2
    unfold computeAzimuth
    simp only [if_neg d1, if_neg d2]
    rw [hk, degToRad_turn, sin_add_int_mul_two_pi, cos_add_int_mul_two_pi, hp.1, hq.1]
  · intro v
    rw [Bool.eq_iff_iff, isInside_iff, isInside_iff, ha, hp.2.1, hq.2.1]
  · intro n
    have e : normalizeLon (p'.lon - q'.lon) = normalizeLon (p.lon - q.lon) := by
      obtain ⟨k, hk⟩ := turned_diff hq hp
      exact normalizeLon_congr ⟨k, hk⟩
    unfold isInQuadrant
    simp only [e, hp.1, hq.1, hp.2.1, hq.2.1]

/-- **C127** Moving by a distance and an azimuth from a turned place leads to the turned destination. -/
theorem turning_moves_along (c dist az depth : ℝ) (ang : Bool) (p p' : Pt ℝ) (hp : Turned c p p') :
    let a := computeCoordinates dist az p.lat p.lon depth ang
    let a' := computeCoordinates dist az p'.lat p'.lon depth ang
    Turned c ⟨a.1, a.2, depth⟩ ⟨a'.1, a'.2, depth⟩ := by
  obtain ⟨h1, -, k, hk⟩ := hp
  intro a a'
  simp only [a, a']
  unfold computeCoordinates
  by_cases h0 : dist = 0
  · simp only [h0, if_true]
    exact ⟨h1, rfl, k, hk⟩
  · simp only [h0, if_false, h1]
    refine ⟨rfl, rfl, ?_⟩
    generalize atan2 _ _ = θ
    obtain ⟨-, -, l, hl⟩ := normalizeLon_spec (radToDeg (degToRad p.lon + θ))
    obtain ⟨-, -, m, hm⟩ := normalizeLon_spec (radToDeg (degToRad p'.lon + θ))
    refine ⟨k + m - l, ?_⟩
    simp only
    rw [hl, hm, hk]
    have e : ∀ x, radToDeg (degToRad x + θ) = x + radToDeg θ := by
      intro x; unfold radToDeg degToRad; field_simp
    rw [e, e]
    push_cast
    ring

/-- two places half a degree to the west and to the east of the date line, turned to the other side of the earth -/
example : Turned 180 ⟨0, 179.5, 0⟩ ⟨0, -0.5, 0⟩ ∧ Turned 180 ⟨0, -179.5, 0⟩ ⟨0, 0.5, 0⟩ ∧ Apart ⟨0, 179.5, 0⟩ ⟨0, -179.5, 0⟩ := by
  refine ⟨⟨rfl, rfl, -1, by norm_num⟩, ⟨rfl, rfl, 0, by norm_num⟩, ?_⟩
  rintro k ⟨-, h⟩
  simp only [abs_degToRad] at h
  have h1 : (1 : ℝ) ≤ |(-179.5 : ℝ) - 179.5 + 360 * k| := by
    have : (1 : ℤ) ≤ |-359 + 360 * k| := by
      rcases le_or_gt k 0 with h | h
      · rw [abs_of_nonpos (by omega)]; omega
      · rw [abs_of_nonneg (by omega)]; omega
    have h2 : ((1 : ℤ) : ℝ) ≤ ((|-359 + 360 * k| : ℤ) : ℝ) := by exact_mod_cast this
    push_cast at h2
    rwa [show (-179.5 : ℝ) - 179.5 + 360 * k = -359 + 360 * k by ring]
  have h3 := degToRad_mono h1
  have h4 : (1e-9 : ℝ) < degToRad 1 := by unfold degToRad; have := two_le_pi; norm_num at *; linarith
  linarith

/-- **C127** (partial) A search finds the same events, with the same distances, before and after all places are turned, as long as no longitude
differs from that of the centre by more than 180 degrees as a number, and except for events whose distance is near the radius (C24). Missing:
longitudes that are on both sides of the date line, for which this is false. -/
theorem turned_search_partial (c : ℝ) (pt pt' : Nat → Pt ℝ) (q q' : Pt ℝ) (n : Nat) (hpt : ∀ i < n, Turned c (pt i) (pt' i)) (hq : Turned c q q')
    (hap : ∀ i < n, Apart (pt i) q) (nth : (axis : Nat) → NthElement (fun i => coord axis (pt i)))
    (nth' : (axis : Nat) → NthElement (fun i => coord axis (pt' i))) {L D : ℝ} (hL : L < 90) (hD : D < earthRadius)
    (hin : ∀ i < n, |(pt i).lat| ≤ L ∧ 0 ≤ (pt i).depth ∧ (pt i).depth ≤ D) (hqin : |q.lat| ≤ L ∧ 0 ≤ q.depth ∧ q.depth ≤ D)
    (hlon : ∀ i < n, |q.lon - (pt i).lon| ≤ 180 ∧ |q'.lon - (pt' i).lon| ≤ 180) (rad : ℝ) (i : Nat) (hi : i < n) :
    let found := radiusSearch pt computeDistance3D axisDist q (ofPoints pt nth n) rad
    let found' := radiusSearch pt' computeDistance3D axisDist q' (ofPoints pt' nth' n) rad
    let d := computeDistance3D (pt i) q
    (d ≤ rad → factor L D * d + 1e-7 ≤ rad → (d, i) ∈ found ∧ (d, i) ∈ found') ∧
    (rad < d → ∀ x, (x, i) ∉ found ∧ (x, i) ∉ found') := by
  intro found found' d
  have hd' : computeDistance3D (pt' i) q' = d := (turning_changes_nothing c _ _ _ _ (hpt i hi) hq (hap i hi)).1
  obtain ⟨-, l, -, l2, l3, l4⟩ := radius_search_real_partial pt nth n q hL hD (fun i hi => ⟨(hin i hi).1, (hlon i hi).1, (hin i hi).2⟩) hqin rad
  obtain ⟨-, m, -, m2, m3, m4⟩ := radius_search_real_partial pt' nth' n q' hL hD
    (fun i hi => by
      have h := hin i hi
      rw [← (hpt i hi).1, ← (hpt i hi).2.1] at h
      exact ⟨h.1, (hlon i hi).2, h.2⟩)
    (by rw [hq.1, hq.2.1]; exact hqin) rad
  constructor
  · intro h1 h2
    have a1 := l3 i hi h1 h2
    have a2 := m3 i hi (by rw [hd']; exact h1) (by rw [hd']; exact h2)
    refine ⟨l4.symm.subset (List.mem_map.2 ⟨i, a1, rfl⟩), m4.symm.subset (List.mem_map.2 ⟨i, a2, ?_⟩)⟩
    rw [hd']
  · intro h x
    constructor
    · intro hx
      obtain ⟨j, hj, e⟩ := List.mem_map.1 (l4.subset hx)
      obtain ⟨-, rfl⟩ := Prod.mk.inj e
      have := (l2 j hj).2
      linarith
    · intro hx
      obtain ⟨j, hj, e⟩ := List.mem_map.1 (m4.subset hx)
      obtain ⟨-, rfl⟩ := Prod.mk.inj e
      have := (m2 j hj).2
      rw [hd'] at this
      linarith

/-- the hypotheses of `turned_search_partial` are met by an event in Switzerland that is turned to the east by 100 degrees, and there is a radius
for which it is found -/
example : let p : Pt ℝ := ⟨46, 7, 5⟩; let q : Pt ℝ := ⟨47, 8, 10⟩; let p' : Pt ℝ := ⟨46, 107, 5⟩; let q' : Pt ℝ := ⟨47, 108, 10⟩
    Turned 100 p p' ∧ Turned 100 q q' ∧ Apart p q ∧ |p.lat| ≤ 60 ∧ |q.lat| ≤ 60 ∧ |q.lon - p.lon| ≤ 180 ∧ |q'.lon - p'.lon| ≤ 180 ∧
    (20 : ℝ) < earthRadius ∧ ∃ rad, computeDistance3D p q ≤ rad ∧ factor 60 20 * computeDistance3D p q + 1e-7 ≤ rad := by
  refine ⟨⟨rfl, rfl, 0, by norm_num⟩, ⟨rfl, rfl, 0, by norm_num⟩, ?_, ?_, ?_, ?_, ?_, ?_, _, le_max_left _ _, le_max_right _ _⟩
  · rintro k ⟨h, -⟩
    norm_num [abs_of_neg] at h
  all_goals norm_num [abs_of_pos, earthRadius]

/-! ## Events on both sides of the date line -/

namespace Fiji

/-- four events, the last one on the equator, half a degree to the west of the date line -/
noncomputable def pts (i : Nat) : Pt ℝ :=
  match i with
  | 0 => ⟨-60, 0, 0⟩
  | 1 => ⟨-40, 0, 0⟩
  | 2 => ⟨-20, 0, 0⟩
  | _ => ⟨0, 179.5, 0⟩

/-- half a degree to the east of the date line -/
noncomputable def query : Pt ℝ := ⟨0, -179.5, 0⟩

/-- the same, turned by 180 degrees -/
noncomputable def pts' (i : Nat) : Pt ℝ :=
  match i with
  | 0 => ⟨-60, -180, 0⟩
  | 1 => ⟨-40, -180, 0⟩
  | 2 => ⟨-20, -180, 0⟩
  | _ => ⟨0, -0.5, 0⟩
noncomputable def query' : Pt ℝ := ⟨0, 0.5, 0⟩

theorem pts_turned (i : Nat) : Turned 180 (pts i) (pts' i) := by
  match i with
  | 0 => exact ⟨rfl, rfl, -1, by norm_num [pts, pts']⟩
  | 1 => exact ⟨rfl, rfl, -1, by norm_num [pts, pts']⟩
  | 2 => exact ⟨rfl, rfl, -1, by norm_num [pts, pts']⟩
  | n + 3 =>
    refine ⟨rfl, rfl, -1, ?_⟩
    show (-0.5 : ℝ) = 179.5 + 180 + 360 * ((-1 : ℤ) : ℝ)
    norm_num

theorem query_turned : Turned 180 query query' := ⟨rfl, rfl, 0, by norm_num [query, query']⟩

theorem angle_lon {a b : ℝ} (h : |b - a| ≤ 180) : angle 0 a 0 b = degToRad |b - a| := by
  unfold angle
  rw [haversine_lon, Real.sqrt_sq_eq_abs, abs_sin_eq_sin_abs_of_abs_le_pi, abs_div, abs_degToRad, abs_of_pos (by norm_num : (0 : ℝ) < 2), arcsin_sin]
  · ring
  · have : 0 ≤ degToRad |b - a| := by unfold degToRad; positivity
    have := pi_pos
    linarith
  · have := degToRad_mono h
    have e : degToRad 180 = π := by unfold degToRad; ring
    linarith
  · rw [abs_div, abs_degToRad, abs_of_pos (by norm_num : (0 : ℝ) < 2)]
    have := degToRad_mono h
    have e : degToRad 180 = π := by unfold degToRad; ring
    have := pi_pos
    linarith

theorem perms4' : ∀ r ∈ [0, 1, 2, 3].permutations',
    (∀ x ∈ r.take 1, x ≤ r.getD 1 0) → (∀ x ∈ r.drop 2, r.getD 1 0 ≤ x) →
      r = [0, 1, 2, 3] ∨ r = [0, 1, 3, 2] := by decide

theorem tree_of {pts : Nat → Pt ℝ} (lat_order : ∀ i < 4, ∀ j < 4, coord 0 (pts i) ≤ coord 0 (pts j) ↔ i ≤ j)
    (lon_order : coord 1 (pts 2) < coord 1 (pts 3)) (nth : (axis : Nat) → NthElement (fun i => coord axis (pts i))) :
    ofPoints pts nth 4 = .node 1 0 (.node 0 1 .nil .nil) (.node 2 1 .nil (.node 3 2 .nil .nil)) := by
  have one : ∀ axis x, (nth axis).run [x] 0 = [x] := fun axis x => List.perm_singleton.1 ((nth axis).ok [x] 0 (by simp)).perm
  have leaf : ∀ depth x, build pts nth [x] depth = .node x (depth % 3) .nil .nil := by
    intro depth x
    rw [build]; simp [one, build]
  have pair : ∀ l : List Nat, (l = [2, 3] ∨ l = [3, 2]) → (nth 1).run l 0 = [2, 3] := by
    intro l hl
    have hk := (nth 1).ok l 0 (by simp)
    generalize (nth 1).run l 0 = r at *
    have hp : r.Perm [2, 3] := by
      rcases hl with rfl | rfl
      · exact hk.perm
      · exact hk.perm.trans (List.Perm.swap _ _ _)
    have hr : r = [2, 3] ∨ r = [3, 2] := by
      have := List.mem_permutations'.2 hp
      simpa [List.permutations'] using this
    rcases hr with rfl | rfl
    · rfl
    · have := (hk.split 3 rfl).2 2 (by simp)
      exact absurd this (not_le.2 lon_order)
  have root : (nth 0).run [0, 1, 2, 3] 1 = [0, 1, 2, 3] ∨ (nth 0).run [0, 1, 2, 3] 1 = [0, 1, 3, 2] := by
    have hk := (nth 0).ok [0, 1, 2, 3] 1 (by simp)
    generalize (nth 0).run [0, 1, 2, 3] 1 = r at *
    have hlen : r.length = 4 := hk.perm.length_eq
    have hget : r[1]? = some (r.getD 1 0) := by
      rw [List.getD_eq_getElem?_getD, List.getElem?_eq_getElem (by omega)]; rfl
    have hlt : ∀ x ∈ r, x < 4 := by
      intro x hx; have := hk.perm.subset hx; simp at this; omega
    have hx : r.getD 1 0 < 4 := hlt _ (List.mem_of_getElem? hget)
    obtain ⟨h1, h2⟩ := hk.split _ hget
    apply perms4' r (List.mem_permutations'.2 hk.perm)
    · intro x hxm
      exact (lat_order _ (hlt x (List.mem_of_mem_take hxm)) _ hx).1 (h1 x hxm)
    · intro x hxm
      exact (lat_order _ hx _ (hlt x (List.mem_of_mem_drop hxm))).1 (h2 x hxm)
  have right : ∀ l : List Nat, (l = [2, 3] ∨ l = [3, 2]) →
      build pts nth l 1 = .node 2 1 .nil (.node 3 2 .nil .nil) := by
    intro l hl
    have h2 := pair l hl
    have hlen : l.length = 2 := by rcases hl with rfl | rfl <;> rfl
    have hne : l ≠ [] := by rintro rfl; simp at hlen
    rw [build, dif_neg hne]
    simp only [hlen]
    norm_num [h2, leaf]
    simp [build]
  unfold ofPoints
  have hrange : List.range 4 = [0, 1, 2, 3] := rfl
  rw [hrange, build]
  rcases root with h | h
  · simp [h, leaf, right]
  · simp [h, leaf, right]


theorem lat_order {i j : Nat} (hi : i < 4) (hj : j < 4) : coord 0 (pts i) ≤ coord 0 (pts j) ↔ i ≤ j := by
  interval_cases i <;> interval_cases j <;> norm_num [coord, pts]

theorem lat_order' {i j : Nat} (hi : i < 4) (hj : j < 4) : coord 0 (pts' i) ≤ coord 0 (pts' j) ↔ i ≤ j := by
  interval_cases i <;> interval_cases j <;> norm_num [coord, pts']

/-- the length of a degree at the equator, in km -/
noncomputable def degree : ℝ := degToRad 1 * earthRadius

theorem degree_pos : 0 < degree := mul_pos (by unfold degToRad; have := pi_pos; positivity) earthRadius_pos

theorem dist_eq {p q : Pt ℝ} (hp : p.depth = 0) (hq : q.depth = 0) (h : Distinct p.lat p.lon q.lat q.lon) :
    computeDistance3D p q = angle p.lat p.lon q.lat q.lon * earthRadius := by
  unfold computeDistance3D
  simp only [hp, hq]
  rw [if_pos (by norm_num), computeDistance_km h]; norm_num

theorem distinct_lat {a b c d : ℝ} (h : 1 ≤ |a - c|) : Distinct a b c d := by
  rintro ⟨h1, -⟩
  norm_num at h1
  linarith

theorem distinct_lon {a b c d : ℝ} (h : 1 ≤ |d - b|) : Distinct a b c d := by
  rintro ⟨-, h1⟩
  rw [abs_degToRad] at h1
  have h3 := degToRad_mono h
  have h4 : (1e-9 : ℝ) < degToRad 1 := by unfold degToRad; have := two_le_pi; norm_num at *; linarith
  linarith

theorem angle_lat {a b : ℝ} (h : |b - a| ≤ 180) : angle a 0 b 0 = degToRad |b - a| := by
  have := angle_lon h
  unfold angle at this ⊢
  rwa [haversine_lat, ← haversine_lon]

theorem degrees (x : ℝ) : degToRad x * earthRadius = x * degree := by unfold degree degToRad; ring

/-- the latitudes alone make events 0, 1 and 2 be far away -/
theorem far {p q : Pt ℝ} (hp : p.depth = 0) (hq : q.depth = 0) (h1 : -90 ≤ p.lat) (h2 : p.lat ≤ -20) (h0 : q.lat = 0) :
    20 * degree ≤ computeDistance3D p q := by
  rw [dist_eq hp hq (distinct_lat (by rw [h0, sub_zero, abs_of_neg (by linarith)]; linarith)), h0]
  have hm : haversine p.lat 0 0 0 ≤ haversine p.lat p.lon 0 q.lon := by
    rw [haversine_lat]
    exact haversine_ge_lat h1 (by linarith) (by norm_num) (by norm_num)
  have ha := angle_mono hm
  have hx : |0 - p.lat| = -p.lat := by rw [zero_sub, abs_of_pos (by linarith)]
  rw [angle_lat (by rw [hx]; linarith), hx] at ha
  have := mul_le_mul_of_nonneg_right ha earthRadius_pos.le
  rw [degrees] at this
  have := mul_le_mul_of_nonneg_right (by linarith : (20 : ℝ) ≤ -p.lat) degree_pos.le
  linarith

theorem near' : computeDistance3D (pts' 3) query' = degree := by
  have e : |query'.lon - (pts' 3).lon| = 1 := by norm_num [query', pts']
  rw [dist_eq rfl rfl (distinct_lon (by rw [e]))]
  have : angle (pts' 3).lat (pts' 3).lon query'.lat query'.lon = angle 0 (pts' 3).lon 0 query'.lon := rfl
  rw [this, angle_lon (by rw [e]; norm_num), e, degrees, one_mul]

theorem apart : Apart (pts 3) query := by
  rintro k ⟨-, h⟩
  rw [abs_degToRad] at h
  have h1 : (1 : ℝ) ≤ |query.lon - (pts 3).lon + 360 * k| := by
    have : (1 : ℤ) ≤ |-359 + 360 * k| := by
      rcases le_or_gt k 0 with h | h
      · rw [abs_of_nonpos (by omega)]; omega
      · rw [abs_of_nonneg (by omega)]; omega
    have h2 : ((1 : ℤ) : ℝ) ≤ ((|-359 + 360 * k| : ℤ) : ℝ) := by exact_mod_cast this
    push_cast at h2
    rwa [show query.lon - (pts 3).lon + 360 * k = -359 + 360 * (k : ℝ) by simp only [query, pts]; ring]
  have h3 := degToRad_mono h1
  have h4 : (1e-9 : ℝ) < degToRad 1 := by unfold degToRad; have := two_le_pi; norm_num at *; linarith
  linarith

theorem near : computeDistance3D (pts 3) query = degree := by
  rw [← near', (turning_changes_nothing 180 _ _ _ _ (pts_turned 3) query_turned apart).1]

theorem split_lat : axisDist 0 (pts 1) query = 40 * degree := by
  have h : Distinct (-40) 0 0 0 := distinct_lat (by norm_num)
  unfold axisDist
  simp only [pts, query]
  rw [computeDistance_km h, sub_zero, angle_lat (by norm_num), degrees]
  norm_num

theorem split_lat' : axisDist 0 (pts' 1) query' = 40 * degree := by
  have h : Distinct (-40) 0 0 0 := distinct_lat (by norm_num)
  unfold axisDist
  simp only [pts', query']
  rw [computeDistance_km h, sub_zero, angle_lat (by norm_num), degrees]
  norm_num

theorem split_lon : axisDist 1 (pts 2) query = 179.5 * degree := by
  have h : Distinct 0 0 0 (-179.5) := distinct_lon (by norm_num)
  unfold axisDist
  simp only [pts, query]
  rw [computeDistance_km h, sub_zero, angle_lon (by norm_num), degrees]
  norm_num

theorem search_misses {pt : Nat → Pt ℝ} (hpt : ∀ i < 4, pt i = pts i) (nth : (axis : Nat) → NthElement (fun i => coord axis (pt i))) :
    radiusSearch pt computeDistance3D axisDist query (ofPoints pt nth 4) (2 * degree) = [] := by
  rw [tree_of (fun i hi j hj => by rw [hpt i hi, hpt j hj]; exact lat_order hi hj)
    (by rw [hpt 2 (by norm_num), hpt 3 (by norm_num)]; norm_num [coord, pts]) nth]
  have hd := degree_pos
  have e1 : ¬ computeDistance3D (pts 1) query ≤ 2 * degree := by
    have := far (p := pts 1) (q := query) rfl rfl (by norm_num [pts]) (by norm_num [pts]) rfl
    linarith
  have e2 : ¬ computeDistance3D (pts 2) query ≤ 2 * degree := by
    have := far (p := pts 2) (q := query) rfl rfl (by norm_num [pts]) (by norm_num [pts]) rfl
    linarith
  have e3 : ¬ axisDist 1 (pts 2) query ≤ 2 * degree := by rw [split_lon]; linarith
  have e4 : ¬ axisDist 0 (pts 1) query ≤ 2 * degree := by rw [split_lat]; linarith
  have s1 : ¬ coord 0 query < coord 0 (pts 1) := by norm_num [coord, query, pts]
  have s2 : coord 1 query < coord 1 (pts 2) := by norm_num [coord, query, pts]
  simp [radiusSearch, radius, hpt 1 (by norm_num), hpt 2 (by norm_num), s1, s2, e1, e2, e3, e4]

/-- **C127 is false of the searches**: around a place to the east of the date line, a search with a radius of two degrees misses an event one
degree away, to the west of it.  When all are turned by 180 degrees, so that they are near the meridian of Greenwich, it is found. -/
theorem date_line_hides_events (nth : (axis : Nat) → NthElement (fun i => coord axis (pts i)))
    (nth' : (axis : Nat) → NthElement (fun i => coord axis (pts' i))) :
    (∀ i, Turned 180 (pts i) (pts' i)) ∧ Turned 180 query query' ∧
    computeDistance3D (pts 3) query = degree ∧ computeDistance3D (pts' 3) query' = degree ∧
    radiusSearch pts computeDistance3D axisDist query (ofPoints pts nth 4) (2 * degree) = [] ∧
    radiusSearch pts' computeDistance3D axisDist query' (ofPoints pts' nth' 4) (2 * degree) = [(degree, 3)] := by
  refine ⟨pts_turned, query_turned, near, near', ?_, ?_⟩
  · exact search_misses (fun _ _ => rfl) nth
  · rw [tree_of (fun i hi j hj => lat_order' hi hj) (by norm_num [coord, pts']) nth']
    have hd := degree_pos
    have e1 : ¬ computeDistance3D (pts' 1) query' ≤ 2 * degree := by
      have := far (p := pts' 1) (q := query') rfl rfl (by norm_num [pts']) (by norm_num [pts']) rfl
      linarith
    have e2 : ¬ computeDistance3D (pts' 2) query' ≤ 2 * degree := by
      have := far (p := pts' 2) (q := query') rfl rfl (by norm_num [pts']) (by norm_num [pts']) rfl
      linarith
    have e3 : computeDistance3D (pts' 3) query' ≤ 2 * degree := by rw [near']; linarith
    have e4 : ¬ axisDist 0 (pts' 1) query' ≤ 2 * degree := by rw [split_lat']; linarith
    have s1 : ¬ coord 0 query' < coord 0 (pts' 1) := by norm_num [coord, query', pts']
    have s2 : ¬ coord 1 query' < coord 1 (pts' 2) := by norm_num [coord, query', pts']
    have e5 : degree ≤ 2 * degree := by linarith
    simp [radiusSearch, radius, s1, s2, e1, e2, e3, e4, e5, near', emplace]

/-- **C127 is false of the selection of neighbours**: with the ellipsoids, which are used by default, an event to the east of the date line
gets no neighbour at all, although an event one degree to the west of it is eligible and in the outermost ellipsoid. -/
theorem date_line_hides_neighbours (nth : (pt : Nat → Pt ℝ) → (axis : Nat) → NthElement (fun i => coord axis (pt i))) :
    ∃ (cat refCat : Catalog ℝ) (cfg : Config ℝ) (ref : Event ℝ), eventPt ref = query ∧
      (∀ i < 4, cat.events.find? (i + 1) = some ⟨i + 1, 0, (pts i).lat, (pts i).lon, (pts i).depth, 0, false, 0, 0⟩) ∧
      cfg.maxNumNeigh = 40 ∧ cfg.numEllipsoids = 5 ∧ isInside (cfg.maxNeighbourDist * 2) (eventPt ref) (pts 3) = true ∧
      Eligible geometry cfg cat ref refCat 4 (computeDistance3D (pts 3) (eventPt ref)) ∧
      ∀ pop, selectNeighbours geometry cfg cat ref refCat pop (createEventTree nth cat) = .ok (Neighbours.empty ref.id) := by
  let sta : Station ℝ := ⟨"N.A.", 0, 0, 0, "N", "A", ""⟩
  let ref : Event ℝ := ⟨9, 0, 0, -179.5, 0, 0, false, 0, 0⟩
  let ev : Nat → Event ℝ := fun i => ⟨i + 1, 0, (pts i).lat, (pts i).lon, (pts i).depth, 0, false, 0, 0⟩
  let ph : Nat → Phase ℝ := fun id => ⟨id, "N.A.", 0, 0, 0, "P", "N", "A", "", "H", .P, 1, .catalog, false, 0, 0, 0⟩
  let cat : Catalog ℝ := ⟨[("N.A.", sta)], [(1, ev 0), (2, ev 1), (3, ev 2), (4, ev 3)], [(4, ph 4)]⟩
  let refCat : Catalog ℝ := ⟨[("N.A.", sta)], [(9, ref)], [(9, ph 9)]⟩
  let cfg : Config ℝ := ⟨0, 0, 0, 1, 0, 40, 5, degree⟩
  have hpts : (createEventTree nth cat).points = [(pts 0, 1), (pts 1, 2), (pts 2, 3), (pts 3, 4)] := by
    simp [createEventTree, Catalog.eventsSorted, cat, ev, eventPt]
  refine ⟨cat, refCat, cfg, ref, rfl, ?_, rfl, rfl, ?_, ?_, ?_⟩
  · intro i hi
    interval_cases i <;> rfl
  · have h := near
    rw [dist3D_eq, if_pos (by simp [pts, query]; norm_num)] at h
    have e : earthRadius - ((pts 3).depth + query.depth) / 2 = earthRadius - query.depth := by simp [pts, query]
    rw [e] at h
    show isInside (degree * 2) query (pts 3) = true
    rw [isInside_iff, h]
    have hd := degree_pos
    refine ⟨by linarith, ?_⟩
    have e2 : (pts 3).depth - query.depth = 0 := by simp [pts, query]
    rw [e2]
    nlinarith
  · refine ⟨by simp [ref], ev 3, rfl, [("N.A.", "P")], by simp, by simp, by simp [cfg], ?_⟩
    intro sp hsp
    simp only [List.mem_singleton] at hsp
    subst hsp
    refine ⟨sta, rfl, ⟨ph 4, ?_, by simp [ph], rfl, rfl⟩, ⟨ph 9, ?_, by simp [ph], rfl, rfl⟩, ?_, ?_, ?_⟩
    · simp [Catalog.phasesOf, cat, ev]
    · simp [Catalog.phasesOf, refCat, ref]
    · simp [WithinLimits, cfg]
    · simp [cfg]
    · simp [cfg]
  · intro pop
    have hpt : ∀ i < 4, (createEventTree nth cat).pt i = pts i := by
      intro i hi
      unfold EventTree.pt
      rw [hpts]
      interval_cases i <;> rfl
    have hlen : (createEventTree nth cat).points.length = 4 := by rw [hpts]; rfl
    have htree : (createEventTree nth cat).tree = ofPoints (createEventTree nth cat).pt (nth (createEventTree nth cat).pt) 4 := by
      rw [← hlen]; rfl
    have hc : candidates geometry cfg ref (createEventTree nth cat) = [] := by
      unfold candidates
      rw [htree]
      have h := search_misses hpt (nth (createEventTree nth cat).pt)
      rw [mul_comm] at h
      show List.filter _ (radiusSearch (createEventTree nth cat).pt computeDistance3D axisDist query
        (ofPoints (createEventTree nth cat).pt (nth (createEventTree nth cat).pt) 4) (degree * 2)) = []
      rw [h]; rfl
    unfold selectNeighbours ellipsoids
    simp [hc, cfg, Outcome.map]

end Fiji
end Verif.DateLine
