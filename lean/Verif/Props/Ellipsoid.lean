import Verif.Model.Ellipsoid
import Verif.Props.Selection
import Verif.Proofs.Transform
import Verif.Proofs.Geo

/-!
# C34: the layers and quadrants of the real geometry
-/

set_option linter.unusedSimpArgs false

namespace Verif.Geo
open Real Verif.Catalog Verif.Selection

/-- horizontal angle between two points, 0 when they are taken as identical -/
noncomputable def hAngle (p c : Pt ℝ) : ℝ := computeDistance p.lat p.lon c.lat c.lon 0 true

theorem hAngle_nonneg (p c : Pt ℝ) : 0 ≤ hAngle p c := by
  unfold hAngle
  by_cases h : Distinct p.lat p.lon c.lat c.lon
  · rw [computeDistance_rad h]; exact angle_nonneg _ _ _ _
  · rw [computeDistance_ident h]

theorem computeDistance_hAngle (p c : Pt ℝ) (d : ℝ) :
    computeDistance p.lat p.lon c.lat c.lon d false = hAngle p c * (earthRadius - d) := by
  unfold hAngle
  by_cases h : Distinct p.lat p.lon c.lat c.lon
  · rw [computeDistance_rad h, computeDistance_km h]
  · rw [computeDistance_ident h, computeDistance_ident h]; ring

/-- a point is inside when 4·h² + z² ≤ v², with the horizontal distance `h` at the depth of the centre -/
theorem isInside_iff (v : ℝ) (c p : Pt ℝ) : isInside v c p = true ↔
    v ≠ 0 ∧ 4 * (hAngle p c * (earthRadius - c.depth)) ^ 2 + (p.depth - c.depth) ^ 2 ≤ v ^ 2 := by
  unfold isInside
  simp only [decide_eq_true_eq, computeDistance_hAngle]
  refine and_congr_right ?_
  intro hv
  have hv2 : 0 < v ^ 2 := by positivity
  generalize hAngle p c * (earthRadius - c.depth) = h
  generalize computeAzimuth p.lat p.lon c.lat c.lon = az
  generalize p.depth - c.depth = z
  have e : (h * sin az / (v / 2)) ^ 2 + (h * cos az / (v / 2)) ^ 2 + (z / v) ^ 2 = (4 * h ^ 2 + z ^ 2) / v ^ 2 := by
    have := sin_sq_add_cos_sq az
    field_simp
    linear_combination 4 * h ^ 2 * this
  rw [e, div_le_one hv2]

/-- **C34** Every point lies in at least one quadrant. -/
theorem some_quadrant (c p : Pt ℝ) : ∃ q ∈ [1, 2, 3, 4, 5, 6, 7, 8], isInQuadrant c p q = true := by
  have hq : ∀ q, isInQuadrant c p q = true ↔
      ¬ (p.depth < c.depth ∧ q ∈ [1, 2, 3, 4]) ∧ ¬ (c.depth < p.depth ∧ q ∈ [5, 6, 7, 8]) ∧
      ¬ (p.lat < c.lat ∧ q ∈ [1, 2, 5, 6]) ∧ ¬ (c.lat < p.lat ∧ q ∈ [3, 4, 7, 8]) ∧
      ¬ (normalizeLon (p.lon - c.lon) < 0 ∧ q ∈ [1, 4, 5, 8]) ∧
      ¬ (0 < normalizeLon (p.lon - c.lon) ∧ q ∈ [2, 3, 6, 7]) := by
    intro q
    unfold isInQuadrant
    simp only
    split_ifs <;> simp_all
  simp only [hq]
  by_cases h1 : p.depth < c.depth <;> by_cases h2 : p.lat < c.lat <;> by_cases h3 : normalizeLon (p.lon - c.lon) < 0
  · exact ⟨7, by simp, by simp [h1, h2, h3, le_of_lt, not_lt.2]⟩
  · exact ⟨8, by simp, by simp [h1, h2, h3, le_of_lt]⟩
  · exact ⟨6, by simp, by simp [h1, h2, h3, le_of_lt]⟩
  · exact ⟨5, by simp, by simp [h1, h2, h3, le_of_lt]⟩
  · exact ⟨3, by simp, by simp [h1, h2, h3, le_of_lt]⟩
  · exact ⟨4, by simp, by simp [h1, h2, h3, le_of_lt]⟩
  · exact ⟨2, by simp, by simp [h1, h2, h3, le_of_lt]⟩
  · exact ⟨1, by simp, by simp [h1, h2, h3, le_of_lt]⟩

theorem isInside_zero (c p : Pt ℝ) : isInside 0 c p = false := by
  cases h : isInside 0 c p with
  | false => rfl
  | true => exact absurd rfl ((isInside_iff 0 c p).1 h).1

theorem isInside_mono (c p : Pt ℝ) (v w : ℝ) (hv : 0 < v) (hvw : v ≤ w) (h : isInside v c p = true) :
    isInside w c p = true := by
  rw [isInside_iff] at h ⊢
  exact ⟨by linarith, le_trans h.2 (by nlinarith)⟩

/-- **C34** A point inside the outermost ellipsoid lies in exactly one layer (of any number of layers). -/
theorem exactly_one_real_layer (c p : Pt ℝ) (v : ℝ) (hv : 0 < v) (n : Nat) (hn : 0 < n) (h : isInside v c p = true) :
    ∃! l, l ∈ layersFrom v n ∧ isInside l.2 c p = true ∧ isInside l.1 c p = false :=
  exactly_one_layer (g := geometry) c p v hv n hn (isInside_zero c p) (isInside_mono c p) h

theorem dist3D_eq (p c : Pt ℝ) : computeDistance3D p c =
    if |p.depth - c.depth| < 1e-7 then hAngle p c * (earthRadius - (p.depth + c.depth) / 2)
    else √((hAngle p c * (earthRadius - (p.depth + c.depth) / 2)) ^ 2 + |p.depth - c.depth| ^ 2) := by
  unfold computeDistance3D
  simp only [computeDistance_hAngle]

theorem dist3D_pos {p c : Pt ℝ} (h : p.depth + c.depth ≤ 2 * earthRadius) : 0 ≤ computeDistance3D p c := by
  rw [dist3D_eq]
  split
  · exact mul_nonneg (hAngle_nonneg _ _) (by linarith)
  · exact Real.sqrt_nonneg _

/-- **C34** The distance ranges in which the layers are searched are right for points at the depth of the
centre or above it, and for those sufficiently below it.  Partial: not for points slightly below it. -/
theorem layered_partial (c p : Pt ℝ) (hc : c.depth < earthRadius) (hp : p.depth ≤ earthRadius)
    (hz1 : -2 * (earthRadius - c.depth) ≤ p.depth - c.depth)
    (hz : p.depth = c.depth ∨ 1e-7 ≤ c.depth - p.depth ∨
      (1e-7 ≤ p.depth - c.depth ∧
        4 * (hAngle p c * (earthRadius - c.depth)) ^ 2 ≤ 3 * (p.depth - c.depth) * (earthRadius - c.depth))) :
    Layered geometry c p := by
  have hθ := hAngle_nonneg p c
  refine ⟨isInside_zero c p, isInside_mono c p, some_quadrant c p, ?_, ?_⟩
  · intro v hv h
    have h' := ((isInside_iff v c p).1 h).2
    show computeDistance3D p c ≤ v
    rw [dist3D_eq]
    generalize hAngle p c = θ at *
    obtain ⟨ρ, hρ⟩ : ∃ ρ, earthRadius - c.depth = ρ := ⟨_, rfl⟩
    obtain ⟨z, hz'⟩ : ∃ z, p.depth - c.depth = z := ⟨_, rfl⟩
    have e : earthRadius - (p.depth + c.depth) / 2 = ρ - z / 2 := by rw [← hρ, ← hz']; ring
    rw [e, hz']
    rw [hρ, hz'] at h'
    have hzρ : z ≤ ρ := by rw [← hρ, ← hz']; linarith
    have hρ0 : 0 < ρ := by rw [← hρ]; linarith
    have hz1' : -2 * ρ ≤ z := by rw [← hρ, ← hz']; linarith
    have h1 : (θ * (ρ - z / 2)) ^ 2 ≤ 4 * (θ * ρ) ^ 2 := by
      have hsq : (ρ - z / 2) ^ 2 ≤ 4 * ρ ^ 2 := by nlinarith
      have : θ ^ 2 * (ρ - z / 2) ^ 2 ≤ θ ^ 2 * (4 * ρ ^ 2) := mul_le_mul_of_nonneg_left hsq (sq_nonneg _)
      nlinarith
    split
    · exact abs_le_of_sq_le_sq' (by nlinarith [sq_nonneg z]) hv.le |>.2
    · rw [sq_abs]
      exact Real.sqrt_le_iff.2 ⟨hv.le, by linarith⟩
  · intro v hv h
    have h0 : 0 ≤ computeDistance3D p c := dist3D_pos (by linarith)
    show v / 2 ≤ computeDistance3D p c
    rcases eq_or_lt_of_le hv with rfl | hv
    · simpa using h0
    have h' : v ^ 2 < 4 * (hAngle p c * (earthRadius - c.depth)) ^ 2 + (p.depth - c.depth) ^ 2 := by
      by_contra hc'
      have := (isInside_iff v c p).2 ⟨by linarith, not_lt.1 hc'⟩
      rw [show isInside v c p = false from h] at this
      cases this
    rw [dist3D_eq] at h0 ⊢
    generalize hAngle p c = θ at *
    obtain ⟨ρ, hρ⟩ : ∃ ρ, earthRadius - c.depth = ρ := ⟨_, rfl⟩
    obtain ⟨z, hz'⟩ : ∃ z, p.depth - c.depth = z := ⟨_, rfl⟩
    have e : earthRadius - (p.depth + c.depth) / 2 = ρ - z / 2 := by rw [← hρ, ← hz']; ring
    rw [e, hz'] at h0 ⊢
    rw [hρ, hz'] at h'
    have hzρ : z ≤ ρ := by rw [← hρ, ← hz']; linarith
    have hρ0 : 0 < ρ := by rw [← hρ]; linarith
    rcases hz with hz | hz | ⟨hz, hz2⟩
    · have hz0 : z = 0 := by rw [← hz', hz]; ring
      subst hz0
      rw [if_pos (by norm_num)]
      have h1 : 0 ≤ θ * ρ := mul_nonneg hθ hρ0.le
      have : v < 2 * (θ * ρ) := by
        by_contra hc'
        nlinarith
      simp only [zero_div, sub_zero]
      linarith
    · have hz0 : z ≤ -1e-7 := by rw [← hz']; linarith
      rw [if_neg (by rw [abs_of_neg (by linarith)]; linarith), sq_abs]
      refine Real.le_sqrt_of_sq_le ?_
      have h2 : (θ * ρ) ^ 2 ≤ (θ * (ρ - z / 2)) ^ 2 := by
        apply pow_le_pow_left₀ (mul_nonneg hθ hρ0.le)
        exact mul_le_mul_of_nonneg_left (by linarith) hθ
      nlinarith [sq_nonneg z]
    · rw [hρ, hz'] at hz2
      rw [hz'] at hz
      have hz0 : 0 < z := by linarith
      rw [if_neg (by rw [abs_of_pos hz0]; linarith), sq_abs]
      refine Real.le_sqrt_of_sq_le ?_
      have h3 : 4 * θ ^ 2 * ρ ≤ 3 * z := by
        by_contra hc'
        push Not at hc'
        have := mul_lt_mul_of_pos_right hc' hρ0
        nlinarith
      have h4 : 4 * θ ^ 2 * ρ * z ≤ 3 * z * z := mul_le_mul_of_nonneg_right h3 hz0.le
      nlinarith [sq_nonneg (θ * z)]

example : Layered geometry ⟨46, 8, 10⟩ ⟨46.1, 8, 9⟩ := by
  have hR : earthRadius = 6371.00877141506 := rfl
  exact layered_partial _ _ (by rw [hR]; norm_num) (by rw [hR]; norm_num) (by rw [hR]; norm_num)
    (Or.inr (Or.inl (by norm_num)))

/-! ## the "safety belt" of clustering.cpp:584-590 can be reached -/

/-- a point 1 km east of the origin and 10 cm below it -/
noncomputable def slightlyBelow : Pt ℝ := ⟨0, radToDeg (1 / earthRadius), 1e-4⟩

theorem hAngle_slightlyBelow : hAngle slightlyBelow ⟨0, 0, 0⟩ = 1 / earthRadius := by
  have hR : earthRadius = 6371.00877141506 := rfl
  have hd : degToRad (0 - radToDeg (1 / earthRadius)) = -(1 / earthRadius) := by
    unfold degToRad radToDeg
    field_simp [pi_ne_zero]
    ring
  have hdist : Distinct 0 (radToDeg (1 / earthRadius)) 0 0 := by
    rintro ⟨-, h⟩
    rw [hd, abs_neg, hR, abs_of_pos (by norm_num)] at h
    norm_num at h
  unfold hAngle slightlyBelow
  simp only
  rw [computeDistance_rad hdist]
  unfold angle
  rw [haversine_lon, hd, Real.sqrt_sq_eq_abs]
  have e : -(1 / earthRadius) / 2 = -(1 / earthRadius / 2) := by ring
  have hs : 0 ≤ sin (1 / earthRadius / 2) := by
    apply sin_nonneg_of_nonneg_of_le_pi
    · rw [hR]; norm_num
    · rw [hR]; have := two_le_pi; norm_num at *; linarith
  rw [e, sin_neg, abs_neg, abs_of_nonneg hs, arcsin_sin]
  · ring
  · rw [hR]; have := two_le_pi; norm_num at *; linarith
  · rw [hR]; have := two_le_pi; norm_num at *; linarith

theorem slightlyBelow_dist : computeDistance3D slightlyBelow ⟨0, 0, 0⟩ < 1 := by
  rw [dist3D_eq, hAngle_slightlyBelow]
  have hR : earthRadius = 6371.00877141506 := rfl
  unfold slightlyBelow
  simp only
  rw [if_neg (by norm_num [abs_of_pos]), hR]
  rw [Real.sqrt_lt' (by norm_num)]
  norm_num [abs_of_pos]

/-- **C34** (negation) The layers do not cover every event inside the outermost ellipsoid at the distances
where they are searched. With two layers and a maximum distance of 2 km, an event 1 km away and 10 cm deeper
is inside the ellipsoid but is in no layer at its distance. -/
theorem layer_ranges_miss :
    isInside 4 ⟨0, 0, 0⟩ slightlyBelow = true ∧ computeDistance3D slightlyBelow ⟨0, 0, 0⟩ ≤ 4 ∧
    ∀ cell ∈ cells (2 * 2 : ℝ) 2, ¬ (inRange cell (computeDistance3D slightlyBelow ⟨0, 0, 0⟩) = true ∧
      inCell geometry ⟨0, 0, 0⟩ cell slightlyBelow = true) := by
  have hR : earthRadius = 6371.00877141506 := rfl
  have hd := slightlyBelow_dist
  have hin : ∀ v, isInside v ⟨0, 0, 0⟩ slightlyBelow = true ↔ v ≠ 0 ∧ 4 + (1e-4 : ℝ) ^ 2 ≤ v ^ 2 := by
    intro v
    rw [isInside_iff, hAngle_slightlyBelow]
    have e : 1 / earthRadius * (earthRadius - (⟨0, 0, 0⟩ : Pt ℝ).depth) = 1 := by
      rw [hR]; norm_num
    rw [e]
    have e2 : slightlyBelow.depth - (⟨0, 0, 0⟩ : Pt ℝ).depth = 1e-4 := by unfold slightlyBelow; norm_num
    rw [e2]
    norm_num
  refine ⟨(hin 4).2 (by norm_num), by linarith, ?_⟩
  rintro ⟨⟨inner, outer⟩, q⟩ hc ⟨h1, h2⟩
  unfold cells layersFrom layersFrom at hc
  simp only [List.singleton_append, List.flatMap_cons, List.flatMap_nil, List.append_nil, List.mem_append,
    List.mem_map, Prod.mk.injEq] at hc
  rcases hc with ⟨q', -, ⟨rfl, rfl⟩, rfl⟩ | ⟨q', -, ⟨rfl, rfl⟩, rfl⟩
  · unfold inCell geometry at h2
    simp only [Bool.and_eq_true] at h2
    have := (hin _).1 h2.2.1
    norm_num at this
  · unfold inRange at h1
    simp only [decide_eq_true_eq] at h1
    linarith [h1.1]

/-- **C29, C34** (negation) With two events, a common phase and no constraint, the eligible event inside the
outermost ellipsoid is not selected although no limit is reached: the search gives up. -/
theorem eligible_event_lost :
    ∃ (t : EventTree ℝ) (cat : Catalog ℝ) (cfg : Config ℝ) (ref : Event ℝ), t.WF ∧ eventPt ref = ⟨0, 0, 0⟩ ∧
      (slightlyBelow, 2) ∈ t.points ∧ isInside (cfg.maxNeighbourDist * 2) (eventPt ref) slightlyBelow = true ∧
      cfg.maxNumNeigh = 10 ∧
      Eligible geometry cfg cat ref cat 2 (computeDistance3D slightlyBelow (eventPt ref)) ∧
      ∀ pop, ∃ nb, selectNeighbours geometry cfg cat ref cat pop t = .ok nb ∧ 2 ∉ nb.ids := by
  let sta : Station ℝ := ⟨"N.A.", 0, 0, 0, "N", "A", ""⟩
  let ref : Event ℝ := ⟨1, 0, 0, 0, 0, 0, false, 0, 0⟩
  let ev2 : Event ℝ := ⟨2, 0, slightlyBelow.lat, slightlyBelow.lon, slightlyBelow.depth, 0, false, 0, 0⟩
  let ph : Nat → Phase ℝ := fun id => ⟨id, "N.A.", 0, 0, 0, "P", "N", "A", "", "H", .P, 1, .catalog, false, 0, 0, 0⟩
  let cat : Catalog ℝ := ⟨[("N.A.", sta)], [(1, ref), (2, ev2)], [(1, ph 1), (2, ph 2)]⟩
  let t : EventTree ℝ := ⟨[(⟨0, 0, 0⟩, 1), (slightlyBelow, 2)], .node 0 0 .nil (.node 1 1 .nil .nil)⟩
  let cfg : Config ℝ := ⟨0, 0, 0, 1, 0, 10, 2, 2⟩
  have ht : t.WF := by
    refine ⟨by decide, by decide, ?_⟩
    refine ⟨rfl, by simp [KdTree.contents], ?_, trivial, ⟨rfl, by simp [KdTree.contents], by simp [KdTree.contents], trivial, trivial⟩⟩
    intro i hi
    simp only [KdTree.contents, List.nil_append, List.mem_singleton] at hi
    subst hi
    exact le_of_eq rfl
  have hid : ∀ id e, cat.events.find? id = some e → e.id = id := by
    intro id e h
    have := AMap.mem_of_find? h
    simp only [cat, List.mem_cons, Prod.mk.injEq, List.not_mem_nil, or_false] at this
    rcases this with ⟨rfl, rfl⟩ | ⟨rfl, rfl⟩ <;> rfl
  have hph : ∀ kp ∈ cat.phases, (cat.stations.find? kp.2.stationId).isSome := by
    intro kp hkp
    simp only [cat, List.mem_cons, List.not_mem_nil, or_false] at hkp
    rcases hkp with rfl | rfl <;> rfl
  obtain ⟨m1, m2, m3⟩ := layer_ranges_miss
  refine ⟨t, cat, cfg, ref, ht, rfl, by simp [t], ?_, rfl, ?_, ?_⟩
  · have : cfg.maxNeighbourDist * 2 = 4 := by simp only [cfg]; norm_num
    rw [this]; exact m1
  · refine ⟨by simp [ref], ev2, rfl, [("N.A.", "P")], by simp, by simp, by simp [cfg], ?_⟩
    intro sp hsp
    simp only [List.mem_singleton] at hsp
    subst hsp
    refine ⟨sta, rfl, ⟨ph 2, ?_, by simp [ph], rfl, rfl⟩, ⟨ph 1, ?_, by simp [ph], rfl, rfl⟩, ?_, ?_, ?_⟩
    · simp [Catalog.phasesOf, cat, ev2]
    · simp [Catalog.phasesOf, cat, ref]
    · simp [WithinLimits, cfg]
    · simp [cfg]
    · simp [cfg]
  · intro pop
    obtain ⟨nb, hnb⟩ := selection_returns (g := geometry) (cfg := cfg) (refEv := ref) (refCat := cat) pop t ht hph
    refine ⟨nb, hnb, ?_⟩
    refine unmatched_not_selected t ht hid ?_ pop nb hnb slightlyBelow 2 (by simp [t]) m3
    unfold NearestMode
    simp [cfg]

end Verif.Geo
