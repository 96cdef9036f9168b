import Verif.Proofs.Geo
import Verif.Props.KdTree
import Mathlib.Analysis.SpecialFunctions.Trigonometric.Bounds
import Mathlib.Tactic.Linarith
import Mathlib.Tactic.IntervalCases
import Mathlib.Data.List.Permutation

/-!
# C27: the axis distance as a lower bound, and what the spatial index guarantees with the real distances

C27 is false of the code in three ways, each shown by a concrete pair of points; C24–C26 fail with it.
The partial theorems tell what remains true.
-/

set_option linter.unusedSectionVars false
set_option linter.unusedSimpArgs false

namespace Verif.Geo
open Real KdTree

/-- `c` separates `q` from `p` along the axis, or is level with one of them -/
def Between (axis : Nat) (q c p : Pt ℝ) : Prop :=
  (coord axis q < coord axis c ∧ coord axis c ≤ coord axis p) ∨
  (coord axis p ≤ coord axis c ∧ coord axis c ≤ coord axis q)

theorem Between.abs {axis : Nat} {q c p : Pt ℝ} (h : Between axis q c p) :
    |coord axis q - coord axis c| ≤ |coord axis q - coord axis p| := by
  rcases h with ⟨h1, h2⟩ | ⟨h1, h2⟩
  · rw [abs_of_nonpos (by linarith), abs_of_nonpos (by linarith)]; linarith
  · rw [abs_of_nonneg (by linarith), abs_of_nonneg (by linarith)]; linarith

/-- valid latitude -/
def LatOk (p : Pt ℝ) : Prop := -90 ≤ p.lat ∧ p.lat ≤ 90

/-- **C27, latitude axis (partial).** The latitude distance is a lower bound up to the factor that
accounts for the depth: the code measures it at the surface but the distance at the average depth. -/
theorem latitude_bound_partial {p q c : Pt ℝ} (hp : LatOk p) (hq : LatOk q) (hb : Between 0 q c p)
    (hd : (p.depth + q.depth) / 2 ≤ earthRadius) :
    axisDist 0 c q * (1 - (p.depth + q.depth) / 2 / earthRadius) ≤ computeDistance3D p q := by
  refine le_trans ?_ (dist3D_ge_horizontal hd)
  have hR := earthRadius_pos
  have habs : |q.lat - c.lat| ≤ |q.lat - p.lat| := hb.abs
  generalize hD : (p.depth + q.depth) / 2 = D at *
  have hfac : (1 - D / earthRadius) * earthRadius = earthRadius - D := by field_simp
  by_cases hpq : Distinct p.lat p.lon q.lat q.lon
  · rw [computeDistance_km hpq]
    have hnn := mul_nonneg (angle_nonneg p.lat p.lon q.lat q.lon) (sub_nonneg.2 hd)
    by_cases hcq : Distinct c.lat 0 q.lat 0
    · have e : axisDist 0 c q = angle c.lat 0 q.lat 0 * earthRadius := by
        unfold axisDist; simp only; rw [computeDistance_km hcq, sub_zero]
      rw [e, mul_assoc, mul_comm earthRadius, hfac]
      apply mul_le_mul_of_nonneg_right _ (sub_nonneg.2 hd)
      apply angle_mono
      rw [haversine_lat]
      refine le_trans (sin_half_mono habs ?_) (haversine_ge_lat hp.1 hp.2 hq.1 hq.2)
      rw [abs_le]; constructor <;> linarith [hp.1, hp.2, hq.1, hq.2]
    · have e : axisDist 0 c q = 0 := by unfold axisDist; simp only; rw [computeDistance_ident hcq]
      rw [e]; linarith
  · have e : axisDist 0 c q = 0 := by
      unfold axisDist
      apply computeDistance_ident
      unfold Distinct at hpq ⊢
      rw [not_not] at hpq ⊢
      refine ⟨?_, by simp [degToRad]; norm_num⟩
      rw [abs_sub_comm]; rw [abs_sub_comm] at hpq; exact lt_of_le_of_lt habs hpq.1
    rw [e, computeDistance_ident hpq]; simp

/-- For points at or above sea level it is a lower bound. -/
theorem latitude_bound_surface_partial {p q c : Pt ℝ} (hp : LatOk p) (hq : LatOk q) (hb : Between 0 q c p)
    (hd : (p.depth + q.depth) / 2 ≤ 0) : axisDist 0 c q ≤ computeDistance3D p q := by
  have hR := earthRadius_pos
  refine le_trans ?_ (latitude_bound_partial hp hq hb (by linarith))
  have h0 : 0 ≤ axisDist 0 c q := by
    unfold axisDist
    by_cases h : Distinct c.lat 0 q.lat 0
    · simp only; rw [computeDistance_km h, sub_zero]; exact mul_nonneg (angle_nonneg _ _ _ _) hR.le
    · simp only; rw [computeDistance_ident h]
  have : (p.depth + q.depth) / 2 / earthRadius ≤ 0 := div_nonpos_of_nonpos_of_nonneg hd hR.le
  nlinarith

/-- **C27, depth axis (partial).** The depth difference is a lower bound, up to the 1e-7 km below which
the code ignores it. -/
theorem depth_bound_partial {p q c : Pt ℝ} (hb : Between 2 q c p) (hd : (p.depth + q.depth) / 2 ≤ earthRadius) :
    axisDist 2 c q ≤ computeDistance3D p q + 1e-7 := by
  refine le_trans ?_ (dist3D_ge_vertical hd)
  have habs : |q.depth - c.depth| ≤ |q.depth - p.depth| := hb.abs
  unfold axisDist
  simp only
  rw [abs_sub_comm, abs_sub_comm p.depth]; exact habs

/-- **C27, longitude axis (partial).** For latitudes up to `L` degrees and a longitude difference of at
most half a turn, the longitude distance scaled by 2 cos L / π is a lower bound. -/
theorem longitude_bound_partial {p q c : Pt ℝ} {L : ℝ} (hL : L ≤ 90) (hp : |p.lat| ≤ L) (hq : |q.lat| ≤ L)
    (hb : Between 1 q c p) (hlon : |q.lon - p.lon| ≤ 180) (hd : (p.depth + q.depth) / 2 ≤ earthRadius) :
    axisDist 1 c q * (2 / π * cos (degToRad L)) * (1 - (p.depth + q.depth) / 2 / earthRadius) ≤
      computeDistance3D p q := by
  refine le_trans ?_ (dist3D_ge_horizontal hd)
  have hR := earthRadius_pos
  have habs : |q.lon - c.lon| ≤ |q.lon - p.lon| := hb.abs
  generalize hD : (p.depth + q.depth) / 2 = D at *
  have hfac : earthRadius * (1 - D / earthRadius) = earthRadius - D := by field_simp
  have hL0 : 0 ≤ L := le_trans (abs_nonneg _) hp
  have hcL : 0 ≤ cos (degToRad L) := cos_lat_nonneg (by linarith) hL
  by_cases hpq : Distinct p.lat p.lon q.lat q.lon
  · rw [computeDistance_km hpq]
    have hnn := mul_nonneg (angle_nonneg p.lat p.lon q.lat q.lon) (sub_nonneg.2 hd)
    by_cases hcq : Distinct 0 c.lon 0 q.lon
    · have e : axisDist 1 c q = angle 0 c.lon 0 q.lon * earthRadius := by
        unfold axisDist; simp only; rw [computeDistance_km hcq, sub_zero]
      have e2 : axisDist 1 c q * (2 / π * cos (degToRad L)) * (1 - D / earthRadius) =
          (angle 0 c.lon 0 q.lon * (2 / π * cos (degToRad L))) * (earthRadius - D) := by
        rw [e, ← hfac]; ring
      rw [e2]
      apply mul_le_mul_of_nonneg_right _ (sub_nonneg.2 hd)
      -- half angles
      have s1 := mul_le_sin (x := angle 0 c.lon 0 q.lon / 2) (by linarith [angle_nonneg 0 c.lon 0 q.lon])
        (by linarith [angle_le_pi 0 c.lon 0 q.lon])
      rw [sin_half_angle, haversine_lon] at s1
      have s2 : √(sin (degToRad (q.lon - c.lon) / 2) ^ 2) ≤ √(sin (degToRad (q.lon - p.lon) / 2) ^ 2) :=
        Real.sqrt_le_sqrt (sin_half_mono habs hlon)
      have hcos : ∀ x : ℝ, |x| ≤ L → cos (degToRad L) ≤ cos (degToRad x) := by
        intro x hx
        rw [← cos_abs (degToRad x), abs_degToRad]
        apply cos_le_cos_of_nonneg_of_le_pi
        · unfold degToRad; have := mul_nonneg pi_pos.le (abs_nonneg x); linarith
        · have := degToRad_mono hL; unfold degToRad at this ⊢; linarith [pi_pos]
        · exact degToRad_mono hx
      have s3 : cos (degToRad L) * √(sin (degToRad (q.lon - p.lon) / 2) ^ 2) ≤ √(haversine p.lat p.lon q.lat q.lon) := by
        rw [← Real.sqrt_sq hcL, ← Real.sqrt_mul (sq_nonneg _)]
        apply Real.sqrt_le_sqrt
        unfold haversine
        have hc2 : cos (degToRad L) ^ 2 ≤ cos (degToRad p.lat) * cos (degToRad q.lat) := by
          rw [sq]; exact mul_le_mul (hcos _ hp) (hcos _ hq) hcL (le_trans hcL (hcos _ hp))
        have := mul_le_mul_of_nonneg_right hc2 (sq_nonneg (sin (degToRad (q.lon - p.lon) / 2)))
        have := sq_nonneg (sin (degToRad (q.lat - p.lat) / 2))
        linarith
      have s4 : √(haversine p.lat p.lon q.lat q.lon) ≤ angle p.lat p.lon q.lat q.lon / 2 := by
        rw [← sin_half_angle]
        exact sin_le (by linarith [angle_nonneg p.lat p.lon q.lat q.lon])
      have s5 := mul_le_mul_of_nonneg_left (le_trans s1 s2) hcL
      have s6 : cos (degToRad L) * (2 / π * (angle 0 c.lon 0 q.lon / 2)) ≤ angle p.lat p.lon q.lat q.lon / 2 :=
        le_trans s5 (le_trans s3 s4)
      linarith
    · have e : axisDist 1 c q = 0 := by unfold axisDist; simp only; rw [computeDistance_ident hcq]
      rw [e]; linarith
  · have e : axisDist 1 c q = 0 := by
      unfold axisDist
      apply computeDistance_ident
      unfold Distinct at hpq ⊢
      rw [not_not] at hpq ⊢
      refine ⟨by norm_num, lt_of_le_of_lt ?_ hpq.2⟩
      rw [abs_degToRad, abs_degToRad]; exact degToRad_mono habs
    rw [e, computeDistance_ident hpq]; simp

/-- factor by which the axis distance may exceed the distance, for latitudes up to `L` and average
depths up to `D` -/
noncomputable def factor (L D : ℝ) : ℝ := π / (2 * cos (degToRad L)) * (earthRadius / (earthRadius - D))

theorem factor_mul {L D x y : ℝ} (hL0 : 0 ≤ L) (hL : L < 90) (hD : D < earthRadius)
    (h : x * (2 / π * cos (degToRad L)) * (1 - D / earthRadius) ≤ y) : x ≤ factor L D * y := by
  have hR := earthRadius_pos
  have hc : 0 < cos (degToRad L) := by
    apply cos_pos_of_mem_Ioo
    constructor
    · have := degToRad_mono hL0; unfold degToRad at this ⊢; linarith [pi_pos]
    · unfold degToRad
      have := mul_lt_mul_of_pos_left hL pi_pos; linarith
  have hRD : 0 < earthRadius - D := by linarith
  have hf : 0 ≤ factor L D := by unfold factor; positivity
  have := mul_le_mul_of_nonneg_left h hf
  refine le_trans (le_of_eq ?_) this
  unfold factor
  field_simp

/-- **C27 (partial), all axes.** Within latitudes ±L and depths in [0, D], when the longitudes span at
most half a turn, the axis distance exceeds the distance at most by the factor and 1e-7 km. -/
theorem axis_bound_partial {p q c : Pt ℝ} {L D : ℝ} (hL : L < 90) (hp : |p.lat| ≤ L) (hq : |q.lat| ≤ L)
    (hlon : |q.lon - p.lon| ≤ 180) (hD : D < earthRadius)
    (hp0 : 0 ≤ p.depth) (hpD : p.depth ≤ D) (hq0 : 0 ≤ q.depth) (hqD : q.depth ≤ D)
    {axis : Nat} (ha : axis < 3) (hb : Between axis q c p) :
    axisDist axis c q ≤ factor L D * computeDistance3D p q + 1e-7 := by
  have hR := earthRadius_pos
  have hd : (p.depth + q.depth) / 2 ≤ earthRadius := by linarith
  have hL0 : 0 ≤ L := le_trans (abs_nonneg _) hp
  have heps : (0 : ℝ) ≤ 1e-7 := by norm_num
  have hax : ∀ a, 0 ≤ axisDist a c q := by
    intro a
    unfold axisDist
    split
    · by_cases h : Distinct c.lat 0 q.lat 0
      · rw [computeDistance_km h, sub_zero]; exact mul_nonneg (angle_nonneg _ _ _ _) hR.le
      · rw [computeDistance_ident h]
    · by_cases h : Distinct 0 c.lon 0 q.lon
      · rw [computeDistance_km h, sub_zero]; exact mul_nonneg (angle_nonneg _ _ _ _) hR.le
      · rw [computeDistance_ident h]
    · exact abs_nonneg _
  have hcL : 0 ≤ cos (degToRad L) := cos_lat_nonneg (by linarith) hL.le
  have hcL1 : cos (degToRad L) ≤ 1 := cos_le_one _
  have hk1 : 2 / π * cos (degToRad L) ≤ 1 := by
    have : 2 / π ≤ 1 := by rw [div_le_one pi_pos]; exact two_le_pi
    nlinarith [div_nonneg (zero_le_two (α := ℝ)) pi_pos.le]
  have hk0 : 0 ≤ 2 / π * cos (degToRad L) := mul_nonneg (div_nonneg zero_le_two pi_pos.le) hcL
  have hDR : 1 - D / earthRadius ≤ 1 - (p.depth + q.depth) / 2 / earthRadius := by
    have := div_le_div_of_nonneg_right (show (p.depth + q.depth) / 2 ≤ D by linarith) hR.le
    linarith
  have hDR0 : 0 ≤ 1 - D / earthRadius := by
    have := (div_le_one hR).2 hD.le; linarith
  have hDR1 : 1 - D / earthRadius ≤ 1 := by
    have := div_nonneg (show 0 ≤ D by linarith) hR.le; linarith
  -- the scaled axis distance is at most the weaker scalings
  have weaken : ∀ {x e : ℝ}, 0 ≤ x → 1 - D / earthRadius ≤ e →
      x * (2 / π * cos (degToRad L)) * (1 - D / earthRadius) ≤ x * (2 / π * cos (degToRad L)) * e :=
    fun hx he => mul_le_mul_of_nonneg_left he (mul_nonneg hx hk0)
  match axis, ha with
  | 0, _ =>
    have h1 := latitude_bound_partial (p := p) (q := q) (c := c)
      (by have := abs_le.1 hp; constructor <;> linarith [this.1, this.2])
      (by have := abs_le.1 hq; constructor <;> linarith [this.1, this.2]) hb hd
    have h2 : axisDist 0 c q ≤ factor L D * computeDistance3D p q := by
      apply factor_mul hL0 hL hD
      refine le_trans ?_ h1
      refine le_trans (weaken (hax 0) hDR) ?_
      have : axisDist 0 c q * (2 / π * cos (degToRad L)) ≤ axisDist 0 c q := by
        nlinarith [hax 0]
      exact mul_le_mul_of_nonneg_right this (le_trans hDR0 hDR)
    linarith
  | 1, _ =>
    have h1 := longitude_bound_partial (p := p) (q := q) (c := c) hL.le hp hq hb hlon hd
    have h2 : axisDist 1 c q ≤ factor L D * computeDistance3D p q :=
      factor_mul hL0 hL hD (le_trans (weaken (hax 1) hDR) h1)
    linarith
  | 2, _ =>
    have h1 := depth_bound_partial hb hd
    have h3 : computeDistance3D p q ≤ factor L D * computeDistance3D p q := by
      apply factor_mul hL0 hL hD
      have h0 : 0 ≤ computeDistance3D p q := le_trans (dist3D_nonneg hd) (dist3D_ge_horizontal hd)
      have : (2 / π * cos (degToRad L)) * (1 - D / earthRadius) ≤ 1 := by nlinarith
      nlinarith
    linarith

/-- **C24 with the code's distances (partial).** In a region within latitudes ±L, depths in [0, D] and
half a turn of longitude, the radius search returns only points within the radius, each once with its
distance and sorted, and misses no point whose distance, increased by the factor and 1e-7 km, is within
the radius. -/
theorem radius_search_real_partial (pt : Nat → Pt ℝ) (nth : (axis : Nat) → NthElement (fun i => coord axis (pt i)))
    (n : Nat) (q : Pt ℝ) {L D : ℝ} (hL : L < 90) (hD : D < earthRadius)
    (hpt : ∀ i < n, |(pt i).lat| ≤ L ∧ |q.lon - (pt i).lon| ≤ 180 ∧ 0 ≤ (pt i).depth ∧ (pt i).depth ≤ D)
    (hq : |q.lat| ≤ L ∧ 0 ≤ q.depth ∧ q.depth ≤ D) (rad : ℝ) :
    Sorted (radiusSearch pt computeDistance3D axisDist q (ofPoints pt nth n) rad) ∧
    ∃ found : List Nat, found.Nodup ∧ (∀ i ∈ found, i < n ∧ computeDistance3D (pt i) q ≤ rad) ∧
      (∀ i < n, computeDistance3D (pt i) q ≤ rad → factor L D * computeDistance3D (pt i) q + 1e-7 ≤ rad → i ∈ found) ∧
      (radiusSearch pt computeDistance3D axisDist q (ofPoints pt nth n) rad).Perm
        (withDist pt computeDistance3D q found) := by
  obtain ⟨hp, ho⟩ := tree_holds_points pt nth n
  have hmem : ∀ i, i ∈ contents (ofPoints pt nth n) ↔ i < n := fun i => by rw [hp.mem_iff, List.mem_range]
  obtain ⟨h1, M, h2, h3, h4⟩ := radius_slack (dist := computeDistance3D) (axisDist := axisDist) (q := q)
    (f := fun j => factor L D * computeDistance3D (pt j) q + 1e-7) ho
    (fun axis ha c hc j hj hb => by
      obtain ⟨k1, k2, k3, k4⟩ := hpt j ((hmem j).1 hj)
      exact axis_bound_partial hL k1 hq.1 k2 hD k3 k4 hq.2.1 hq.2.2 ha hb) rad [] List.Pairwise.nil
  refine ⟨h1, M.filter (fun i => decide (computeDistance3D (pt i) q ≤ rad)), ?_, ?_, ?_, ?_⟩
  · exact List.Nodup.filter _ (h2.nodup (hp.symm.nodup List.nodup_range))
  · intro i hi
    obtain ⟨hi, hd⟩ := List.mem_filter.1 hi
    exact ⟨(hmem i).1 (h2.subset hi), by simpa using hd⟩
  · intro i hi hd hf
    exact List.mem_filter.2 ⟨h3 i ((hmem i).2 hi) hd hf, by simpa using hd⟩
  · rw [List.append_nil] at h4
    exact h4

/-! ## Negations -/

/-- **C27 is false on the latitude axis below sea level**: two points 10 km deep, one degree apart. -/
theorem latitude_bound_false : ∃ p q c : Pt ℝ, LatOk p ∧ LatOk q ∧ Between 0 q c p ∧
    computeDistance3D p q < axisDist 0 c q := by
  refine ⟨⟨1, 0, 10⟩, ⟨0, 0, 10⟩, ⟨1, 0, 10⟩, by constructor <;> norm_num, by constructor <;> norm_num,
    .inl (by norm_num [coord]), ?_⟩
  have hd : Distinct 1 0 0 0 := by unfold Distinct; norm_num
  have e1 : computeDistance3D ⟨1, 0, 10⟩ ⟨0, 0, 10⟩ = angle 1 0 0 0 * (earthRadius - 10) := by
    unfold computeDistance3D
    simp only
    rw [if_pos (by norm_num), computeDistance_km hd]; norm_num
  have e2 : axisDist 0 ⟨1, 0, 10⟩ ⟨0, 0, 10⟩ = angle 1 0 0 0 * earthRadius := by
    unfold axisDist; simp only; rw [computeDistance_km hd, sub_zero]
  rw [e1, e2]
  have hpos : 0 < angle 1 0 0 0 := by
    have h0 : haversine 0 0 0 0 < haversine 1 0 0 0 := by
      rw [haversine_lat, haversine_lat]
      have : sin (degToRad (0 - 1) / 2) ≠ 0 := by
        have : sin (degToRad (0 - 1) / 2) < 0 := by
          apply sin_neg_of_neg_of_neg_pi_lt <;> unfold degToRad <;> linarith [pi_pos]
        exact ne_of_lt this
      have := pow_pos (abs_pos.2 this) 2
      rw [sq_abs] at this
      have e : degToRad (0 - 0) / 2 = 0 := by simp [degToRad]
      rw [e, sin_zero]; linarith
    exact lt_of_le_of_lt (angle_nonneg 0 0 0 0) (angle_strict h0)
  linarith

/-- **C27 is false on the depth axis** for points less than 1e-7 km apart in depth. -/
theorem depth_bound_false : ∃ p q c : Pt ℝ, LatOk p ∧ LatOk q ∧ Between 2 q c p ∧
    computeDistance3D p q < axisDist 2 c q := by
  refine ⟨⟨0, 0, 5e-8⟩, ⟨0, 0, 0⟩, ⟨0, 0, 5e-8⟩, by constructor <;> norm_num, by constructor <;> norm_num,
    .inl (by norm_num [coord]), ?_⟩
  have hd : ¬ Distinct 0 0 0 0 := by unfold Distinct; norm_num [degToRad]
  have e1 : computeDistance3D ⟨0, 0, 5e-8⟩ ⟨0, 0, 0⟩ = 0 := by
    unfold computeDistance3D
    simp only
    rw [if_pos (by rw [abs_of_nonneg] <;> norm_num), computeDistance_ident hd]
  rw [e1]
  unfold axisDist
  simp only
  rw [abs_of_nonneg] <;> norm_num

/-! Four events at the surface and a query at 60°N. -/
namespace Missed

noncomputable def pts (i : Nat) : Pt ℝ :=
  match i with
  | 0 => ⟨-30, 0, 0⟩
  | 1 => ⟨0, 60, 0⟩
  | 2 => ⟨30, 90, 0⟩
  | _ => ⟨60, 120, 0⟩
noncomputable def query : Pt ℝ := ⟨60, 0, 0⟩

theorem deg30 : degToRad 30 = π / 6 := by unfold degToRad; ring
theorem deg60 : degToRad 60 = π / 3 := by unfold degToRad; ring
theorem deg90 : degToRad 90 = π / 2 := by unfold degToRad; ring
theorem deg120 : degToRad 120 = 2 * (π / 3) := by unfold degToRad; ring
theorem deg0 : degToRad 0 = 0 := by simp [degToRad]
theorem degNeg (x : ℝ) : degToRad (-x) = - degToRad x := by unfold degToRad; ring

theorem hav0 : haversine (-30) 0 60 0 = 1 / 2 := by
  unfold haversine
  have e : (60 : ℝ) - -30 = 90 := by norm_num
  have e2 : π / 2 / 2 = π / 4 := by ring
  rw [e, deg90, e2, sin_pi_div_four, sub_self, deg0, zero_div, sin_zero, div_pow, Real.sq_sqrt (by norm_num)]
  norm_num

theorem hav1 : haversine 0 60 60 0 = 3 / 8 := by
  unfold haversine
  have e : (0 : ℝ) - 60 = -60 := by norm_num
  have e2 : π / 3 / 2 = π / 6 := by ring
  rw [e, sub_zero, degNeg, deg60, neg_div, e2, sin_neg, sin_pi_div_six, cos_pi_div_three, deg0, cos_zero]
  norm_num

theorem hav3 : haversine 60 120 60 0 = 3 / 16 := by
  unfold haversine
  have e : (0 : ℝ) - 120 = -120 := by norm_num
  have e2 : 2 * (π / 3) / 2 = π / 3 := by ring
  rw [e, sub_self, degNeg, deg120, deg60, neg_div, e2, sin_neg, sin_pi_div_three, cos_pi_div_three, deg0,
    zero_div, sin_zero, neg_sq, div_pow, Real.sq_sqrt (by norm_num)]
  norm_num

theorem hav2 : haversine 30 90 60 0 = 1 / 2 - √3 / 8 := by
  have h := one_sub_haversine 30 90 60 0
  have e : (0 : ℝ) - 90 = -90 := by norm_num
  rw [e, degNeg, deg30, deg60, deg90, cos_neg, cos_pi_div_two, sin_pi_div_six, sin_pi_div_three] at h
  linarith

theorem havLat : haversine 0 0 60 0 = 1 / 4 := by
  rw [haversine_lat, sub_zero, deg60]
  have e2 : π / 3 / 2 = π / 6 := by ring
  rw [e2, sin_pi_div_six]; norm_num

theorem havLon : haversine 0 90 0 0 = 1 / 2 := by
  rw [haversine_lon, zero_sub, degNeg, deg90]
  have e2 : -(π / 2) / 2 = -(π / 4) := by ring
  rw [e2, sin_neg, neg_sq, sin_pi_div_four, div_pow, Real.sq_sqrt (by norm_num)]
  norm_num

theorem sqrt3 : 1 < √3 ∧ √3 < 2 := by
  constructor
  · rw [Real.lt_sqrt] <;> norm_num
  · rw [Real.sqrt_lt'] <;> norm_num

/-- distances of the events and of the two splits in the search -/
noncomputable def d (i : Nat) : ℝ := computeDistance3D (pts i) query
noncomputable def splitLat : ℝ := axisDist 0 (pts 1) query
noncomputable def splitLon : ℝ := axisDist 1 (pts 2) query

theorem d_eq {p : Pt ℝ} (hz : p.depth = 0) (h : Distinct p.lat p.lon 60 0) :
    computeDistance3D p query = angle p.lat p.lon 60 0 * earthRadius := by
  unfold computeDistance3D query
  simp only [hz]
  rw [if_pos (by norm_num), computeDistance_km h]; norm_num

theorem dist_lt {a1 a2 a3 a4 b1 b2 b3 b4 : ℝ} (h : haversine a1 a2 a3 a4 < haversine b1 b2 b3 b4) :
    angle a1 a2 a3 a4 * earthRadius < angle b1 b2 b3 b4 * earthRadius :=
  mul_lt_mul_of_pos_right (angle_strict h) earthRadius_pos

theorem d0 : d 0 = angle (-30) 0 60 0 * earthRadius := d_eq rfl (by unfold Distinct; simp [pts]; intro h; norm_num at h)
theorem d1 : d 1 = angle 0 60 60 0 * earthRadius := d_eq rfl (by unfold Distinct; simp [pts]; intro h; norm_num at h)
theorem d2 : d 2 = angle 30 90 60 0 * earthRadius := d_eq rfl (by unfold Distinct; simp [pts]; intro h; norm_num at h)
theorem d3 : d 3 = angle 60 120 60 0 * earthRadius := d_eq rfl (by
  unfold Distinct
  rintro ⟨-, h⟩
  have e : (pts 3).lon = 120 := rfl
  rw [abs_degToRad, e] at h
  norm_num [deg120] at h
  linarith [two_le_pi])
theorem splitLat_eq : splitLat = angle 0 0 60 0 * earthRadius := by
  have h : Distinct 0 0 60 0 := by unfold Distinct; norm_num
  unfold splitLat axisDist; simp only [pts, query]; rw [computeDistance_km h, sub_zero]
theorem splitLon_eq : splitLon = angle 0 90 0 0 * earthRadius := by
  have h : Distinct 0 90 0 0 := by
    unfold Distinct
    rintro ⟨-, h⟩
    rw [abs_degToRad] at h
    norm_num [deg90] at h
    linarith [two_le_pi]
  unfold splitLon axisDist; simp only [pts, query]; rw [computeDistance_km h, sub_zero]

/-- the order of all the distances -/
theorem order : 0 < d 3 ∧ d 3 < splitLat ∧ splitLat < d 2 ∧ d 2 < d 1 ∧ d 1 < splitLon ∧ splitLon = d 0 := by
  have h3 := sqrt3
  refine ⟨?_, ?_, ?_, ?_, ?_, ?_⟩
  · rw [d3]
    have h0 : haversine 0 0 0 0 < haversine 60 120 60 0 := by
      rw [hav3, haversine_lat]; norm_num [degToRad]
    exact mul_pos (lt_of_le_of_lt (angle_nonneg _ _ _ _) (angle_strict h0)) earthRadius_pos
  · rw [d3, splitLat_eq]; apply dist_lt; rw [hav3, havLat]; norm_num
  · rw [d2, splitLat_eq]; apply dist_lt; rw [hav2, havLat]; linarith
  · rw [d2, d1]; apply dist_lt; rw [hav2, hav1]; linarith
  · rw [d1, splitLon_eq]; apply dist_lt; rw [hav1, havLon]; norm_num
  · rw [splitLon_eq, d0]; unfold angle; rw [havLon, hav0]

/-- C27 is false on the longitude axis: the split at 90°E is farther than the event behind it. -/
theorem longitude_bound_false : ∃ p q c : Pt ℝ, LatOk p ∧ LatOk q ∧ Between 1 q c p ∧
    computeDistance3D p q < axisDist 1 c q := by
  refine ⟨pts 3, query, pts 2, by constructor <;> norm_num [pts], by constructor <;> norm_num [query],
    .inl (by norm_num [coord, pts, query]), ?_⟩
  obtain ⟨-, h1, h2, h3, h4, -⟩ := order
  exact lt_trans h1 (lt_trans h2 (lt_trans h3 h4))

theorem lat_order {i j : Nat} (hi : i < 4) (hj : j < 4) : coord 0 (pts i) ≤ coord 0 (pts j) ↔ i ≤ j := by
  interval_cases i <;> interval_cases j <;> norm_num [coord, pts]

theorem perms4 : ∀ r ∈ [0, 1, 2, 3].permutations',
    (∀ x ∈ r.take 1, x ≤ r.getD 1 0) → (∀ x ∈ r.drop 2, r.getD 1 0 ≤ x) →
      r = [0, 1, 2, 3] ∨ r = [0, 1, 3, 2] := by decide

theorem tree (nth : (axis : Nat) → NthElement (fun i => coord axis (pts i))) :
    ofPoints pts nth 4 = .node 1 0 (.node 0 1 .nil .nil) (.node 2 1 .nil (.node 3 2 .nil .nil)) := by
  have one : ∀ axis x, (nth axis).run [x] 0 = [x] := fun axis x => List.perm_singleton.1 ((nth axis).ok [x] 0 (by simp)).perm
  have leaf : ∀ depth x, build pts nth [x] depth = .node x (depth % 3) .nil .nil := by
    intro depth x
    rw [build]; simp [one, build]
  have pair : ∀ l : List Nat, (l = [2, 3] ∨ l = [3, 2]) → (nth 1).run l 0 = [2, 3] := by
    intro l hl
    have hk := (nth 1).ok l 0 (by simp)
    generalize (nth 1).run l 0 = r at *
    have hp : r.Perm [2, 3] := by
      rcases hl with rfl | rfl
      · exact hk.perm
      · exact hk.perm.trans (List.Perm.swap _ _ _)
    have hr : r = [2, 3] ∨ r = [3, 2] := by
      have := List.mem_permutations'.2 hp
      simpa [List.permutations'] using this
    rcases hr with rfl | rfl
    · rfl
    · have := (hk.split 3 rfl).2 2 (by simp)
      norm_num [coord, pts] at this
  have root : (nth 0).run [0, 1, 2, 3] 1 = [0, 1, 2, 3] ∨ (nth 0).run [0, 1, 2, 3] 1 = [0, 1, 3, 2] := by
    have hk := (nth 0).ok [0, 1, 2, 3] 1 (by simp)
    generalize (nth 0).run [0, 1, 2, 3] 1 = r at *
    have hlen : r.length = 4 := hk.perm.length_eq
    have hget : r[1]? = some (r.getD 1 0) := by
      rw [List.getD_eq_getElem?_getD, List.getElem?_eq_getElem (by omega)]; rfl
    have hlt : ∀ x ∈ r, x < 4 := by
      intro x hx; have := hk.perm.subset hx; simp at this; omega
    have hx : r.getD 1 0 < 4 := hlt _ (List.mem_of_getElem? hget)
    obtain ⟨h1, h2⟩ := hk.split _ hget
    apply perms4 r (List.mem_permutations'.2 hk.perm)
    · intro x hxm
      exact (lat_order (hlt x (List.mem_of_mem_take hxm)) hx).1 (h1 x hxm)
    · intro x hxm
      exact (lat_order hx (hlt x (List.mem_of_mem_drop hxm))).1 (h2 x hxm)
  have right : ∀ l : List Nat, (l = [2, 3] ∨ l = [3, 2]) →
      build pts nth l 1 = .node 2 1 .nil (.node 3 2 .nil .nil) := by
    intro l hl
    have h2 := pair l hl
    have hlen : l.length = 2 := by rcases hl with rfl | rfl <;> rfl
    have hne : l ≠ [] := by rintro rfl; simp at hlen
    rw [build, dif_neg hne]
    simp only [hlen]
    norm_num [h2, leaf]
    simp [build]
  unfold ofPoints
  have hrange : List.range 4 = [0, 1, 2, 3] := rfl
  rw [hrange, build]
  rcases root with h | h
  · simp [h, leaf, right]
  · simp [h, leaf, right]

theorem lat_side : ¬ coord 0 query < coord 0 (pts 1) := by norm_num [coord, query, pts]
theorem lon_side : coord 1 query < coord 1 (pts 2) := by norm_num [coord, query, pts]

theorem hd0 : computeDistance3D (pts 0) query = d 0 := rfl
theorem hd1 : computeDistance3D (pts 1) query = d 1 := rfl
theorem hd2 : computeDistance3D (pts 2) query = d 2 := rfl
theorem hsLat : axisDist 0 (pts 1) query = splitLat := rfl
theorem hsLon : axisDist 1 (pts 2) query = splitLon := rfl

/-- **C24 is false of the code**: a radius search misses an event within the radius, whatever the
implementation of `nth_element`. -/
theorem radius_search_false (nth : (axis : Nat) → NthElement (fun i => coord axis (pts i))) :
    ∃ rad, computeDistance3D (pts 3) query ≤ rad ∧
      radiusSearch pts computeDistance3D axisDist query (ofPoints pts nth 4) rad = [] := by
  refine ⟨d 3, le_rfl, ?_⟩
  obtain ⟨-, h1, h2, h3, h4, h5⟩ := order
  have e1 : ¬ d 1 ≤ d 3 := by linarith
  have e2 : ¬ d 2 ≤ d 3 := by linarith
  have e3 : ¬ splitLon ≤ d 3 := by linarith
  have e4 : ¬ splitLat ≤ d 3 := by linarith
  rw [tree]
  simp [radiusSearch, radius, hd1, hd2, hsLat, hsLon, lat_side, lon_side, e1, e2, e3, e4]

/-- **C25 is false of the code**: the nearest-neighbour search returns event 2 although event 3 is
nearer. -/
theorem nearest_neighbour_false (nth : (axis : Nat) → NthElement (fun i => coord axis (pts i))) :
    nnSearch pts computeDistance3D axisDist query (ofPoints pts nth 4) = .ok (2, computeDistance3D (pts 2) query) ∧
    knnSearch pts computeDistance3D axisDist query (ofPoints pts nth 4) 1 = .ok [(computeDistance3D (pts 2) query, 2)] ∧
    computeDistance3D (pts 3) query < computeDistance3D (pts 2) query := by
  obtain ⟨-, h1, h2, h3, h4, h5⟩ := order
  have e2 : ¬ splitLon < d 2 := by linarith
  have e3 : ¬ d 0 < d 2 := by linarith
  refine ⟨?_, ?_, lt_trans h1 h2⟩
  · rw [tree]
    simp [nnSearch, nn, below, hd0, hd1, hd2, hsLat, hsLon, lat_side, lon_side, h3, e2, e3, h2, Outcome.ofOption]
  · rw [tree]
    have e4 : ¬ d 1 ≤ d 2 := by linarith
    simp [knnSearch, knn, knnAdd, knnFar, emplace, hd0, hd1, hd2, hsLat, hsLon, lat_side, lon_side, h3, e2, e3, e4, h2,
      List.takeWhile_cons, List.dropWhile_cons]

theorem pop_strict (pop : Pop ℝ) {l m : List (Item ℝ)} {x : Item ℝ} (hp : l.Perm (x :: m))
    (hmin : ∀ y ∈ m, x.key < y.key) : ∃ rest, pop.run l = some (x, rest) ∧ rest.Perm m := by
  have hne : l ≠ [] := by rintro rfl; exact absurd hp.length_eq (by simp)
  obtain ⟨x', rest, h1, h2, h3⟩ := pop.ok l hne
  have hx : x' = x := by
    rcases List.mem_cons.1 (hp.subset (h2.subset List.mem_cons_self)) with h | h
    · exact h
    · exact absurd (h3 x (hp.symm.subset List.mem_cons_self)) (not_le.2 (hmin x' h))
  subst hx
  exact ⟨rest, h1, List.perm_cons x' |>.1 (h2.trans hp)⟩

/-- **C26 is false of the code**: the best-first enumeration delivers event 2 first although event 3
is nearer, whatever the priority queue. -/
theorem best_first_false (nth : (axis : Nat) → NthElement (fun i => coord axis (pts i))) (pop : Pop ℝ) :
    bestFirst pts computeDistance3D axisDist query pop 0 (fun _ idx _ => (some idx, true)) (ofPoints pts nth 4) none =
      some (some 2) ∧
    computeDistance3D (pts 3) query < computeDistance3D (pts 2) query := by
  obtain ⟨h0, h1, h2, h3, h4, h5⟩ := order
  refine ⟨?_, lt_trans h1 h2⟩
  have m1 : max 0 splitLat = splitLat := max_eq_right (by linarith)
  have m2 : max 0 splitLon = splitLon := max_eq_right (by linarith)
  rw [tree]
  let D : KdNode := .node 3 2 .nil .nil
  let A : KdNode := .node 0 1 .nil .nil
  let R : KdNode := .node 2 1 .nil D
  obtain ⟨r1, e1, p1⟩ := pop_strict pop (l := [.sub 0 (.node 1 0 A R)]) (m := []) (x := .sub 0 (.node 1 0 A R))
    (List.Perm.refl _) (by simp)
  obtain rfl := List.perm_nil.1 p1
  obtain ⟨r2, e2, p2⟩ := pop_strict pop (l := [.sub splitLat A, .sub 0 R, .point (d 1) 1])
    (m := [.sub splitLat A, .point (d 1) 1]) (x := .sub 0 R) (List.Perm.swap _ _ _)
    (by simp [Item.key]; constructor <;> linarith)
  obtain ⟨r3, e3, p3⟩ := pop_strict pop (l := .sub splitLon D :: .point (d 2) 2 :: r2)
    (m := [.sub splitLon D, .point (d 2) 2, .point (d 1) 1]) (x := .sub splitLat A)
    (((p2.cons _).cons _).trans (((List.Perm.swap _ _ _).cons _).trans (List.Perm.swap _ _ _)))
    (by simp [Item.key]; refine ⟨?_, ?_, ?_⟩ <;> linarith)
  obtain ⟨r4, e4, p4⟩ := pop_strict pop (l := .point (d 0) 0 :: r3)
    (m := [.point (d 0) 0, .sub splitLon D, .point (d 1) 1]) (x := .point (d 2) 2)
    ((p3.cons _).trans (((List.Perm.swap _ _ _).cons _).trans (List.Perm.swap _ _ _)))
    (by simp [Item.key]; refine ⟨?_, ?_, ?_⟩ <;> linarith)
  have x1 : expand pts computeDistance3D axisDist query 0 (.node 1 0 A R) [] =
      [.sub splitLat A, .sub 0 R, .point (d 1) 1] := by
    simp [expand, push, hd1, hsLat, lat_side, m1, A, R]
  have x2 : expand pts computeDistance3D axisDist query 0 R r2 = .sub splitLon D :: .point (d 2) 2 :: r2 := by
    simp [expand, push, hd2, hsLon, lon_side, m2, R, D]
  have x3 : expand pts computeDistance3D axisDist query splitLat A r3 = .point (d 0) 0 :: r3 := by
    simp [expand, push, hd0, A]
  have hb : ∀ (visit : Option Nat → Nat → ℝ → Option Nat × Bool),
      bestFirst pts computeDistance3D axisDist query pop 0 visit (.node 1 0 A R) none =
      loop pts computeDistance3D axisDist query pop visit 8 [.sub 0 (.node 1 0 A R)] none := fun _ => rfl
  refine (hb _).trans ?_
  rw [loop, e1]; simp only [x1]
  rw [loop, e2]; simp only [x2]
  rw [loop, e3]; simp only [x3]
  rw [loop, e4]; simp only
  simp

end Missed

/-! ## Non-vacuity of the partial theorems: Switzerland -/

example : ∃ pt : Nat → Pt ℝ, ∃ q : Pt ℝ,
    (∀ i < 3, |(pt i).lat| ≤ 48 ∧ |q.lon - (pt i).lon| ≤ 180 ∧ 0 ≤ (pt i).depth ∧ (pt i).depth ≤ 30) ∧
    (|q.lat| ≤ 48 ∧ 0 ≤ q.depth ∧ q.depth ≤ 30) ∧ (30 : ℝ) < earthRadius := by
  refine ⟨fun i => ⟨46 + i / 2, 7 + i, 5 * i⟩, ⟨47, 8, 10⟩, ?_, ?_, ?_⟩
  · intro i hi
    interval_cases i <;> norm_num <;> constructor <;> rw [abs_le] <;> constructor <;> norm_num
  · refine ⟨?_, by norm_num, by norm_num⟩
    rw [abs_le]; constructor <;> norm_num
  · unfold earthRadius; norm_num

end Verif.Geo
