import Verif.Proofs.MapProject

/-!
# Lemmas for the Lambert projection (C44)

`ec` is the logarithm of the eccentricity factor.  The iteration of the inverse is a monotone contraction with
the original latitude as its fixed point.
-/

set_option linter.unusedSectionVars false
set_option linter.unusedSimpArgs false

namespace Verif.Geo
open Real

noncomputable def ec (e phi : ℝ) : ℝ := e / 2 * (log (1 - e * sin phi) - log (1 + e * sin phi))

section
variable {e : ℝ} (h0 : 0 ≤ e) (h1 : e < 1)
include h0 h1

theorem one_sub_pos (phi : ℝ) : 0 < 1 - e * sin phi := by
  have := sin_le_one phi; have := neg_one_le_sin phi
  nlinarith

theorem one_add_pos (phi : ℝ) : 0 < 1 + e * sin phi := by
  have := sin_le_one phi; have := neg_one_le_sin phi
  nlinarith

theorem eccFactor_eq (phi : ℝ) : eccFactor e phi = exp (ec e phi) := by
  have p1 := one_sub_pos h0 h1 phi
  have p2 := one_add_pos h0 h1 phi
  unfold eccFactor ec
  rw [rpow_def_of_pos (div_pos p1 p2), log_div p1.ne' p2.ne']
  congr 1
  ring

theorem eccFactor_pos (phi : ℝ) : 0 < eccFactor e phi := by rw [eccFactor_eq h0 h1]; exact exp_pos _

theorem ec_deriv (phi : ℝ) : HasDerivAt (ec e) (-(e ^ 2 * cos phi / (1 - e ^ 2 * sin phi ^ 2))) phi := by
  have p1 := one_sub_pos h0 h1 phi
  have p2 := one_add_pos h0 h1 phi
  have hs := (hasDerivAt_sin phi).const_mul e
  have d1 := (hs.const_sub 1).log p1.ne'
  have d2 := (hs.const_add 1).log p2.ne'
  have d := (d1.sub d2).const_mul (e / 2)
  refine d.congr_deriv ?_
  have p3 : 1 - e ^ 2 * sin phi ^ 2 = (1 - e * sin phi) * (1 + e * sin phi) := by ring
  rw [p3]
  field_simp
  ring

theorem one_sub_sq_pos (phi : ℝ) : 0 < 1 - e ^ 2 * sin phi ^ 2 := by
  have p3 : 1 - e ^ 2 * sin phi ^ 2 = (1 - e * sin phi) * (1 + e * sin phi) := by ring
  rw [p3]
  exact mul_pos (one_sub_pos h0 h1 phi) (one_add_pos h0 h1 phi)

theorem ec_zero : ec e 0 = 0 := by simp [ec]

end

/-- the step of the iteration as a function of the logarithm -/
noncomputable def gd (u : ℝ) : ℝ := 2 * arctan (exp u)

theorem gd_deriv (u : ℝ) : HasDerivAt gd (2 * (1 / (1 + exp u ^ 2) * exp u)) u := by
  unfold gd
  exact ((hasDerivAt_exp u).arctan).const_mul 2

theorem gd_mono : StrictMono gd := fun a b h => by
  unfold gd
  have := arctan_strictMono (exp_lt_exp.2 h)
  linarith

theorem gd_lipschitz (a b : ℝ) : |gd a - gd b| ≤ |a - b| := by
  have h := Convex.norm_image_sub_le_of_norm_hasDerivWithin_le (f := gd) (s := Set.univ) (C := 1) (x := b) (y := a)
    (fun x _ => (gd_deriv x).hasDerivWithinAt) (fun x _ => by
      have hx := exp_pos x
      rw [norm_of_nonneg (by positivity)]
      have e : 2 * (1 / (1 + exp x ^ 2) * exp x) = 2 * exp x / (1 + exp x ^ 2) := by ring
      rw [e, div_le_one (by positivity)]
      nlinarith [sq_nonneg (exp x - 1)]) convex_univ trivial trivial
  simpa using h

/-- the eccentricity of every ellipsoid makes the iteration a contraction by this factor -/
theorem ec_lipschitz {e : ℝ} (h0 : 0 ≤ e) (h2 : e ^ 2 ≤ 0.007) (a b : ℝ) : |ec e a - ec e b| ≤ 0.0071 * |a - b| := by
  have h1 : e < 1 := by nlinarith
  have h := Convex.norm_image_sub_le_of_norm_hasDerivWithin_le (f := ec e) (s := Set.univ) (C := 0.0071) (x := b) (y := a)
    (fun x _ => (ec_deriv h0 h1 x).hasDerivWithinAt) (fun x _ => by
      have hp := one_sub_sq_pos h0 h1 x
      rw [norm_neg, norm_div, norm_of_nonneg hp.le, div_le_iff₀ hp, norm_mul, norm_of_nonneg (sq_nonneg e), norm_eq_abs]
      have hc := abs_cos_le_one x
      have hs := sin_sq_le_one x
      have hs0 := sq_nonneg (sin x)
      have he := sq_nonneg e
      have k1 : e ^ 2 * |cos x| ≤ e ^ 2 := mul_le_of_le_one_right he hc
      have k2 : e ^ 2 * sin x ^ 2 ≤ e ^ 2 := mul_le_of_le_one_right he hs
      linarith) convex_univ trivial trivial
  simpa using h

theorem ec_anti {e : ℝ} (h0 : 0 ≤ e) (h1 : e < 1) : AntitoneOn (ec e) (Set.Icc (-(π / 2)) (π / 2)) := by
  apply antitoneOn_of_deriv_nonpos (convex_Icc _ _)
  · exact fun x _ => (ec_deriv h0 h1 x).continuousAt.continuousWithinAt
  · exact fun x _ => (ec_deriv h0 h1 x).differentiableAt.differentiableWithinAt
  · intro x hx
    rw [interior_Icc] at hx
    rw [(ec_deriv h0 h1 x).deriv]
    have hc : 0 ≤ cos x := (cos_pos_of_mem_Ioo hx).le
    have hp := one_sub_sq_pos h0 h1 x
    have : 0 ≤ e ^ 2 * cos x / (1 - e ^ 2 * sin x ^ 2) := by positivity
    linarith

/-! ## The isometric latitude -/

theorem half_angle_pos {phi : ℝ} (h : phi ∈ Set.Ioo (-(π / 2)) (π / 2)) :
    0 < sin (π / 4 - 0.5 * phi) ∧ 0 < cos (π / 4 - 0.5 * phi) := by
  obtain ⟨h1, h2⟩ := h
  constructor
  · apply sin_pos_of_pos_of_lt_pi <;> linarith [pi_pos]
  · apply cos_pos_of_mem_Ioo; constructor <;> linarith [pi_pos]

theorem tan_half_pos {phi : ℝ} (h : phi ∈ Set.Ioo (-(π / 2)) (π / 2)) : 0 < tan (π / 4 - 0.5 * phi) := by
  rw [tan_eq_sin_div_cos]
  exact div_pos (half_angle_pos h).1 (half_angle_pos h).2

/-- the logarithm of `lambT` -/
noncomputable def iso (e phi : ℝ) : ℝ := log (tan (π / 4 - 0.5 * phi)) - ec e phi

section
variable {e : ℝ} (h0 : 0 ≤ e) (h1 : e < 1)
include h0 h1

theorem lambT_eq {phi : ℝ} (h : phi ∈ Set.Ioo (-(π / 2)) (π / 2)) : lambT e phi = exp (iso e phi) := by
  unfold lambT iso
  rw [quarter_d2r, eccFactor_eq h0 h1, exp_sub, exp_log (tan_half_pos h)]

theorem iso_deriv {phi : ℝ} (h : phi ∈ Set.Ioo (-(π / 2)) (π / 2)) :
    HasDerivAt (iso e) (-((1 - e ^ 2) / (cos phi * (1 - e ^ 2 * sin phi ^ 2)))) phi := by
  obtain ⟨hs, hc⟩ := half_angle_pos h
  have ht := tan_half_pos h
  have hcp : 0 < cos phi := cos_pos_of_mem_Ioo h
  have hp := one_sub_sq_pos h0 h1 phi
  have d1 : HasDerivAt (fun x : ℝ => π / 4 - 0.5 * x) (-(0.5 * 1)) phi := ((hasDerivAt_id phi).const_mul 0.5).const_sub _
  have d2 := (hasDerivAt_tan hc.ne').comp phi d1
  have d3 := d2.log ht.ne'
  refine (d3.sub (ec_deriv h0 h1 phi)).congr_deriv ?_
  have key : cos phi = 2 * sin (π / 4 - 0.5 * phi) * cos (π / 4 - 0.5 * phi) := by
    rw [← sin_two_mul, ← cos_pi_div_two_sub]
    congr 1
    ring
  have e1 : 1 / cos (π / 4 - 0.5 * phi) ^ 2 * -(0.5 * 1) / tan (π / 4 - 0.5 * phi) = -(1 / cos phi) := by
    rw [key, tan_eq_sin_div_cos]
    field_simp
    norm_num
  have e1' : (1 / cos (π / 4 - 0.5 * phi) ^ 2 * -(0.5 * 1)) / (tan ∘ fun x : ℝ => π / 4 - 0.5 * x) phi = -(1 / cos phi) := e1
  rw [e1']
  field_simp
  have := sin_sq_add_cos_sq phi
  linear_combination e ^ 2 * this

theorem iso_anti : StrictAntiOn (iso e) (Set.Ioo (-(π / 2)) (π / 2)) := by
  apply strictAntiOn_of_deriv_neg (convex_Ioo _ _)
  · exact fun x hx => (iso_deriv h0 h1 hx).continuousAt.continuousWithinAt
  · intro x hx
    rw [interior_Ioo] at hx
    rw [(iso_deriv h0 h1 hx).deriv]
    have hc : 0 < cos x := cos_pos_of_mem_Ioo hx
    have hp := one_sub_sq_pos h0 h1 x
    have : 0 < 1 - e ^ 2 := by nlinarith
    have : 0 < (1 - e ^ 2) / (cos x * (1 - e ^ 2 * sin x ^ 2)) := by positivity
    linarith

theorem iso_zero : iso e 0 = 0 := by
  unfold iso
  rw [ec_zero h0 h1]
  simp [tan_pi_div_four]

end

/-! ## The iteration -/

theorem ilambStep_eq {e : ℝ} (h0 : 0 ≤ e) (h1 : e < 1) (l x : ℝ) : ilambStep e (exp l) x = π / 2 - gd (l + ec e x) := by
  unfold ilambStep gd
  rw [right_d2r, eccFactor_eq h0 h1, exp_add]

theorem ilambStep_fixed {e : ℝ} (h0 : 0 ≤ e) (h1 : e < 1) {s : ℝ} (hs : s ∈ Set.Ioo (-(π / 2)) (π / 2)) :
    ilambStep e (exp (iso e s)) s = s := by
  rw [ilambStep_eq h0 h1]
  unfold iso gd
  rw [sub_add_cancel, exp_log (tan_half_pos hs), arctan_tan]
  · ring
  · linarith [hs.2, pi_pos]
  · linarith [hs.1]

theorem ilambStep_lipschitz {e : ℝ} (h0 : 0 ≤ e) (h2 : e ^ 2 ≤ 0.007) (l a b : ℝ) :
    |ilambStep e (exp l) a - ilambStep e (exp l) b| ≤ 0.0071 * |a - b| := by
  have h1 : e < 1 := by nlinarith
  rw [ilambStep_eq h0 h1, ilambStep_eq h0 h1]
  have k1 := gd_lipschitz (l + ec e b) (l + ec e a)
  have k2 := ec_lipschitz h0 h2 b a
  have e1 : π / 2 - gd (l + ec e a) - (π / 2 - gd (l + ec e b)) = gd (l + ec e b) - gd (l + ec e a) := by ring
  have e2 : l + ec e b - (l + ec e a) = ec e b - ec e a := by ring
  rw [e1, abs_sub_comm a b]
  rw [e2] at k1
  linarith

theorem ilambStep_mono {e : ℝ} (h0 : 0 ≤ e) (h1 : e < 1) (l : ℝ) {a b : ℝ} (ha : -(π / 2) ≤ a) (hb : b ≤ π / 2) (h : a ≤ b) :
    ilambStep e (exp l) a ≤ ilambStep e (exp l) b := by
  rw [ilambStep_eq h0 h1, ilambStep_eq h0 h1]
  have := ec_anti h0 h1 ⟨ha, h.trans hb⟩ ⟨ha.trans h, hb⟩ h
  have := gd_mono.monotone (show l + ec e b ≤ l + ec e a by linarith)
  linarith

/-- the iterates approach the latitude `s` from the equator -/
def Approach (e s x : ℝ) : Prop :=
  (0 ≤ x ∧ x ≤ s ∧ x ≤ ilambStep e (exp (iso e s)) x) ∨ (s ≤ x ∧ x ≤ 0 ∧ ilambStep e (exp (iso e s)) x ≤ x)

theorem Approach.step {e : ℝ} (h0 : 0 ≤ e) (h1 : e < 1) {s : ℝ} (hs : s ∈ Set.Ioo (-(π / 2)) (π / 2)) {x : ℝ}
    (h : Approach e s x) :
    Approach e s (ilambStep e (exp (iso e s)) x) ∧
    |(|x| - |ilambStep e (exp (iso e s)) x|)| = |x - ilambStep e (exp (iso e s)) x| := by
  have hf := ilambStep_fixed h0 h1 hs
  obtain ⟨s1, s2⟩ := hs
  rcases h with ⟨a, b, c⟩ | ⟨a, b, c⟩
  · have m1 : ilambStep e (exp (iso e s)) x ≤ s := by
      have := ilambStep_mono h0 h1 (iso e s) (by linarith) (by linarith : s ≤ π / 2) b
      rwa [hf] at this
    have m2 := ilambStep_mono h0 h1 (iso e s) (by linarith) (by linarith : ilambStep e (exp (iso e s)) x ≤ π / 2) c
    refine ⟨.inl ⟨by linarith, m1, m2⟩, ?_⟩
    rw [abs_of_nonneg a, abs_of_nonneg (by linarith : 0 ≤ ilambStep e (exp (iso e s)) x)]
  · have m1 : s ≤ ilambStep e (exp (iso e s)) x := by
      have := ilambStep_mono h0 h1 (iso e s) (by linarith) (by linarith : x ≤ π / 2) a
      rwa [hf] at this
    have m2 := ilambStep_mono h0 h1 (iso e s) (by linarith : -(π / 2) ≤ ilambStep e (exp (iso e s)) x) (by linarith : x ≤ π / 2) c
    refine ⟨.inr ⟨m1, by linarith, m2⟩, ?_⟩
    rw [abs_of_nonpos b, abs_of_nonpos (by linarith : ilambStep e (exp (iso e s)) x ≤ 0), ← abs_neg]
    congr 1
    ring

theorem ilambLoop_close {e : ℝ} (h0 : 0 ≤ e) (h2 : e ^ 2 ≤ 0.007) {s : ℝ} (hs : s ∈ Set.Ioo (-(π / 2)) (π / 2)) (i : Nat) :
    ∀ (x phi delta : ℝ), Approach e s x → delta > 1 / 100000000 →
      |ilambLoop e (exp (iso e s)) (i + 1) x phi delta - s| ≤ 1 / 10000000000 ∨
      |ilambLoop e (exp (iso e s)) (i + 1) x phi delta - s| ≤ 0.0071 ^ (i + 1) * |x - s| := by
  have h1 : e < 1 := by nlinarith
  induction i with
  | zero =>
    intro x phi delta hx hd
    right
    rw [ilambLoop, if_pos hd, ilambLoop]
    have := ilambStep_lipschitz h0 h2 (iso e s) x s
    rw [ilambStep_fixed h0 h1 hs] at this
    simpa using this
  | succ i ih =>
    intro x phi delta hx hd
    have hl := ilambStep_lipschitz h0 h2 (iso e s) x s
    rw [ilambStep_fixed h0 h1 hs] at hl
    obtain ⟨a, b⟩ := hx.step h0 h1 hs
    rw [ilambLoop, if_pos hd]
    simp only
    by_cases hd' : |(|x| - |ilambStep e (exp (iso e s)) x|)| > 1 / 100000000
    · rcases ih _ (ilambStep e (exp (iso e s)) x) _ a hd' with h | h
      · exact .inl h
      · right
        refine h.trans ?_
        rw [pow_succ (0.0071 : ℝ) (i + 1), mul_assoc]
        exact mul_le_mul_of_nonneg_left hl (by positivity)
    · left
      rw [ilambLoop, if_neg hd']
      rw [b] at hd'
      have t : |x - s| ≤ |x - ilambStep e (exp (iso e s)) x| + |ilambStep e (exp (iso e s)) x - s| := abs_sub_le _ _ _
      push Not at hd'
      have := abs_nonneg (ilambStep e (exp (iso e s)) x - s)
      nlinarith

/-- the loop returns the latitude within 10⁻¹⁰ radians -/
theorem ilambLoop_result {e : ℝ} (h0 : 0 ≤ e) (h2 : e ^ 2 ≤ 0.007) {s : ℝ} (hs : s ∈ Set.Ioo (-(π / 2)) (π / 2)) :
    |ilambLoop e (exp (iso e s)) 100 (90 * d2r - 2 * arctan (exp (iso e s))) 0 1 - s| ≤ 1 / 10000000000 := by
  have h1 : e < 1 := by nlinarith
  have e0 : 90 * d2r - 2 * arctan (exp (iso e s)) = ilambStep e (exp (iso e s)) 0 := by
    rw [ilambStep_eq h0 h1, ec_zero h0 h1, right_d2r, add_zero]; rfl
  have hz : (0 : ℝ) ∈ Set.Ioo (-(π / 2)) (π / 2) := ⟨by linarith [pi_pos], by linarith [pi_pos]⟩
  have hA : Approach e s 0 := by
    have gv : ilambStep e (exp (iso e s)) 0 = π / 2 - gd (iso e s) := by
      rw [ilambStep_eq h0 h1, ec_zero h0 h1, add_zero]
    have g0 : gd 0 = π / 2 := by unfold gd; rw [exp_zero, arctan_one]; ring
    rcases le_total 0 s with h | h
    · left
      refine ⟨le_rfl, h, ?_⟩
      have := (iso_anti h0 h1).antitoneOn hz hs h
      rw [iso_zero h0 h1] at this
      have := gd_mono.monotone this
      rw [gv]; linarith
    · right
      refine ⟨h, le_rfl, ?_⟩
      have := (iso_anti h0 h1).antitoneOn hs hz h
      rw [iso_zero h0 h1] at this
      have := gd_mono.monotone this
      rw [gv]; linarith
  rw [e0]
  obtain ⟨a, -⟩ := hA.step h0 h1 hs
  rcases ilambLoop_close h0 h2 hs 99 _ 0 1 a (by norm_num) with h | h
  · exact h
  · refine h.trans ?_
    have hb : |ilambStep e (exp (iso e s)) 0 - s| ≤ 4 := by
      have hpi := pi_lt_four
      obtain ⟨s1, s2⟩ := hs
      rcases a with ⟨x1, x2, -⟩ | ⟨x1, x2, -⟩ <;> rw [abs_le] <;> constructor <;> linarith
    have hp : (0.0071 : ℝ) ^ (99 + 1) ≤ 0.0071 ^ 6 := pow_le_pow_of_le_one (by norm_num) (by norm_num) (by norm_num)
    have := mul_le_mul hp hb (abs_nonneg _) (by positivity)
    norm_num at this ⊢
    linarith

/-! ## The constants of the projection -/

theorem lambM_pos {e : Ellip} (h0 : 0 ≤ e.ecc) (h1 : e.ecc < 1) (h2 : e.ecc ^ 2 = e.ecc2) {phi : ℝ}
    (h : phi ∈ Set.Ioo (-(π / 2)) (π / 2)) : 0 < lambM e.ecc2 phi := by
  unfold lambM
  rw [dSqrt_eq, ← h2]
  exact div_pos (cos_pos_of_mem_Ioo h) (sqrt_pos.2 (one_sub_sq_pos h0 h1 phi))

/-- the logarithm of `lambM` -/
noncomputable def logM (e phi : ℝ) : ℝ := log (cos phi) - 1 / 2 * log (1 - e ^ 2 * sin phi ^ 2)

theorem dLog_lambM {e : Ellip} (h0 : 0 ≤ e.ecc) (h1 : e.ecc < 1) (h2 : e.ecc ^ 2 = e.ecc2) {phi : ℝ}
    (h : phi ∈ Set.Ioo (-(π / 2)) (π / 2)) : dLog (lambM e.ecc2 phi) = logM e.ecc phi := by
  have hm := lambM_pos h0 h1 h2 h
  unfold dLog
  rw [if_neg (not_le.2 hm)]
  unfold lambM logM
  have hp := one_sub_sq_pos h0 h1 phi
  rw [dSqrt_eq, ← h2, log_div (cos_pos_of_mem_Ioo h).ne' (sqrt_pos.2 hp).ne', log_sqrt hp.le]
  ring

theorem dLog_lambT {e : ℝ} (h0 : 0 ≤ e) (h1 : e < 1) {phi : ℝ} (h : phi ∈ Set.Ioo (-(π / 2)) (π / 2)) :
    dLog (lambT e phi) = iso e phi := by
  rw [lambT_eq h0 h1 h]
  unfold dLog
  rw [if_neg (not_le.2 (exp_pos _)), log_exp]

theorem logM_deriv {e : ℝ} (h0 : 0 ≤ e) (h1 : e < 1) {phi : ℝ} (h : phi ∈ Set.Ioo (-(π / 2)) (π / 2)) :
    HasDerivAt (logM e) (-((1 - e ^ 2) / (cos phi * (1 - e ^ 2 * sin phi ^ 2))) * sin phi) phi := by
  have hc : 0 < cos phi := cos_pos_of_mem_Ioo h
  have hp := one_sub_sq_pos h0 h1 phi
  have d1 := (hasDerivAt_cos phi).log hc.ne'
  have d2 := ((((hasDerivAt_sin phi).pow 2).const_mul (e ^ 2)).const_sub 1).log hp.ne'
  refine (d1.sub (d2.const_mul (1 / 2))).congr_deriv ?_
  have := sin_sq_add_cos_sq phi
  simp only [Pi.pow_apply, Nat.add_one_sub_one, pow_one]
  push_cast
  have e1 : -sin phi / cos phi = -(sin phi * (1 - e ^ 2 * sin phi ^ 2)) / (cos phi * (1 - e ^ 2 * sin phi ^ 2)) := by
    rw [← neg_mul, mul_div_mul_right _ _ hp.ne']
  have e2 : ∀ z : ℝ, z / (1 - e ^ 2 * sin phi ^ 2) = z * cos phi / (cos phi * (1 - e ^ 2 * sin phi ^ 2)) := fun z => by
    rw [mul_comm (cos phi), mul_div_mul_right _ _ hc.ne']
  rw [e1, e2]
  linear_combination sin phi * e ^ 2 * (cos phi * (1 - e ^ 2 * sin phi ^ 2))⁻¹ * this

/-- two latitudes have the same `lambM` only if they are equal or opposite -/
theorem logM_inj {e : Ellip} (h0 : 0 ≤ e.ecc) (h1 : e.ecc < 1) (h2 : e.ecc ^ 2 = e.ecc2) {a b : ℝ}
    (ha : a ∈ Set.Ioo (-(π / 2)) (π / 2)) (hb : b ∈ Set.Ioo (-(π / 2)) (π / 2)) (h : logM e.ecc a = logM e.ecc b) :
    a = b ∨ a = -b := by
  rw [← dLog_lambM h0 h1 h2 ha, ← dLog_lambM h0 h1 h2 hb] at h
  have ma := lambM_pos h0 h1 h2 ha
  have mb := lambM_pos h0 h1 h2 hb
  unfold dLog at h
  rw [if_neg (not_le.2 ma), if_neg (not_le.2 mb)] at h
  have hm := log_injOn_pos ma mb h
  have pa := one_sub_sq_pos h0 h1 a
  have pb := one_sub_sq_pos h0 h1 b
  have hsq : cos a ^ 2 / (1 - e.ecc ^ 2 * sin a ^ 2) = cos b ^ 2 / (1 - e.ecc ^ 2 * sin b ^ 2) := by
    have := congrArg (· ^ 2) hm
    unfold lambM at this
    simp only [dSqrt_eq, ← h2, div_pow, sq_sqrt pa.le, sq_sqrt pb.le] at this
    exact this
  rw [div_eq_div_iff pa.ne' pb.ne'] at hsq
  have sa := sin_sq_add_cos_sq a
  have sb := sin_sq_add_cos_sq b
  have he : 0 < 1 - e.ecc ^ 2 := by nlinarith
  have hss : sin a ^ 2 = sin b ^ 2 := by
    have : (1 - e.ecc ^ 2) * (sin a ^ 2 - sin b ^ 2) = 0 := by
      have e1 : cos a ^ 2 = 1 - sin a ^ 2 := by linarith
      have e2 : cos b ^ 2 = 1 - sin b ^ 2 := by linarith
      rw [e1, e2] at hsq
      linear_combination -hsq
    rcases mul_eq_zero.1 this with h | h
    · exact absurd h he.ne'
    · linarith
  have ia := Set.Ioo_subset_Icc_self ha
  have ib := Set.Ioo_subset_Icc_self hb
  rcases sq_eq_sq_iff_eq_or_eq_neg.1 hss with h | h
  · exact .inl (injOn_sin ia ib h)
  · rw [← sin_neg] at h
    exact .inr (injOn_sin ia ⟨by linarith [ib.2], by linarith [ib.1]⟩ h)

/-- the cone constant is the sine of a latitude between the standard parallels -/
theorem cone_is_sine {e : ℝ} (h0 : 0 ≤ e) (h1 : e < 1) {a b : ℝ} (ha : a ∈ Set.Ioo (-(π / 2)) (π / 2))
    (hb : b ∈ Set.Ioo (-(π / 2)) (π / 2)) (hab : a < b) :
    ∃ c ∈ Set.Ioo a b, (logM e a - logM e b) / (iso e a - iso e b) = sin c := by
  have sub : ∀ x ∈ Set.Icc a b, x ∈ Set.Ioo (-(π / 2)) (π / 2) := fun x hx =>
    ⟨lt_of_lt_of_le ha.1 hx.1, lt_of_le_of_lt hx.2 hb.2⟩
  obtain ⟨c, hc, h⟩ := exists_ratio_hasDerivAt_eq_ratio_slope (logM e) _ hab
    (fun x hx => (logM_deriv h0 h1 (sub x hx)).continuousAt.continuousWithinAt)
    (fun x hx => logM_deriv h0 h1 (sub x (Set.Ioo_subset_Icc_self hx))) (iso e) _
    (fun x hx => (iso_deriv h0 h1 (sub x hx)).continuousAt.continuousWithinAt)
    (fun x hx => iso_deriv h0 h1 (sub x (Set.Ioo_subset_Icc_self hx)))
  refine ⟨c, hc, ?_⟩
  have hc' := sub c (Set.Ioo_subset_Icc_self hc)
  have hd : iso e b < iso e a := iso_anti h0 h1 ha hb hab
  have hK : 0 < (1 - e ^ 2) / (cos c * (1 - e ^ 2 * sin c ^ 2)) := by
    have := cos_pos_of_mem_Ioo hc'
    have := one_sub_sq_pos h0 h1 c
    have : 0 < 1 - e ^ 2 := by nlinarith
    positivity
  rw [div_eq_iff (by linarith)]
  have : (1 - e ^ 2) / (cos c * (1 - e ^ 2 * sin c ^ 2)) * (logM e a - logM e b - sin c * (iso e a - iso e b)) = 0 := by
    linear_combination -h
  rcases mul_eq_zero.1 this with h | h
  · exact absurd h hK.ne'
  · linarith

/-- degrees strictly between the poles -/
theorem rad_mem {x : ℝ} (h1 : -90 < x) (h2 : x < 90) : x * d2r ∈ Set.Ioo (-(π / 2)) (π / 2) := by
  have hd := d2r_pos
  have e := right_d2r
  constructor <;> nlinarith

theorem vlamb_ok {name : String} {lon0 lat0 pha phb : ℝ} {p : Lambert} (h : vlamb name lon0 lat0 pha phb = .ok p)
    (ha1 : -90 < pha) (ha2 : pha < 90) (hb1 : -90 < phb) (hb2 : phb < 90) (hab : pha ≠ -phb) :
    mapSetup name = .ok p.e ∧ p.cm = lon0 ∧ p.n ≠ 0 ∧ |p.n| < 1 ∧ 0 < p.f * p.n ∧
    ∃ c, min pha phb * d2r ≤ c ∧ c ≤ max pha phb * d2r ∧ p.n = sin c := by
  unfold vlamb at h
  cases he : mapSetup name with
  | throws => rw [he] at h; cases h
  | ub => rw [he] at h; cases h
  | ok e =>
    rw [he] at h
    simp only [Outcome.bind_ok] at h
    obtain ⟨k1, k2, k3, k4, k5⟩ := mapSetup_ok he
    have k6 := mapSetup_lt_one he
    have ma := rad_mem ha1 ha2
    have mb := rad_mem hb1 hb2
    have hd := d2r_pos
    rw [dLog_lambM k4 k6 k5 ma, dLog_lambM k4 k6 k5 mb, dLog_lambT k4 k6 ma, dLog_lambT k4 k6 mb] at h
    generalize hn : (if pha * d2r ≠ phb * d2r then (logM e.ecc (pha * d2r) - logM e.ecc (phb * d2r)) /
      (iso e.ecc (pha * d2r) - iso e.ecc (phb * d2r)) else sin (pha * d2r)) = n at h
    have key : n ≠ 0 ∧ ∃ c ∈ Set.Ioo (-(π / 2)) (π / 2), min pha phb * d2r ≤ c ∧ c ≤ max pha phb * d2r ∧ n = sin c := by
      by_cases hne : pha * d2r ≠ phb * d2r
      · rw [if_pos hne] at hn
        have hpp : pha ≠ phb := fun h => hne (by rw [h])
        have hnum : logM e.ecc (pha * d2r) - logM e.ecc (phb * d2r) ≠ 0 := fun h0 => by
          rcases logM_inj k4 k6 k5 ma mb (by linarith) with h | h
          · exact hne h
          · refine hab (mul_right_cancel₀ hd.ne' (?_ : pha * d2r = -phb * d2r))
            rw [h]; ring
        have hden : iso e.ecc (pha * d2r) - iso e.ecc (phb * d2r) ≠ 0 := fun h0 =>
          hne ((iso_anti k4 k6).injOn ma mb (by linarith))
        refine ⟨by rw [← hn]; exact div_ne_zero hnum hden, ?_⟩
        rcases lt_or_gt_of_ne hpp with hl | hl
        · obtain ⟨c, hc, e1⟩ := cone_is_sine k4 k6 ma mb (by nlinarith : pha * d2r < phb * d2r)
          exact ⟨c, ⟨by linarith [ma.1, hc.1], by linarith [mb.2, hc.2]⟩, by rw [min_eq_left hl.le]; exact hc.1.le,
            by rw [max_eq_right hl.le]; exact hc.2.le, by rw [← hn, e1]⟩
        · obtain ⟨c, hc, e1⟩ := cone_is_sine k4 k6 mb ma (by nlinarith : phb * d2r < pha * d2r)
          exact ⟨c, ⟨by linarith [mb.1, hc.1], by linarith [ma.2, hc.2]⟩, by rw [min_eq_right hl.le]; exact hc.1.le,
            by rw [max_eq_left hl.le]; exact hc.2.le, by
            rw [← hn, ← e1, ← neg_div_neg_eq]; congr 1 <;> ring⟩
      · rw [if_neg hne] at hn
        push Not at hne
        have hpp : pha = phb := mul_right_cancel₀ hd.ne' hne
        have hp0 : pha ≠ 0 := fun h => hab (by rw [← hpp, h]; simp)
        refine ⟨?_, pha * d2r, ma, by rw [hpp, min_self], by rw [hpp, max_self], hn.symm⟩
        rw [← hn]
        intro h0
        have := (injOn_sin (Set.Ioo_subset_Icc_self ma) ⟨by linarith [pi_pos], by linarith [pi_pos]⟩ (by rw [h0, sin_zero]) : pha * d2r = 0)
        exact (mul_ne_zero hp0 hd.ne') this
    obtain ⟨hn0, c, hc, c1, c2, hnc⟩ := key
    cases h
    refine ⟨rfl, rfl, hn0, ?_, ?_, c, c1, c2, hnc⟩
    · simp only
      rw [hnc, abs_lt]
      have hcos := cos_pos_of_mem_Ioo hc
      have := sin_sq_add_cos_sq c
      constructor <;> nlinarith
    · simp only
      have ht : 0 < lambT e.ecc (pha * d2r) := by rw [lambT_eq k4 k6 ma]; exact exp_pos _
      have : lambM e.ecc2 (pha * d2r) / (n * lambT e.ecc (pha * d2r) ^ n) * n =
          lambM e.ecc2 (pha * d2r) / lambT e.ecc (pha * d2r) ^ n := by
        field_simp
      rw [this]
      exact div_pos (lambM_pos k4 k6 k5 ma) (rpow_pos_of_pos ht _)

/-- the forward projection of a position away from the poles -/
theorem lamb_eq {p : Lambert} (h0 : 0 ≤ p.e.ecc) (h1 : p.e.ecc < 1) {lat lon : ℝ}
    (hl1 : -90 < lat) (hl2 : lat ≤ 90 - 1 / 50000000) :
    lamb p lon lat =
      (p.e.eqRad * p.f * exp (p.n * iso p.e.ecc (lat * d2r)) * sin (p.n * (turnDown p.cm (turnUp p.cm lon) - p.cm) * d2r),
       p.rho0 - p.e.eqRad * p.f * exp (p.n * iso p.e.ecc (lat * d2r)) * cos (p.n * (turnDown p.cm (turnUp p.cm lon) - p.cm) * d2r)) := by
  have hm := rad_mem hl1 (by linarith : lat < 90)
  have ht := tan_half_pos hm
  have hge : 1 / 10000000000 ≤ tan (π / 4 - 0.5 * (lat * d2r)) := by
    have hd := d2r_pos
    have e1 : π / 4 - 0.5 * (lat * d2r) = 0.5 * (90 - lat) * d2r := by rw [← quarter_d2r]; ring
    have h2 : 0 < 0.5 * (90 - lat) * d2r := mul_pos (by linarith) hd
    have h3 : 0.5 * (90 - lat) * d2r < π / 2 := by rw [← e1]; linarith [hm.1]
    rw [e1]
    have := lt_tan h2 h3
    have h4 : 1 / 100000000 * d2r ≤ 0.5 * (90 - lat) * d2r := by nlinarith
    have h5 : 1 / 10000000000 ≤ 1 / 100000000 * d2r := by
      unfold d2r
      have := pi_gt_three
      linarith
    linarith
  have hT : tan (π / 4 - 0.5 * (lat * d2r)) / eccFactor p.e.ecc (lat * d2r) = exp (iso p.e.ecc (lat * d2r)) := by
    rw [← lambT_eq h0 h1 hm]; unfold lambT; rw [quarter_d2r]
  unfold lamb
  simp only
  have hbig : ¬ |tan (π / 4 - 0.5 * (lat * d2r))| < 1 / 10000000000 := by rw [abs_of_pos ht]; linarith
  simp only [quarter_d2r, if_neg hbig]
  rw [if_neg ht.ne', hT, ← exp_mul, mul_comm (iso _ _)]

theorem lamb_round_trip {p : Lambert} (hR : 0 < p.e.eqRad) (h0 : 0 ≤ p.e.ecc) (h2 : p.e.ecc ^ 2 ≤ 0.007) (hn : p.n ≠ 0)
    (hf : 0 < p.f * p.n) {lat lon : ℝ} (hl1 : -90 < lat) (hl2 : lat ≤ 90 - 1 / 50000000)
    (hth : |p.n * (turnDown p.cm (turnUp p.cm lon) - p.cm)| < 90) :
    |(ilamb p (lamb p lon lat).1 (lamb p lon lat).2).1 - lat| ≤ 1 / 100000000 ∧
    SameAngle (ilamb p (lamb p lon lat).1 (lamb p lon lat).2).2 lon := by
  have h1 : p.e.ecc < 1 := by nlinarith
  have hd := d2r_pos
  have hm := rad_mem hl1 (by linarith : lat < 90)
  obtain ⟨t1, -, -⟩ := turn_spec p.cm lon
  rw [lamb_eq h0 h1 hl1 hl2]
  generalize turnDown p.cm (turnUp p.cm lon) = lon' at *
  have hE := exp_pos (p.n * iso p.e.ecc (lat * d2r))
  have hlog : exp (p.n * iso p.e.ecc (lat * d2r)) ^ (1 / p.n) = exp (iso p.e.ecc (lat * d2r)) := by
    rw [← exp_mul]; congr 1; field_simp
  generalize hEdef : exp (p.n * iso p.e.ecc (lat * d2r)) = E at *
  have hf0 : p.f ≠ 0 := fun h => by rw [h, zero_mul] at hf; exact lt_irrefl _ hf
  have hrho : p.e.eqRad * p.f * E ≠ 0 := mul_ne_zero (mul_ne_zero hR.ne' hf0) hE.ne'
  have hthm : p.n * (lon' - p.cm) * d2r ∈ Set.Ioo (-(π / 2)) (π / 2) := by
    obtain ⟨a, b⟩ := abs_lt.1 hth
    exact rad_mem a b
  have hcos := cos_pos_of_mem_Ioo hthm
  have esub : ∀ z : ℝ, p.rho0 - (p.rho0 - z) = z := fun z => by ring
  unfold ilamb
  simp only [esub]
  constructor
  · have hsq : p.e.eqRad * p.f * E * sin (p.n * (lon' - p.cm) * d2r) * (p.e.eqRad * p.f * E * sin (p.n * (lon' - p.cm) * d2r)) +
        p.e.eqRad * p.f * E * cos (p.n * (lon' - p.cm) * d2r) * (p.e.eqRad * p.f * E * cos (p.n * (lon' - p.cm) * d2r)) =
        (p.e.eqRad * p.f * E) ^ 2 := by
      have := sin_sq_add_cos_sq (p.n * (lon' - p.cm) * d2r)
      linear_combination (p.e.eqRad * p.f * E) ^ 2 * this
    have hcs : copysign (dSqrt ((p.e.eqRad * p.f * E) ^ 2)) p.n = p.e.eqRad * p.f * E := by
      rw [dSqrt_eq, sqrt_sq_eq_abs]
      unfold copysign
      rw [abs_abs]
      rcases lt_or_gt_of_ne hn with h | h
      · have : p.f < 0 := by nlinarith
        rw [if_neg (by linarith), abs_of_neg]
        · ring
        · exact mul_neg_of_neg_of_pos (mul_neg_of_pos_of_neg hR this) hE
      · have : 0 < p.f := by nlinarith
        rw [if_pos h.le, abs_of_pos]
        positivity
    rw [hsq, hcs, mul_div_cancel_left₀ _ (mul_ne_zero hR.ne' hf0), hlog]
    have hr := ilambLoop_result h0 h2 hm
    generalize ilambLoop p.e.ecc (exp (iso p.e.ecc (lat * d2r))) 100
      (90 * d2r - 2 * arctan (exp (iso p.e.ecc (lat * d2r)))) 0 1 = r at *
    have e1 : r * r2d - lat = (r - lat * d2r) * r2d := by
      have := d2r_r2d
      linear_combination lat * this
    rw [e1, abs_mul, abs_of_pos r2d_pos]
    have hr2 : r2d ≤ 60 := by
      unfold r2d
      rw [div_le_iff₀ pi_pos]
      linarith [pi_gt_three]
    have := mul_le_mul hr hr2 r2d_pos.le (by norm_num)
    linarith
  · rw [mul_div_mul_left _ _ hrho, ← tan_eq_sin_div_cos, arctan_tan hthm.1 hthm.2]
    have e1 : p.n * (lon' - p.cm) * d2r / p.n * r2d + p.cm = lon' := by
      have h3 : p.n * (lon' - p.cm) * d2r / p.n = (lon' - p.cm) * d2r := by field_simp
      rw [h3]
      have := d2r_r2d
      linear_combination (lon' - p.cm) * this
    rw [e1]
    exact t1

end Verif.Geo
