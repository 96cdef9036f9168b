import Verif.Spec.Repeaters
import Verif.Props.XCorr

/-!
# Correlation and changes of gain and offset
-/

set_option linter.unusedSimpArgs false

namespace Verif.RepeaterSpec
open Verif Verif.XCorr Verif.XCorr.Spec Finset

theorem cv_affine (n : Nat) (a b : ℝ) (s t : Nat → ℝ) : cv n (fun i => a * s i + b) t = a * cv n s t := by
  rcases Nat.eq_zero_or_pos n with rfl | hn
  · simp [cv]
  have hn' : (n : ℝ) ≠ 0 := by exact_mod_cast hn.ne'
  unfold cv
  rw [Finset.mul_sum]
  apply Finset.sum_congr rfl
  intro i _
  rw [Finset.sum_add_distrib, ← Finset.mul_sum]
  simp only [Finset.sum_const, Finset.card_range, nsmul_eq_mul]
  field_simp
  ring

theorem cv_affine_right (n : Nat) (a b : ℝ) (s t : Nat → ℝ) : cv n s (fun i => a * t i + b) = a * cv n s t := by
  rw [cv_symm, cv_affine, cv_symm]

theorem rho_affine (n : Nat) {a : ℝ} (b : ℝ) (s t : Nat → ℝ) :
    rho n (fun i => a * s i + b) t = Real.sign a * rho n s t := by
  unfold rho
  rw [cv_affine, cv_affine, cv_affine_right]
  have e : Real.sqrt (a * (a * cv n s s)) = |a| * Real.sqrt (cv n s s) := by
    rw [← mul_assoc, Real.sqrt_mul (mul_self_nonneg a), Real.sqrt_mul_self_eq_abs]
  rw [e]
  rcases lt_trichotomy a 0 with h | rfl | h
  · rw [Real.sign_of_neg h, abs_of_neg h, show a * cv n s t = -a * (-1 * cv n s t) by ring, mul_assoc,
      mul_div_mul_left _ _ (by linarith : -a ≠ 0), mul_div_assoc]
  · simp
  · rw [Real.sign_of_pos h, abs_of_pos h, mul_assoc, mul_div_mul_left _ _ h.ne', one_mul]

theorem rho_symm (n : Nat) (s t : Nat → ℝ) : rho n s t = rho n t s := by
  unfold rho; rw [cv_symm, mul_comm]

theorem cv_linear (n : Nat) (a : ℝ) (s t : Nat → ℝ) :
    cv n (fun i => t i - a * s i) (fun i => t i - a * s i) = cv n t t - 2 * a * cv n s t + a ^ 2 * cv n s s := by
  unfold cv
  rw [Finset.mul_sum, Finset.mul_sum, ← Finset.sum_sub_distrib, ← Finset.sum_add_distrib]
  apply Finset.sum_congr rfl
  intro i _
  rw [Finset.sum_sub_distrib, ← Finset.mul_sum]
  ring

/-- equality in the Cauchy–Schwarz inequality -/
theorem rho_one (n : Nat) (s t : Nat → ℝ) (h : |rho n s t| = 1) : ∃ a b, a ≠ 0 ∧ ∀ i < n, t i = a * s i + b := by
  unfold rho at h
  have hs : cv n s s ≠ 0 := by
    intro h0; rw [h0] at h; simp at h
  have ht : cv n t t ≠ 0 := by
    intro h0; rw [h0] at h; simp at h
  have hsp := lt_of_le_of_ne (cv_self_nonneg n s) (Ne.symm hs)
  have htp := lt_of_le_of_ne (cv_self_nonneg n t) (Ne.symm ht)
  have hsq : cv n s t ^ 2 = cv n s s * cv n t t := by
    have h2 : (cv n s t / (Real.sqrt (cv n s s) * Real.sqrt (cv n t t))) ^ 2 = 1 := by
      rw [← sq_abs, h]; norm_num
    rw [div_pow, mul_pow, Real.sq_sqrt hsp.le, Real.sq_sqrt htp.le, div_eq_one_iff_eq (by positivity)] at h2
    exact h2
  have hst : cv n s t ≠ 0 := by
    intro h0
    rw [h0] at hsq
    have := mul_pos hsp htp
    nlinarith
  have hz : cv n (fun i => t i - cv n s t / cv n s s * s i) (fun i => t i - cv n s t / cv n s s * s i) = 0 := by
    rw [cv_linear]
    field_simp
    linear_combination -hsq
  rw [cv_self_eq_zero] at hz
  rcases Nat.eq_zero_or_pos n with rfl | hn
  · exact ⟨1, 0, one_ne_zero, fun i hi => by omega⟩
  refine ⟨cv n s t / cv n s s, t 0 - cv n s t / cv n s s * s 0, div_ne_zero hst hs, fun i hi => ?_⟩
  have := hz i hi 0 hn
  linarith

theorem rho_self (n : Nat) (s : Nat → ℝ) (h : cv n s s ≠ 0) : rho n s s = 1 := by
  unfold rho
  rw [Real.mul_self_sqrt (cv_self_nonneg n s), div_self h]

theorem amplify_range (a b : ℝ) (n : Nat) (s : Nat → ℝ) :
    amplify a b ((List.range n).map s) = (List.range n).map (fun i => a * s i + b) := by
  unfold amplify; rw [List.map_map]; rfl

theorem length_amplify (a b : ℝ) (l : List ℝ) : (amplify a b l).length = l.length := by
  unfold amplify; simp

theorem window_amplify (a b : ℝ) (l : List ℝ) (i n : Nat) : window (amplify a b l) i n = amplify a b (window l i n) := by
  unfold window amplify; rw [List.map_take, List.map_drop]

theorem constant_amplify {a : ℝ} (ha : a ≠ 0) (b : ℝ) (l : List ℝ) : Constant (amplify a b l) ↔ Constant l := by
  unfold Constant amplify
  simp only [List.forall_mem_map]
  constructor
  · intro h x hx y hy
    have := h x hx y hy
    exact mul_left_cancel₀ ha (by linarith)
  · intro h x hx y hy
    rw [h x hx y hy]

end Verif.RepeaterSpec
