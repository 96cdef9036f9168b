import Verif.Proofs.FloatXCorr
import Verif.Props.Repeaters

/-!
# The quotient and the loops of the cross-correlation in double precision
-/

set_option linter.unusedSimpArgs false

namespace Verif.FloatXCorr
open Verif Verif.DoubleSpec Verif.FloatXCorrSpec Finset
open Verif.XCorr (read cv rho n_mul_cv cv_self_nonneg cv_sq_le)

/-- the square root of a number that is nearly right -/
theorem root_near {sq : ℚ → ℚ} (hsq : Roots sq) {v V : ℚ} {δ : ℝ} (hV : 0 < V) (hd : 1 / 2 ^ 53 ≤ δ / 32) (hd1 : δ ≤ 1 / 20)
    (h : |(v : ℝ) - V| ≤ δ * V) : 0 < v ∧ |(sq v : ℝ) - Real.sqrt V| ≤ 9 / 8 * δ * Real.sqrt V := by
  have hV' : (0 : ℝ) < V := by exact_mod_cast hV
  have hδ : 0 < δ := by
    have : (0 : ℝ) < 1 / 2 ^ 53 := by positivity
    linarith
  have hv : (0 : ℝ) < v := by
    have := (abs_le.1 h).1
    nlinarith
  have ha : 0 < Real.sqrt V := Real.sqrt_pos.2 hV'
  have hx := Real.sqrt_nonneg (v : ℝ)
  have e1 : |Real.sqrt v - Real.sqrt V| ≤ δ * Real.sqrt V := by
    have hm : (Real.sqrt v - Real.sqrt V) * (Real.sqrt v + Real.sqrt V) = v - V := by
      have h1 := Real.mul_self_sqrt hv.le
      have h2 := Real.mul_self_sqrt hV'.le
      linear_combination h1 - h2
    have h3 : |Real.sqrt v - Real.sqrt V| * Real.sqrt V ≤ δ * Real.sqrt V * Real.sqrt V := by
      calc |Real.sqrt v - Real.sqrt V| * Real.sqrt V ≤ |Real.sqrt v - Real.sqrt V| * (Real.sqrt v + Real.sqrt V) :=
            mul_le_mul_of_nonneg_left (by linarith) (abs_nonneg _)
        _ = |(Real.sqrt v - Real.sqrt V) * (Real.sqrt v + Real.sqrt V)| := by
            rw [abs_mul, abs_of_nonneg (by linarith : 0 ≤ Real.sqrt v + Real.sqrt V)]
        _ ≤ δ * V := by rw [hm]; exact h
        _ = δ * Real.sqrt V * Real.sqrt V := by rw [mul_assoc, Real.mul_self_sqrt hV'.le]
    exact le_of_mul_le_mul_right h3 ha
  have e2 := hsq v (by exact_mod_cast hv.le)
  refine ⟨by exact_mod_cast hv, ?_⟩
  have e3 : Real.sqrt v ≤ (1 + δ) * Real.sqrt V := by
    have := (abs_le.1 e1).2
    linarith
  have e4 : 1 / 2 ^ 53 * Real.sqrt v ≤ δ / 32 * ((1 + δ) * Real.sqrt V) :=
    mul_le_mul hd e3 hx (by positivity)
  have e5 := abs_add_le ((sq v : ℝ) - Real.sqrt v) (Real.sqrt v - Real.sqrt V)
  rw [sub_add_sub_cancel] at e5
  have e6 : δ * (δ * Real.sqrt V) ≤ 1 / 20 * (δ * Real.sqrt V) := mul_le_mul_of_nonneg_right hd1 (by positivity)
  have e7 : 0 < δ * Real.sqrt V := by positivity
  nlinarith

/-- the quotient of nearly right numbers -/
theorem quotient_near {fl sq : ℚ → ℚ} (hsq : Roots sq) {W VS VL N vS vL N' : ℚ} {δ : ℝ} {r : ℚ}
    (hd : 1 / 2 ^ 53 ≤ δ / 32) (hd1 : δ ≤ 1 / 20) (hr : (r : ℝ) * (1 / 2 ^ 53) ≤ δ / 32) (hW : 0 < W) (hr0 : 0 < r)
    (hS : W ≤ r * VS) (hL : W ≤ r * VL) (hS1 : VS ≤ W) (hL1 : VL ≤ W) (hN : N ^ 2 ≤ VS * VL)
    (near : ∀ x B : ℚ, B = 2 * W ∨ B = 2 → |x| ≤ B → |fl x - x| ≤ 1 / 2 ^ 53 * B)
    (eS : |(vS : ℝ) - VS| * r ≤ δ * W) (eL : |(vL : ℝ) - VL| * r ≤ δ * W) (eN : |(N' : ℝ) - N| * r ≤ δ * W) :
    0 < vS ∧ 0 < vL ∧ fl (sq vS * sq vL) ≠ 0 ∧
      |(fl (N' / fl (sq vS * sq vL)) : ℝ) - N / (Real.sqrt VS * Real.sqrt VL)| ≤ 5 * δ := by
  have hδ : 0 < δ := by
    have : (0 : ℝ) < 1 / 2 ^ 53 := by positivity
    linarith
  have hVS : 0 < VS := by
    by_contra hc
    have := mul_nonpos_of_nonneg_of_nonpos hr0.le (not_lt.1 hc)
    linarith
  have hVL : 0 < VL := by
    by_contra hc
    have := mul_nonpos_of_nonneg_of_nonpos hr0.le (not_lt.1 hc)
    linarith
  have hr0' : (0 : ℝ) < r := by exact_mod_cast hr0
  have hW' : (0 : ℝ) < W := by exact_mod_cast hW
  have hS' : (W : ℝ) ≤ r * VS := by exact_mod_cast hS
  have hL' : (W : ℝ) ≤ r * VL := by exact_mod_cast hL
  have hVS' : (0 : ℝ) < VS := by exact_mod_cast hVS
  have hVL' : (0 : ℝ) < VL := by exact_mod_cast hVL
  have hS1' : (VS : ℝ) ≤ W := by exact_mod_cast hS1
  have hL1' : (VL : ℝ) ≤ W := by exact_mod_cast hL1
  have hN' : (N : ℝ) ^ 2 ≤ VS * VL := by exact_mod_cast hN
  obtain ⟨pS, qS⟩ := root_near hsq hVS hd hd1 (v := vS) (by
    refine le_of_mul_le_mul_right (eS.trans ?_) hr0'
    calc δ * (W : ℝ) ≤ δ * (r * VS) := mul_le_mul_of_nonneg_left hS' hδ.le
      _ = δ * VS * r := by ring)
  obtain ⟨pL, qL⟩ := root_near hsq hVL hd hd1 (v := vL) (by
    refine le_of_mul_le_mul_right (eL.trans ?_) hr0'
    calc δ * (W : ℝ) ≤ δ * (r * VL) := mul_le_mul_of_nonneg_left hL' hδ.le
      _ = δ * VL * r := by ring)
  refine ⟨pS, pL, ?_⟩
  have ha := Real.sqrt_pos.2 hVS'
  have hb := Real.sqrt_pos.2 hVL'
  have haa := Real.mul_self_sqrt hVS'.le
  have hbb := Real.mul_self_sqrt hVL'.le
  have hND : |(N : ℝ)| ≤ Real.sqrt VS * Real.sqrt VL := by
    rw [← Real.sqrt_mul hVS'.le]
    exact Real.abs_le_sqrt hN'
  have hDW : Real.sqrt VS * Real.sqrt VL ≤ W := by
    rw [← Real.sqrt_mul hVS'.le]
    rw [show (W : ℝ) = Real.sqrt (W * W) by rw [Real.sqrt_mul_self hW'.le]]
    exact Real.sqrt_le_sqrt (mul_le_mul hS1' hL1' hVL'.le hW'.le)
  have hWD : (W : ℝ) ≤ r * (Real.sqrt VS * Real.sqrt VL) := by
    have h1 : (W : ℝ) * W ≤ (r * VS) * (r * VL) := mul_le_mul hS' hL' hW'.le (by positivity)
    have h2 : (r * VS : ℝ) * (r * VL) = (r * (Real.sqrt VS * Real.sqrt VL)) * (r * (Real.sqrt VS * Real.sqrt VL)) := by
      calc (r * VS : ℝ) * (r * VL) = (r * (Real.sqrt VS * Real.sqrt VS)) * (r * (Real.sqrt VL * Real.sqrt VL)) := by rw [haa, hbb]
        _ = _ := by ring
    rw [h2] at h1
    exact (mul_self_le_mul_self_iff hW'.le (by positivity)).2 h1
  generalize Real.sqrt VS = a at *
  generalize Real.sqrt VL = b at *
  generalize hx : (sq vS : ℝ) = x at *
  generalize hy : (sq vL : ℝ) = y at *
  have hD : 0 < a * b := mul_pos ha hb
  have hδD : 0 < δ * (a * b) := mul_pos hδ hD
  have hδδD : δ * (δ * (a * b)) ≤ 1 / 20 * (δ * (a * b)) := mul_le_mul_of_nonneg_right hd1 hδD.le
  have hy1 : |y| ≤ (1 + 9 / 8 * δ) * b := by
    have := abs_add_le (y - b) b
    rw [sub_add_cancel, abs_of_pos hb] at this
    linarith
  have hxy : |x * y - a * b| ≤ 12 / 5 * (δ * (a * b)) := by
    rw [show x * y - a * b = (x - a) * y + a * (y - b) by ring]
    refine (abs_add_le _ _).trans ?_
    rw [abs_mul, abs_mul, abs_of_pos ha]
    have h1 := mul_le_mul qS hy1 (abs_nonneg _) (by positivity)
    have h2 := mul_le_mul_of_nonneg_left qL ha.le
    calc |x - a| * |y| + a * |y - b| ≤ 9 / 8 * δ * a * ((1 + 9 / 8 * δ) * b) + a * (9 / 8 * δ * b) := add_le_add h1 h2
      _ = 9 / 4 * (δ * (a * b)) + 81 / 64 * (δ * (δ * (a * b))) := by ring
      _ ≤ 12 / 5 * (δ * (a * b)) := by linarith
  have hxyW : |x * y| ≤ 2 * W := by
    have := abs_add_le (x * y - a * b) (a * b)
    rw [sub_add_cancel, abs_of_pos hD] at this
    have : δ * (a * b) ≤ 1 / 20 * (a * b) := mul_le_mul_of_nonneg_right hd1 hD.le
    linarith
  have hD1 : |(fl (sq vS * sq vL) : ℝ) - a * b| ≤ 5 / 2 * (δ * (a * b)) := by
    have h1 := near (sq vS * sq vL) (2 * W) (.inl rfl) (by
      have : |((sq vS * sq vL : ℚ) : ℝ)| ≤ ((2 * W : ℚ) : ℝ) := by push_cast; rw [hx, hy]; exact hxyW
      exact_mod_cast this)
    have h2 : |(fl (sq vS * sq vL) : ℝ) - x * y| ≤ 1 / 2 ^ 53 * (2 * W) := by
      rw [← hx, ← hy]
      have := (Rat.cast_le (K := ℝ)).2 h1
      push_cast at this
      exact this
    have h3 : (1 : ℝ) / 2 ^ 53 * (2 * W) ≤ δ / 16 * (a * b) := by
      calc (1 : ℝ) / 2 ^ 53 * (2 * W) ≤ 1 / 2 ^ 53 * (2 * (r * (a * b))) := by
            apply mul_le_mul_of_nonneg_left _ (by positivity); linarith
        _ = 2 * (r * (1 / 2 ^ 53)) * (a * b) := by ring
        _ ≤ 2 * (δ / 32) * (a * b) := mul_le_mul_of_nonneg_right (by linarith) hD.le
        _ = δ / 16 * (a * b) := by ring
    have h4 := abs_add_le ((fl (sq vS * sq vL) : ℝ) - x * y) (x * y - a * b)
    rw [sub_add_sub_cancel] at h4
    linarith
  generalize hDq : fl (sq vS * sq vL) = D' at *
  have hδ20 : δ * (a * b) ≤ 1 / 20 * (a * b) := mul_le_mul_of_nonneg_right hd1 hD.le
  have hD2 : 7 / 8 * (a * b) ≤ (D' : ℝ) := by
    have := (abs_le.1 hD1).1
    linarith
  have hDpos : (0 : ℝ) < D' := lt_of_lt_of_le (by positivity) hD2
  refine ⟨by intro h0; rw [h0] at hDpos; norm_num at hDpos, ?_⟩
  have hE : |(N' : ℝ) - N| ≤ δ * (a * b) := by
    refine le_of_mul_le_mul_right (eN.trans ?_) hr0'
    calc δ * (W : ℝ) ≤ δ * (r * (a * b)) := mul_le_mul_of_nonneg_left hWD hδ.le
      _ = δ * (a * b) * r := by ring
  have hq : |(N' : ℝ) / D' - N / (a * b)| ≤ 4 * δ := by
    rw [div_sub_div _ _ hDpos.ne' hD.ne', abs_div, abs_of_pos (mul_pos hDpos hD), div_le_iff₀ (mul_pos hDpos hD)]
    have h1 : |(N' : ℝ) * (a * b) - D' * N| ≤ 7 / 2 * (δ * (a * b)) * (a * b) := by
      rw [show (N' : ℝ) * (a * b) - D' * N = (N' - N) * (a * b) + N * (a * b - D') by ring]
      refine (abs_add_le _ _).trans ?_
      rw [abs_mul (_ - _), abs_mul (N : ℝ), abs_of_pos hD]
      have h2 := mul_le_mul_of_nonneg_right hE hD.le
      have h3 : |(N : ℝ)| * |a * b - D'| ≤ (a * b) * (5 / 2 * (δ * (a * b))) := by
        rw [abs_sub_comm (a * b)]
        exact mul_le_mul hND hD1 (abs_nonneg _) hD.le
      linarith
    refine h1.trans ?_
    have h4 : 4 * δ * (7 / 8 * (a * b) * (a * b)) ≤ 4 * δ * (D' * (a * b)) :=
      mul_le_mul_of_nonneg_left (mul_le_mul_of_nonneg_right hD2 hD.le) (by positivity)
    linarith
  have hq2 : |(N' : ℝ) / D'| ≤ 2 := by
    have h1 := abs_add_le ((N' : ℝ) / D' - N / (a * b)) (N / (a * b))
    rw [sub_add_cancel] at h1
    have h2 : |(N : ℝ) / (a * b)| ≤ 1 := by
      rw [abs_div, abs_of_pos hD]
      exact div_le_one_of_le₀ hND hD.le
    linarith
  have h1 := near (N' / D') 2 (.inr rfl) (by
    have : |((N' / D' : ℚ) : ℝ)| ≤ ((2 : ℚ) : ℝ) := by push_cast; exact hq2
    exact_mod_cast this)
  have h2 : |(fl (N' / D') : ℝ) - N' / D'| ≤ 1 / 2 ^ 53 * 2 := by
    have := (Rat.cast_le (K := ℝ)).2 h1
    push_cast at this
    exact this
  have h4 := abs_add_le ((fl (N' / D') : ℝ) - N' / D') ((N' : ℝ) / D' - N / (a * b))
  rw [sub_add_sub_cancel] at h4
  linarith

end Verif.FloatXCorr
