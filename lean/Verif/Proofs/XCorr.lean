import Verif.Model.XCorr
import Verif.Spec.XCorr
import Mathlib.Algebra.BigOperators.Intervals
import Mathlib.Algebra.Order.BigOperators.Ring.Finset
import Mathlib.Tactic.LinearCombination

set_option linter.unusedSimpArgs false

namespace Verif.XCorr
open Spec Finset

/-! ## sums -/

theorem sum_map_range (f : Nat → ℝ) (n : Nat) : ((List.range n).map f).sum = ∑ i ∈ range n, f i := by
  induction n with
  | zero => simp
  | succ n ih => simp [List.range_succ, Finset.sum_range_succ, ih]

theorem eq_map_range (X : List ℝ) (s : Nat → ℝ) (h : ∀ i (hi : i < X.length), X[i] = s i) :
    X = (List.range X.length).map s := by
  apply List.ext_getElem
  · simp
  · intro i h1 h2
    simp [h i h1]

theorem zipWith_map_range (f : ℝ → ℝ → ℝ) (s t : Nat → ℝ) (n : Nat) :
    List.zipWith f ((List.range n).map s) ((List.range n).map t) = (List.range n).map (fun i => f (s i) (t i)) := by
  simp [List.zipWith_map_left, List.zipWith_map_right, List.zipWith_self]

/-- sums of series of `n` samples given by functions -/
noncomputable def cv (n : Nat) (s t : Nat → ℝ) : ℝ :=
  ∑ i ∈ range n, (s i - (∑ j ∈ range n, s j) / n) * (t i - (∑ j ∈ range n, t j) / n)

theorem cov_eq (n : Nat) (s t : Nat → ℝ) : cov ((List.range n).map s) ((List.range n).map t) = cv n s t := by
  unfold cov mean cv
  rw [zipWith_map_range, sum_map_range, sum_map_range, sum_map_range]
  simp

theorem n_mul_cv (n : Nat) (hn : 0 < n) (s t : Nat → ℝ) :
    n * ∑ i ∈ range n, s i * t i - (∑ i ∈ range n, s i) * (∑ i ∈ range n, t i) = n * cv n s t := by
  have hn' : (n : ℝ) ≠ 0 := by exact_mod_cast hn.ne'
  have h : cv n s t = ∑ i ∈ range n, s i * t i - (∑ i ∈ range n, s i) * (∑ i ∈ range n, t i) / n := by
    unfold cv
    generalize hA : (∑ j ∈ range n, s j) = A
    generalize hB : (∑ j ∈ range n, t j) = B
    have : ∀ i, (s i - A / n) * (t i - B / n) = s i * t i - (B / n) * s i - (A / n) * t i + A / n * (B / n) := by
      intro i; ring
    simp only [this, Finset.sum_add_distrib, Finset.sum_sub_distrib, ← Finset.mul_sum, hA, hB, Finset.sum_const,
      Finset.card_range, nsmul_eq_mul]
    field_simp
    ring
  rw [h]
  field_simp

theorem cv_self_nonneg (n : Nat) (s : Nat → ℝ) : 0 ≤ cv n s s :=
  Finset.sum_nonneg (fun _ _ => mul_self_nonneg _)

theorem cv_sq_le (n : Nat) (s t : Nat → ℝ) : cv n s t ^ 2 ≤ cv n s s * cv n t t := by
  have := Finset.sum_mul_sq_le_sq_mul_sq (range n) (fun i => s i - (∑ j ∈ range n, s j) / n)
    (fun i => t i - (∑ j ∈ range n, t j) / n)
  simpa [cv, ← pow_two] using this

theorem cv_symm (n : Nat) (s t : Nat → ℝ) : cv n s t = cv n t s := by
  unfold cv
  exact Finset.sum_congr rfl (fun _ _ => mul_comm _ _)

theorem cv_self_eq_zero (n : Nat) (s : Nat → ℝ) : cv n s s = 0 ↔ ∀ i < n, ∀ j < n, s i = s j := by
  unfold cv
  rw [Finset.sum_eq_zero_iff_of_nonneg (fun _ _ => mul_self_nonneg _)]
  constructor
  · intro h i hi j hj
    have h1 := mul_self_eq_zero.1 (h i (Finset.mem_range.2 hi))
    have h2 := mul_self_eq_zero.1 (h j (Finset.mem_range.2 hj))
    linarith
  · intro h i hi
    have hi' := Finset.mem_range.1 hi
    have : ∑ j ∈ range n, s j = n * s i := by
      rw [Finset.sum_congr rfl (fun j hj => h j (Finset.mem_range.1 hj) i hi')]
      simp
    have hn : (n : ℝ) ≠ 0 := by
      have : 0 < n := by omega
      exact_mod_cast this.ne'
    rw [this]
    field_simp
    ring

theorem constant_iff (n : Nat) (s : Nat → ℝ) : Constant ((List.range n).map s) ↔ cv n s s = 0 := by
  rw [cv_self_eq_zero]
  unfold Constant
  simp only [List.mem_map, List.mem_range]
  constructor
  · intro h i hi j hj
    exact h _ ⟨i, hi, rfl⟩ _ ⟨j, hj, rfl⟩
  · rintro h _ ⟨i, hi, rfl⟩ _ ⟨j, hj, rfl⟩
    exact h i hi j hj

/-- the coefficient of two series given by functions -/
noncomputable def rho (n : Nat) (s t : Nat → ℝ) : ℝ := cv n s t / (Real.sqrt (cv n s s) * Real.sqrt (cv n t t))

theorem pearson_eq (n : Nat) (s t : Nat → ℝ) : pearson ((List.range n).map s) ((List.range n).map t) = rho n s t := by
  unfold pearson rho
  simp only [cov_eq]

theorem abs_rho_le (n : Nat) (s t : Nat → ℝ) : |rho n s t| ≤ 1 := by
  unfold rho
  rw [abs_div, ← Real.sqrt_mul (cv_self_nonneg n s), abs_of_nonneg (Real.sqrt_nonneg _)]
  apply div_le_one_of_le₀ _ (Real.sqrt_nonneg _)
  exact Real.abs_le_sqrt (cv_sq_le n s t)

/-- the coefficient computed by the code -/
theorem coefficient_eq (n : Nat) (hn : 0 < n) (s t : Nat → ℝ) :
    coefficient n (∑ i ∈ range n, s i) (∑ i ∈ range n, t i) (∑ i ∈ range n, s i * t i)
      (sqrt (n * (∑ i ∈ range n, s i * s i) - (∑ i ∈ range n, s i) * (∑ i ∈ range n, s i)))
      (sqrt (n * (∑ i ∈ range n, t i * t i) - (∑ i ∈ range n, t i) * (∑ i ∈ range n, t i))) =
    open Classical in if cv n s s = 0 ∨ cv n t t = 0 then .nan else .num (rho n s t) := by
  have hn' : (0 : ℝ) < n := by exact_mod_cast hn
  rw [n_mul_cv n hn, n_mul_cv n hn]
  unfold coefficient
  rw [n_mul_cv n hn]
  have h1 := mul_nonneg hn'.le (cv_self_nonneg n s)
  have h2 := mul_nonneg hn'.le (cv_self_nonneg n t)
  unfold sqrt
  rw [if_neg (not_lt.2 h1), if_neg (not_lt.2 h2)]
  simp only [Fl.mul, Fl.div]
  rw [Real.sqrt_mul hn'.le, Real.sqrt_mul hn'.le]
  have e : Real.sqrt n * Real.sqrt (cv n s s) * (Real.sqrt n * Real.sqrt (cv n t t)) =
      n * (Real.sqrt (cv n s s) * Real.sqrt (cv n t t)) := by
    have := Real.mul_self_sqrt hn'.le
    linear_combination (Real.sqrt (cv n s s) * Real.sqrt (cv n t t)) * this
  rw [e]
  by_cases hz : cv n s s = 0 ∨ cv n t t = 0
  · have hd : (n : ℝ) * (Real.sqrt (cv n s s) * Real.sqrt (cv n t t)) = 0 := by
      rcases hz with h | h <;> simp [h]
    have hc : cv n s t = 0 := by
      have := cv_sq_le n s t
      have hp : cv n s s * cv n t t = 0 := by rcases hz with h | h <;> simp [h]
      rw [hp] at this
      exact pow_eq_zero_iff (by norm_num) |>.1 (le_antisymm this (sq_nonneg _))
    rw [if_pos hd, if_pos hz, if_pos (by rw [hc]; simp)]
  · have hz' := hz
    push Not at hz
    have p1 : 0 < Real.sqrt (cv n s s) := Real.sqrt_pos.2 (lt_of_le_of_ne (cv_self_nonneg n s) (Ne.symm hz.1))
    have p2 : 0 < Real.sqrt (cv n t t) := Real.sqrt_pos.2 (lt_of_le_of_ne (cv_self_nonneg n t) (Ne.symm hz.2))
    rw [if_neg (by positivity), if_neg hz']
    congr 1
    unfold rho
    rw [mul_div_mul_left _ _ hn'.ne']

/-! ## the loops -/

variable {S L : List ℝ} {base : Int} {s w : Nat → ℝ}

theorem prepLoop_spec (n : Nat) (hs : ∀ i, i < n → read S i = .ok (s i))
    (hw : ∀ i, i + 1 < n → read L (base + i) = .ok (w i)) : ∀ (k i : Nat), k + i = n →
    prepLoop S L base n k i ⟨∑ j ∈ range i, s j, ∑ j ∈ range i, s j * s j, ∑ j ∈ range (min i (n - 1)), w j,
      ∑ j ∈ range (min i (n - 1)), w j * w j⟩ =
    .ok ⟨∑ j ∈ range n, s j, ∑ j ∈ range n, s j * s j, ∑ j ∈ range (n - 1), w j, ∑ j ∈ range (n - 1), w j * w j⟩ := by
  intro k
  induction k with
  | zero =>
    intro i hi
    obtain rfl : i = n := by omega
    unfold prepLoop
    rw [Nat.min_eq_right (by omega)]
  | succ k ih =>
    intro i hi
    unfold prepLoop
    rw [hs i (by omega)]
    simp only [Outcome.bind_ok]
    by_cases h : (n : Int) - 1 ≤ i
    · rw [if_pos h]
      have := ih (i + 1) (by omega)
      rw [Finset.sum_range_succ, Finset.sum_range_succ] at this
      rw [Nat.min_eq_right (by omega)] at this ⊢
      exact this
    · rw [if_neg h, hw i (by omega)]
      simp only [Outcome.bind_ok]
      have := ih (i + 1) (by omega)
      rw [Finset.sum_range_succ, Finset.sum_range_succ] at this
      rw [Nat.min_eq_left (by omega), Finset.sum_range_succ, Finset.sum_range_succ] at this
      rw [Nat.min_eq_left (by omega)]
      exact this

theorem dotLoop_spec (n delay : Nat) (hs : ∀ i, i < n → read S i = .ok (s i))
    (hw : ∀ i, i < n → read L (base + ((i : Int) + delay)) = .ok (w (delay + i))) : ∀ (k i : Nat), k + i = n →
    dotLoop S L base delay k i (∑ j ∈ range i, s j * w (delay + j)) = .ok (∑ j ∈ range n, s j * w (delay + j)) := by
  intro k
  induction k with
  | zero =>
    intro i hi
    obtain rfl : i = n := by omega
    rfl
  | succ k ih =>
    intro i hi
    unfold dotLoop
    rw [hs i (by omega), hw i (by omega)]
    simp only [Outcome.bind_ok]
    have := ih (i + 1) (by omega)
    rw [Finset.sum_range_succ] at this
    exact this

/-- the coefficient of a delay -/
noncomputable def coeffAt (n : Nat) (s w : Nat → ℝ) (d : Nat) : Fl ℝ :=
  open Classical in if cv n s s = 0 ∨ cv n (fun i => w (d + i)) (fun i => w (d + i)) = 0 then .nan
    else .num (rho n s (fun i => w (d + i)))

/-- the best delay after those below `d` -/
structure Best (c : Nat → Fl ℝ) (delayIn : Int) (d : Nat) (best : Int × Fl ℝ) : Prop where
  none : (∀ e < d, c e = .nan) → best.2 = .nan ∧ best.1 = if d = 0 then delayIn else ((d : Int) - 1)
  some : ∀ e < d, c e ≠ .nan → ∃ e < d, ∃ v, c e = .num v ∧ best = ((e : Int), c e) ∧
    ∀ e' < d, ∀ v', c e' = .num v' → |v'| ≤ |v| ∧ (e' < e → |v'| < |v|)

theorem Best.next {c : Nat → Fl ℝ} {delayIn : Int} {d : Nat} {best : Int × Fl ℝ} (h : Best c delayIn d best)
    (hc : c d = .nan ∨ ∃ v, c d = .num v) :
    Best c delayIn (d + 1) (if !best.2.isFinite || absGt (c d) best.2 then ((d : Int), c d) else best) := by
  by_cases hall : ∀ e < d, c e = .nan
  · obtain ⟨h1, h2⟩ := h.none hall
    rw [h1]
    simp only [Fl.isFinite, Bool.not_false, Bool.true_or, if_true]
    constructor
    · intro hn
      refine ⟨hn d (by omega), ?_⟩
      rw [if_neg (by omega)]; push_cast; ring
    · intro e he hne
      have hed : e = d := by
        by_contra hed
        exact hne (hall e (by omega))
      subst hed
      rcases hc with hc | ⟨v, hc⟩
      · exact absurd hc hne
      refine ⟨e, by omega, v, hc, rfl, ?_⟩
      intro e' he' v' hv'
      by_cases hed : e' = e
      · subst hed
        rw [hc] at hv'; cases hv'
        exact ⟨le_refl _, fun h => absurd h (lt_irrefl _)⟩
      · rw [hall e' (by omega)] at hv'; cases hv'
  · push Not at hall
    obtain ⟨e0, he0, hne0⟩ := hall
    obtain ⟨e, he, v, hv, hb, hmax⟩ := h.some e0 he0 hne0
    have hfin : best.2.isFinite = true := by rw [hb, hv]; rfl
    have hb2 : best.2 = .num v := by rw [hb]; exact hv
    constructor
    · intro hn
      exact absurd (hn e0 (by omega)) hne0
    · intro _ _ _
      rcases hc with hc | ⟨u, hc⟩
      · have : absGt (c d) best.2 = false := by rw [hc, hb2]; rfl
        rw [hfin, this]
        simp only [Bool.not_true, Bool.or_self, Bool.false_eq_true, if_false]
        refine ⟨e, by omega, v, hv, hb, ?_⟩
        intro e' he' v' hv'
        by_cases hed : e' = d
        · subst hed; rw [hc] at hv'; cases hv'
        · exact hmax e' (by omega) v' hv'
      · by_cases hgt : |v| < |u|
        · have : absGt (c d) best.2 = true := by rw [hc, hb2]; simp [absGt, hgt]
          rw [this]
          simp only [Bool.or_true, if_true]
          refine ⟨d, by omega, u, hc, rfl, ?_⟩
          intro e' he' v' hv'
          by_cases hed : e' = d
          · subst hed; rw [hc] at hv'; cases hv'
            exact ⟨le_refl _, fun h => absurd h (lt_irrefl _)⟩
          · have := (hmax e' (by omega) v' hv').1
            exact ⟨by linarith, fun _ => by linarith⟩
        · have : absGt (c d) best.2 = false := by rw [hc, hb2]; simp [absGt, not_lt.1 hgt]
          rw [hfin, this]
          simp only [Bool.not_true, Bool.or_self, Bool.false_eq_true, if_false]
          refine ⟨e, by omega, v, hv, hb, ?_⟩
          intro e' he' v' hv'
          by_cases hed : e' = d
          · subst hed; rw [hc] at hv'; cases hv'
            exact ⟨not_lt.1 hgt, fun h => by omega⟩
          · exact hmax e' (by omega) v' hv'

theorem corrLoop_spec (n m : Nat) (hn : 0 < n) (hs : ∀ i, i < n → read S i = .ok (s i))
    (hw : ∀ i : Nat, i + 1 < m + n → read L (base + i) = .ok (w i)) (delayIn : Int) :
    ∀ (k d : Nat) (sumL sumL2 last : ℝ) (best : Int × Fl ℝ), k + d = m →
    sumL - last = ∑ i ∈ range (n - 1), w (d + i) → sumL2 - last * last = ∑ i ∈ range (n - 1), w (d + i) * w (d + i) →
    Best (coeffAt n s w) delayIn d best →
    ∃ r, corrLoop S L base n (∑ i ∈ range n, s i)
        (sqrt (n * (∑ i ∈ range n, s i * s i) - (∑ i ∈ range n, s i) * (∑ i ∈ range n, s i)))
        k d sumL sumL2 last best = .ok r ∧ Best (coeffAt n s w) delayIn m r := by
  obtain ⟨p, rfl⟩ : ∃ p, n = p + 1 := ⟨n - 1, by omega⟩
  intro k
  induction k with
  | zero =>
    intro d sumL sumL2 last best hd _ _ hb
    obtain rfl : d = m := by omega
    exact ⟨best, rfl, hb⟩
  | succ k ih =>
    intro d sumL sumL2 last best hd h1 h2 hb
    simp only [Nat.add_sub_cancel] at h1 h2
    unfold corrLoop
    have e1 : base + ((d : Int) + ((p + 1 : Nat) : Int) - 1) = base + ((d + p : Nat) : Int) := by push_cast; ring
    rw [e1, hw (d + p) (by omega), hw d (by omega)]
    simp only [Outcome.bind_ok]
    have hdot := dotLoop_spec (S := S) (L := L) (base := base) (s := s) (w := w) (p + 1) d hs
      (fun i hi => by
        have : base + ((i : Int) + d) = base + ((d + i : Nat) : Int) := by push_cast; ring
        rw [this]; exact hw (d + i) (by omega)) (p + 1) 0 (by omega)
    simp only [Finset.range_zero, Finset.sum_empty] at hdot
    rw [hdot]
    simp only [Outcome.bind_ok]
    have f1 : sumL + (w (d + p) - last) = ∑ i ∈ range (p + 1), w (d + i) := by
      rw [Finset.sum_range_succ, ← h1]; ring
    have f2 : sumL2 + (w (d + p) * w (d + p) - last * last) = ∑ i ∈ range (p + 1), w (d + i) * w (d + i) := by
      rw [Finset.sum_range_succ, ← h2]; ring
    rw [f1, f2, coefficient_eq (p + 1) hn s (fun i => w (d + i))]
    refine ih (d + 1) _ _ _ _ (by omega) ?_ ?_ ?_
    · rw [Finset.sum_range_succ']
      simp only [Nat.add_zero, add_sub_cancel_right, Nat.add_sub_cancel]
      exact Finset.sum_congr rfl (fun i _ => by rw [Nat.add_right_comm, Nat.add_assoc])
    · rw [Finset.sum_range_succ']
      simp only [Nat.add_zero, add_sub_cancel_right, Nat.add_sub_cancel]
      exact Finset.sum_congr rfl (fun i _ => by rw [Nat.add_right_comm, Nat.add_assoc])
    · have := hb.next (by
        unfold coeffAt
        split
        · exact .inl rfl
        · exact .inr ⟨_, rfl⟩)
      exact this

theorem crossCorrelation_spec (hS : S ≠ []) (m : Nat) (hm : 0 < m) (hs : ∀ i, i < S.length → read S i = .ok (s i))
    (hw : ∀ i : Nat, i + 1 < m + S.length → read L (base + i) = .ok (w i)) (delayIn : Int) :
    ∃ r, crossCorrelation S L base (S.length + m - 1) delayIn = .ok r ∧ Best (coeffAt S.length s w) delayIn m r := by
  have hn : 0 < S.length := List.length_pos_iff.2 hS
  unfold crossCorrelation
  have hp := prepLoop_spec (S := S) (L := L) (base := base) (s := s) (w := w) S.length hs
    (fun i hi => hw i (by omega)) S.length 0 (by omega)
  simp only [Finset.range_zero, Finset.sum_empty, Nat.zero_min] at hp
  simp only [hp, Outcome.bind_ok]
  have e : ((S.length : Int) + m - 1 - S.length + 1).toNat = m := by omega
  rw [e]
  exact corrLoop_spec S.length m hn hs hw delayIn m 0 _ _ _ _ (by omega) (by simp) (by simp)
    ⟨fun _ => ⟨rfl, rfl⟩, fun e he => absurd he (by omega)⟩

end Verif.XCorr
