import Verif.Proofs.FloatXCorr2

/-!
# The loops of the cross-correlation in double precision
-/

set_option linter.unusedSimpArgs false

namespace Verif.FloatXCorr
open Verif Verif.DoubleSpec Verif.FloatXCorrSpec Finset
open Verif.XCorr (read cv rho n_mul_cv cv_self_nonneg cv_sq_le)

variable {fl sq : ℚ → ℚ} {n T : ℕ} {A u : ℚ} {S L : List ℚ} {base : Int} {s w : ℕ → ℚ}

/-- the sums after `i` samples -/
structure Near (n : ℕ) (A u : ℚ) (s w : ℕ → ℚ) (i : ℕ) (st : Sums) : Prop where
  sumS : |st.sumS - ∑ j ∈ range i, s j| ≤ i * (4 * (n * A) * u)
  sumS2 : |st.sumS2 - ∑ j ∈ range i, s j * s j| ≤ i * (7 * (n * A ^ 2) * u)
  sumL : |st.sumL - ∑ j ∈ range (min i (n - 1)), w j| ≤ i * (4 * (n * A) * u)
  sumL2 : |st.sumL2 - ∑ j ∈ range (min i (n - 1)), w j * w j| ≤ i * (7 * (n * A ^ 2) * u)

theorem sum_le (h : Ctx fl n T A u) {f : ℕ → ℚ} {i : ℕ} (hi : i ≤ n) (hf : ∀ j < i, |f j| ≤ A) : |∑ j ∈ range i, f j| ≤ n * A :=
  (sum_bound i hf).trans (mul_le_mul_of_nonneg_right (by exact_mod_cast hi) h.posA.le)

theorem sum2_le {f g : ℕ → ℚ} {i : ℕ} (hi : i ≤ n) (hf : ∀ j < i, |f j| ≤ A) (hg : ∀ j < i, |g j| ≤ A) :
    |∑ j ∈ range i, f j * g j| ≤ n * A ^ 2 :=
  (sum_bound i (fun j hj => mul_bound (hf j hj) (hg j hj))).trans (mul_le_mul_of_nonneg_right (by exact_mod_cast hi) (sq_nonneg A))

theorem prep_near (h : Ctx fl n T A u) (hs : ∀ i < n, read S i = .ok (s i)) (hw : ∀ i, i + 1 < n → read L (base + i) = .ok (w i))
    (bs : ∀ i < n, |s i| ≤ A) (bw : ∀ i, i + 1 < n → |w i| ≤ A) : ∀ (k i : ℕ) (st : Sums), k + i = n → Near n A u s w i st →
    ∃ r, prepLoop fl S L base n k i st = .ok r ∧ Near n A u s w n r := by
  have hT := h.le
  have p1 : 0 ≤ 4 * (n * A) * u := mul_nonneg (mul_nonneg (by norm_num) (h.posA.le.trans h.A_le)) h.posu
  have p2 : 0 ≤ 7 * (n * A ^ 2) * u := mul_nonneg (mul_nonneg (by norm_num) ((sq_nonneg A).trans h.A2_le)) h.posu
  intro k
  induction k with
  | zero =>
    intro i st hi hst
    obtain rfl : i = n := by omega
    exact ⟨st, rfl, hst⟩
  | succ k ih =>
    intro i st hi hst
    unfold prepLoop
    rw [hs i (by omega)]
    simp only [Outcome.bind_ok]
    have g1 := h.addSample (i := i) (by omega) hst.sumS (x := s i)
      (by rw [← Finset.sum_range_succ]; exact sum_le h (by omega) (fun j hj => bs j (by omega)))
    have g2 := h.addProduct (i := i) (by omega) hst.sumS2 (bs i (by omega)) (bs i (by omega))
      (by rw [← Finset.sum_range_succ (fun j => s j * s j)]
          exact sum2_le (by omega) (fun j hj => bs j (by omega)) (fun j hj => bs j (by omega)))
    rw [← Finset.sum_range_succ] at g1
    rw [← Finset.sum_range_succ (fun j => s j * s j)] at g2
    by_cases hc : (n : Int) - 1 ≤ i
    · rw [if_pos hc]
      apply ih (i + 1) _ (by omega)
      refine ⟨g1, g2, ?_, ?_⟩
      · have := hst.sumL
        rw [Nat.min_eq_right (by omega)] at this ⊢
        push_cast
        linarith
      · have := hst.sumL2
        rw [Nat.min_eq_right (by omega)] at this ⊢
        push_cast
        linarith
    · rw [if_neg hc, hw i (by omega)]
      simp only [Outcome.bind_ok]
      apply ih (i + 1) _ (by omega)
      have q1 := hst.sumL
      have q2 := hst.sumL2
      rw [Nat.min_eq_left (by omega)] at q1 q2
      have g3 := h.addSample (i := i) (by omega) q1 (x := w i)
        (by rw [← Finset.sum_range_succ]; exact sum_le h (by omega) (fun j hj => bw j (by omega)))
      have g4 := h.addProduct (i := i) (by omega) q2 (bw i (by omega)) (bw i (by omega))
        (by rw [← Finset.sum_range_succ (fun j => w j * w j)]
            exact sum2_le (by omega) (fun j hj => bw j (by omega)) (fun j hj => bw j (by omega)))
      rw [← Finset.sum_range_succ] at g3
      rw [← Finset.sum_range_succ (fun j => w j * w j)] at g4
      refine ⟨g1, g2, ?_, ?_⟩
      · rw [Nat.min_eq_left (by omega)]; exact g3
      · rw [Nat.min_eq_left (by omega)]; exact g4

theorem dot_near (h : Ctx fl n T A u) (d : ℕ) (hs : ∀ i < n, read S i = .ok (s i))
    (hw : ∀ i < n, read L (base + ((i : Int) + d)) = .ok (w (d + i)))
    (bs : ∀ i < n, |s i| ≤ A) (bw : ∀ i < n, |w (d + i)| ≤ A) : ∀ (k i : ℕ) (acc : ℚ), k + i = n →
    |acc - ∑ j ∈ range i, s j * w (d + j)| ≤ i * (7 * (n * A ^ 2) * u) →
    ∃ r, dotLoop fl S L base d k i acc = .ok r ∧ |r - ∑ j ∈ range n, s j * w (d + j)| ≤ n * (7 * (n * A ^ 2) * u) := by
  have hT := h.le
  intro k
  induction k with
  | zero =>
    intro i acc hi hst
    obtain rfl : i = n := by omega
    exact ⟨acc, rfl, hst⟩
  | succ k ih =>
    intro i acc hi hst
    unfold dotLoop
    rw [hs i (by omega), hw i (by omega)]
    simp only [Outcome.bind_ok]
    have g2 := h.addProduct (i := i) (by omega) hst (bs i (by omega)) (bw i (by omega))
      (by rw [← Finset.sum_range_succ (fun j => s j * w (d + j))]
          exact sum2_le (by omega) (fun j hj => bs j (by omega)) (fun j hj => bw j (by omega)))
    rw [← Finset.sum_range_succ (fun j => s j * w (d + j))] at g2
    exact ih (i + 1) _ (by omega) g2

/-- the series as a function into the reals -/
theorem cast_cv (n : ℕ) (hn : 0 < n) (f g : ℕ → ℚ) :
    ((n * ∑ i ∈ range n, f i * g i - (∑ i ∈ range n, f i) * (∑ i ∈ range n, g i) : ℚ) : ℝ) =
      n * cv n (fun i => (f i : ℝ)) (fun i => (g i : ℝ)) := by
  rw [← n_mul_cv n hn]
  push_cast
  rfl

/-- the best delay after those below `d`, up to the error `ε` -/
def NearBest (ε : ℝ) (r : ℕ → ℝ) (d : ℕ) (best : Int × Fl ℚ) : Prop :=
  (d = 0 ∧ best.2 = .nan) ∨ ∃ (e : ℕ) (v : ℚ), e < d ∧ best = ((e : Int), .num v) ∧ |(v : ℝ) - r e| ≤ ε ∧
    ∀ e' < d, |r e'| ≤ |(v : ℝ)| + ε

theorem NearBest.next {ε : ℝ} {r : ℕ → ℝ} {d : ℕ} {best : Int × Fl ℚ} (h : NearBest ε r d best) {c : ℚ} (hc : |(c : ℝ) - r d| ≤ ε) :
    NearBest ε r (d + 1) (if !best.2.isFinite || absGt (.num c) best.2 then ((d : Int), .num c) else best) := by
  have hd : |r d| ≤ |(c : ℝ)| + ε := by
    have := abs_add_le (r d - c) c
    rw [sub_add_cancel, abs_sub_comm] at this
    linarith
  rcases h with ⟨rfl, hb⟩ | ⟨e, v, he, hb, hv, hmax⟩
  · rw [hb]
    simp only [Fl.isFinite, Bool.not_false, Bool.true_or, if_true]
    refine .inr ⟨0, c, by omega, rfl, hc, fun e' he' => ?_⟩
    obtain rfl : e' = 0 := by omega
    exact hd
  · rw [hb]
    simp only [Fl.isFinite, Bool.not_true, Bool.false_or, absGt, decide_eq_true_eq]
    by_cases hgt : |v| < |c|
    · rw [if_pos hgt]
      have hgt' : |(v : ℝ)| < |(c : ℝ)| := by exact_mod_cast hgt
      refine .inr ⟨d, c, by omega, rfl, hc, fun e' he' => ?_⟩
      by_cases hed : e' = d
      · rw [hed]; exact hd
      · have := hmax e' (by omega)
        linarith
    · rw [if_neg hgt]
      have hgt' : |(c : ℝ)| ≤ |(v : ℝ)| := by exact_mod_cast not_lt.1 hgt
      refine .inr ⟨e, v, by omega, rfl, hv, fun e' he' => ?_⟩
      by_cases hed : e' = d
      · rw [hed]; linarith
      · exact hmax e' (by omega)

/-- the variance of the `n` samples of `f`, times `n²`, is not small -/
def LoudAt (n : ℕ) (A r : ℚ) (f : ℕ → ℚ) : Prop :=
  (n * A) ^ 2 ≤ r * (n * ∑ i ∈ range n, f i * f i - (∑ i ∈ range n, f i) * (∑ i ∈ range n, f i))

theorem spread_le (h : Ctx fl n T A u) {f : ℕ → ℚ} (hf : ∀ j < n, |f j| ≤ A) :
    n * ∑ i ∈ range n, f i * f i - (∑ i ∈ range n, f i) * (∑ i ∈ range n, f i) ≤ (n * A) ^ 2 := by
  have h1 := (abs_le.1 (sum2_le le_rfl hf hf)).2
  have h2 := mul_self_nonneg (∑ i ∈ range n, f i)
  have h3 := mul_le_mul_of_nonneg_left h1 (by linarith [h.one_le] : (0 : ℚ) ≤ n)
  calc _ ≤ n * (n * A ^ 2) := by linarith
    _ = (n * A) ^ 2 := by ring

/-- the coefficient of one delay -/
theorem coefficient_near (h : Ctx fl n T A (1 / 2 ^ 53)) (hsq : Roots sq) {r : ℚ} (hr : 0 < r) (hsmall : 640 * T * r ≤ 2 ^ 53) {f g : ℕ → ℚ}
    (bf : ∀ j < n, |f j| ≤ A) (bg : ∀ j < n, |g j| ≤ A) (lf : LoudAt n A r f) (lg : LoudAt n A r g)
    {a1 a2 b1 b2 p : ℚ} (ha1 : |a1 - ∑ i ∈ range n, f i| ≤ T * (4 * (n * A) * (1 / 2 ^ 53)))
    (ha2 : |a2 - ∑ i ∈ range n, f i * f i| ≤ T * (7 * (n * A ^ 2) * (1 / 2 ^ 53)))
    (hb1 : |b1 - ∑ i ∈ range n, g i| ≤ T * (4 * (n * A) * (1 / 2 ^ 53)))
    (hb2 : |b2 - ∑ i ∈ range n, g i * g i| ≤ T * (7 * (n * A ^ 2) * (1 / 2 ^ 53)))
    (hp : |p - ∑ i ∈ range n, f i * g i| ≤ T * (7 * (n * A ^ 2) * (1 / 2 ^ 53))) :
    ∃ c : ℚ, coefficient fl n a1 b1 p (root fl sq n a2 a1 a1) (root fl sq n b2 b1 b1) = .num c ∧
      |(c : ℝ) - rho n (fun i => (f i : ℝ)) (fun i => (g i : ℝ))| ≤ 160 * T * r / 2 ^ 53 := by
  have hn : 0 < n := h.pos
  have hn' : (0 : ℝ) < n := by exact_mod_cast hn
  have eS := h.combine ha2 ha1 ha1 (sum2_le le_rfl bf bf) (sum_le h le_rfl bf) (sum_le h le_rfl bf)
  have eL := h.combine hb2 hb1 hb1 (sum2_le le_rfl bg bg) (sum_le h le_rfl bg) (sum_le h le_rfl bg)
  have eN := h.combine hp ha1 hb1 (sum2_le le_rfl bf bg) (sum_le h le_rfl bf) (sum_le h le_rfl bg)
  have sS := spread_le h bf
  have sL := spread_le h bg
  have cS := cast_cv n hn f f
  have cL := cast_cv n hn g g
  have cN := cast_cv n hn f g
  have hP : 0 < n * A := lt_of_lt_of_le h.posA h.A_le
  have hW : 0 < (n * A) ^ 2 := pow_pos hP 2
  have hWA : A ^ 2 ≤ (n * A) ^ 2 := h.A2_le.trans h.Q_le
  have hT1 : (1 : ℝ) ≤ T := by exact_mod_cast h.pos.trans h.le
  have hr' : (0 : ℝ) < r := by exact_mod_cast hr
  have hsm : (640 : ℝ) * T * r ≤ 2 ^ 53 := by exact_mod_cast hsmall
  have hr1 : (1 : ℝ) ≤ r := by
    have h1 : (n * A) ^ 2 ≤ r * (n * A) ^ 2 := le_trans lf (mul_le_mul_of_nonneg_left sS hr.le)
    have : 1 ≤ r := by
      by_contra hc
      have := mul_lt_mul_of_pos_right (not_le.1 hc) hW
      linarith
    exact_mod_cast this
  unfold LoudAt at lf lg
  generalize hVS : n * ∑ i ∈ range n, f i * f i - (∑ i ∈ range n, f i) * (∑ i ∈ range n, f i) = VS at *
  generalize hVL : n * ∑ i ∈ range n, g i * g i - (∑ i ∈ range n, g i) * (∑ i ∈ range n, g i) = VL at *
  generalize hN : n * ∑ i ∈ range n, f i * g i - (∑ i ∈ range n, f i) * (∑ i ∈ range n, g i) = N at *
  generalize hWd : (n * A) ^ 2 = W at *
  have cs : N ^ 2 ≤ VS * VL := by
    have h1 := cv_sq_le n (fun i => (f i : ℝ)) (fun i => (g i : ℝ))
    have h2 : ((N ^ 2 : ℚ) : ℝ) ≤ ((VS * VL : ℚ) : ℝ) := by
      push_cast
      rw [cN, cS, cL]
      calc _ = (n : ℝ) ^ 2 * cv n (fun i => (f i : ℝ)) (fun i => (g i : ℝ)) ^ 2 := by ring
        _ ≤ (n : ℝ) ^ 2 * (cv n (fun i => (f i : ℝ)) (fun i => (f i : ℝ)) * cv n (fun i => (g i : ℝ)) (fun i => (g i : ℝ))) :=
          mul_le_mul_of_nonneg_left h1 (by positivity)
        _ = _ := by ring
    exact_mod_cast h2
  have cast_err : ∀ x y : ℚ, |x - y| ≤ 32 * T * W * (1 / 2 ^ 53) → |(x : ℝ) - y| * r ≤ 32 * T * r / 2 ^ 53 * W := by
    intro x y hxy
    have h1 := (Rat.cast_le (K := ℝ)).2 hxy
    push_cast at h1
    have h2 := mul_le_mul_of_nonneg_right h1 hr'.le
    calc _ ≤ 32 * (T : ℝ) * W * (1 / 2 ^ 53) * r := h2
      _ = _ := by ring
  have hTr : 1 ≤ (T : ℝ) * r := by nlinarith
  have hTr2 : (r : ℝ) ≤ T * r := le_mul_of_one_le_left hr'.le hT1
  obtain ⟨k1, k2, k3, k4⟩ := quotient_near (fl := fl) hsq (δ := 32 * T * r / 2 ^ 53) (r := r)
    (by rw [show (32 : ℝ) * T * r / 2 ^ 53 / 32 = (T * r) / 2 ^ 53 by ring]
        exact div_le_div_of_nonneg_right hTr (by positivity))
    (by rw [div_le_iff₀ (by positivity)]; linarith)
    (by rw [show (32 : ℝ) * T * r / 2 ^ 53 / 32 = (T * r) * (1 / 2 ^ 53) by ring]
        exact mul_le_mul_of_nonneg_right hTr2 (by positivity))
    hW hr lf lg sS sL cs
    (by
      rintro x B (rfl | rfl) hx
      · exact h.near x _ (.inr (.inl (by linarith))) (.inr (.inl (by rw [hWd]; linarith))) hx
      · exact h.near x _ (.inr (.inr (by norm_num))) (.inr (.inr le_rfl)) hx)
    (cast_err _ _ eS) (cast_err _ _ eL) (cast_err _ _ eN)
  have e : (N : ℝ) / (Real.sqrt VS * Real.sqrt VL) = rho n (fun i => (f i : ℝ)) (fun i => (g i : ℝ)) := by
    unfold rho
    rw [cS, cL, cN, Real.sqrt_mul hn'.le, Real.sqrt_mul hn'.le]
    rw [show Real.sqrt n * Real.sqrt (cv n (fun i => (f i : ℝ)) (fun i => (f i : ℝ))) *
        (Real.sqrt n * Real.sqrt (cv n (fun i => (g i : ℝ)) (fun i => (g i : ℝ)))) =
      n * (Real.sqrt (cv n (fun i => (f i : ℝ)) (fun i => (f i : ℝ))) * Real.sqrt (cv n (fun i => (g i : ℝ)) (fun i => (g i : ℝ)))) by
        have := Real.mul_self_sqrt hn'.le
        linear_combination (Real.sqrt (cv n (fun i => (f i : ℝ)) (fun i => (f i : ℝ))) * Real.sqrt (cv n (fun i => (g i : ℝ)) (fun i => (g i : ℝ)))) * this]
    rw [mul_div_mul_left _ _ hn'.ne']
  rw [e] at k4
  refine ⟨_, ?_, k4.trans (le_of_eq (by ring))⟩
  unfold coefficient root
  simp only [not_lt.2 k1.le, not_lt.2 k2.le, if_false, Fl.mul, rounded, Fl.div, k3]

theorem corr_near (h : Ctx fl n T A (1 / 2 ^ 53)) (hsq : Roots sq) {r : ℚ} (hr : 0 < r) (hsmall : 640 * T * r ≤ 2 ^ 53) (m : ℕ)
    (hT : n + m ≤ T) (hs : ∀ i < n, read S i = .ok (s i)) (hw : ∀ i : ℕ, i + 1 < m + n → read L (base + i) = .ok (w i))
    (bs : ∀ i < n, |s i| ≤ A) (bw : ∀ i : ℕ, i + 1 < m + n → |w i| ≤ A) (ls : LoudAt n A r s)
    (lw : ∀ d < m, LoudAt n A r (fun i => w (d + i)))
    {sumS sumS2 : ℚ} (e1 : |sumS - ∑ i ∈ range n, s i| ≤ T * (4 * (n * A) * (1 / 2 ^ 53)))
    (e2 : |sumS2 - ∑ i ∈ range n, s i * s i| ≤ T * (7 * (n * A ^ 2) * (1 / 2 ^ 53))) :
    ∀ (k d : ℕ) (sumL sumL2 last : ℚ) (best : Int × Fl ℚ), k + d = m → |last| ≤ A →
      |sumL - (∑ i ∈ range (n - 1), w (d + i) + last)| ≤ (n + d : ℕ) * (4 * (n * A) * (1 / 2 ^ 53)) →
      |sumL2 - (∑ i ∈ range (n - 1), w (d + i) * w (d + i) + last * last)| ≤ (n + d : ℕ) * (7 * (n * A ^ 2) * (1 / 2 ^ 53)) →
      NearBest (160 * T * r / 2 ^ 53) (fun d => rho n (fun i => (s i : ℝ)) (fun i => (w (d + i) : ℝ))) d best →
      ∃ res, corrLoop fl sq S L base n sumS (root fl sq n sumS2 sumS sumS) k d sumL sumL2 last best = .ok res ∧
        NearBest (160 * T * r / 2 ^ 53) (fun d => rho n (fun i => (s i : ℝ)) (fun i => (w (d + i) : ℝ))) m res := by
  obtain ⟨p, rfl⟩ : ∃ p, n = p + 1 := ⟨n - 1, by have := h.pos; omega⟩
  have q1 : 0 ≤ 4 * (((p + 1 : ℕ) : ℚ) * A) * (1 / 2 ^ 53) := mul_nonneg (mul_nonneg (by norm_num) (h.posA.le.trans h.A_le)) h.posu
  have q2 : 0 ≤ 7 * (((p + 1 : ℕ) : ℚ) * A ^ 2) * (1 / 2 ^ 53) := mul_nonneg (mul_nonneg (by norm_num) ((sq_nonneg A).trans h.A2_le)) h.posu
  intro k
  induction k with
  | zero =>
    intro d sumL sumL2 last best hd _ _ _ hb
    obtain rfl : d = m := by omega
    exact ⟨best, rfl, hb⟩
  | succ k ih =>
    intro d sumL sumL2 last best hd hl h1 h2 hb
    simp only [Nat.add_sub_cancel] at h1 h2
    unfold corrLoop
    have ei : base + ((d : Int) + ((p + 1 : ℕ) : Int) - 1) = base + ((d + p : ℕ) : Int) := by push_cast; ring
    rw [ei, hw (d + p) (by omega), hw d (by omega)]
    simp only [Outcome.bind_ok]
    have bd : ∀ j < p + 1, |w (d + j)| ≤ A := fun j hj => bw (d + j) (by omega)
    have f1 : ∑ i ∈ range p, w (d + i) + last + (w (d + p) - last) = ∑ i ∈ range (p + 1), w (d + i) := by
      rw [Finset.sum_range_succ]; ring
    have f2 : ∑ i ∈ range p, w (d + i) * w (d + i) + last * last + (w (d + p) * w (d + p) - last * last) =
        ∑ i ∈ range (p + 1), w (d + i) * w (d + i) := by
      rw [Finset.sum_range_succ]; ring
    have g1 := h.slide (by omega) h1 (bw (d + p) (by omega)) hl (by rw [f1]; exact sum_le h le_rfl bd)
    have g2 := h.slideSquares (by omega) h2 (bw (d + p) (by omega)) hl (by rw [f2]; exact sum2_le le_rfl bd bd)
    rw [f1] at g1
    rw [f2] at g2
    obtain ⟨dot, hdot, hdot'⟩ := dot_near h d hs (fun i hi => by
        have : base + ((i : Int) + d) = base + ((d + i : ℕ) : Int) := by push_cast; ring
        rw [this]; exact hw (d + i) (by omega)) bs bd (p + 1) 0 0 (by omega) (by simp)
    rw [hdot]
    simp only [Outcome.bind_ok]
    have up1 : ∀ {a : ℕ}, a ≤ T → (a : ℚ) * (4 * (((p + 1 : ℕ) : ℚ) * A) * (1 / 2 ^ 53)) ≤ T * (4 * (((p + 1 : ℕ) : ℚ) * A) * (1 / 2 ^ 53)) :=
      fun ha => mul_le_mul_of_nonneg_right (by exact_mod_cast ha) q1
    have up2 : ∀ {a : ℕ}, a ≤ T → (a : ℚ) * (7 * (((p + 1 : ℕ) : ℚ) * A ^ 2) * (1 / 2 ^ 53)) ≤ T * (7 * (((p + 1 : ℕ) : ℚ) * A ^ 2) * (1 / 2 ^ 53)) :=
      fun ha => mul_le_mul_of_nonneg_right (by exact_mod_cast ha) q2
    obtain ⟨c, hc, hcn⟩ := coefficient_near h hsq hr hsmall bs bd ls (lw d (by omega)) e1 e2 (g1.trans (up1 (by omega)))
      (g2.trans (up2 (by omega))) (hdot'.trans (up2 h.le))
    rw [hc]
    apply ih (d + 1) _ _ _ _ (by omega) (bw d (by omega))
    · have e : ∑ i ∈ range p, w (d + 1 + i) + w d = ∑ i ∈ range (p + 1), w (d + i) := by
        rw [Finset.sum_range_succ']
        simp only [Nat.add_zero]
        congr 1
        exact Finset.sum_congr rfl (fun i _ => by rw [Nat.add_right_comm, Nat.add_assoc])
      simp only [Nat.add_sub_cancel]
      rw [e]; exact g1
    · have e : ∑ i ∈ range p, w (d + 1 + i) * w (d + 1 + i) + w d * w d = ∑ i ∈ range (p + 1), w (d + i) * w (d + i) := by
        rw [Finset.sum_range_succ']
        simp only [Nat.add_zero]
        congr 1
        exact Finset.sum_congr rfl (fun i _ => by rw [Nat.add_right_comm, Nat.add_assoc])
      simp only [Nat.add_sub_cancel]
      rw [e]; exact g2
    · exact hb.next hcn

end Verif.FloatXCorr
