import Verif.Proofs.FloatXCorr3
import Verif.Proofs.FloatPolarity
import Verif.Props.Double
import Mathlib.Tactic.IntervalCases

/-!
# C126: the cross-correlation in double precision
-/

set_option linter.unusedSimpArgs false

namespace Verif.FloatXCorrSpec
open Verif Verif.DoubleSpec Verif.FloatXCorr Verif.XCorr.Spec Finset
open Verif.XCorr (read cv rho pearson_eq window_eq self_eq cov_eq)

theorem isqrt_spec : ∀ (fuel n : ℕ), n < 4 ^ fuel → isqrt fuel n * isqrt fuel n ≤ n ∧ n < (isqrt fuel n + 1) * (isqrt fuel n + 1) := by
  intro fuel
  induction fuel with
  | zero => intro n hn; simp at hn; simp [isqrt, hn]
  | succ f ih =>
    intro n hn
    have h1 := ih (n / 4) (by rw [Nat.pow_succ] at hn; omega)
    simp only [isqrt]
    generalize isqrt f (n / 4) = q at h1 ⊢
    have a1 : 4 * (n / 4) ≤ n := by omega
    have a2 : n < 4 * (n / 4) + 4 := by omega
    split
    · rename_i h
      refine ⟨h, ?_⟩
      nlinarith
    · rename_i h
      refine ⟨?_, by omega⟩
      nlinarith

/-- **C126** The square root with 53 bits is accurate to half a unit in the last place. -/
theorem sqrt64_roots : Roots sqrt64 := by
  intro x hx
  rcases hx.eq_or_lt with rfl | hx
  · simp [sqrt64]
  unfold sqrt64
  rw [if_neg (not_le.2 hx)]
  have l1 : ((2 : ℕ) : ℚ) ^ Int.log 2 x ≤ x := Int.zpow_log_le_self (by norm_num) hx
  have l2 : x < ((2 : ℕ) : ℚ) ^ (Int.log 2 x + 1) := Int.lt_zpow_succ_log_self (by norm_num) x
  push_cast at l1 l2
  have hb : rootBit x = Int.log 2 x / 2 - 52 := rfl
  generalize rootBit x = b at hb ⊢
  have h4 : ∀ z : ℤ, (4 : ℚ) ^ z = 2 ^ (2 * z) := by
    intro z; rw [zpow_mul]; norm_num
  have p4 : (0 : ℚ) < 4 ^ b := by positivity
  have y1 : 2 ^ 104 ≤ x / 4 ^ b := by
    rw [le_div_iff₀ p4, h4, ← zpow_natCast, ← zpow_add₀ (by norm_num)]
    exact (zpow_le_zpow_right₀ (by norm_num) (by push_cast; omega)).trans l1
  have y2 : x / 4 ^ b < 2 ^ 106 := by
    rw [div_lt_iff₀ p4, h4, ← zpow_natCast, ← zpow_add₀ (by norm_num)]
    exact l2.trans_le (zpow_le_zpow_right₀ (by norm_num) (by push_cast; omega))
  have hxy : x = x / 4 ^ b * 4 ^ b := by field_simp
  generalize x / 4 ^ b = y at y1 y2 hxy ⊢
  have f0 : 0 ≤ ⌊4 * y⌋ := Int.floor_nonneg.2 (by linarith)
  have f1 : ((⌊4 * y⌋.toNat : ℕ) : ℚ) ≤ 4 * y := by
    have h := Int.floor_le (4 * y)
    have e : ((⌊4 * y⌋.toNat : ℕ) : ℤ) = ⌊4 * y⌋ := Int.toNat_of_nonneg f0
    rw [← e] at h
    exact_mod_cast h
  have f2 : 4 * y < ((⌊4 * y⌋.toNat : ℕ) : ℚ) + 1 := by
    have h := Int.lt_floor_add_one (4 * y)
    have e : ((⌊4 * y⌋.toNat : ℕ) : ℤ) = ⌊4 * y⌋ := Int.toNat_of_nonneg f0
    rw [← e] at h
    exact_mod_cast h
  generalize ⌊4 * y⌋.toNat = N at f1 f2 ⊢
  have hN : N < 4 ^ 60 := by
    have : (N : ℚ) < ((4 ^ 60 : ℕ) : ℚ) := by push_cast; linarith
    exact_mod_cast this
  obtain ⟨r1, r2⟩ := isqrt_spec 60 N hN
  generalize isqrt 60 N = r at r1 r2 ⊢
  -- the root of `4 y` is between `r` and `r + 1`
  have q1 : ((r * r : ℕ) : ℚ) ≤ 4 * y := le_trans (by exact_mod_cast r1) f1
  have q2 : 4 * y < (((r + 1) * (r + 1) : ℕ) : ℚ) := lt_of_lt_of_le f2 (by exact_mod_cast r2)
  have q1' : (r : ℝ) * r ≤ 4 * (y : ℝ) := by exact_mod_cast q1
  have q2' : 4 * (y : ℝ) < ((r : ℝ) + 1) * (r + 1) := by exact_mod_cast q2
  have y1' : (2 : ℝ) ^ 104 ≤ y := by exact_mod_cast y1
  have hy0 : (0 : ℝ) ≤ y := le_trans (by positivity) y1'
  have s0 := Real.sqrt_nonneg (y : ℝ)
  have ss := Real.mul_self_sqrt hy0
  have s1 : (2 : ℝ) ^ 52 ≤ Real.sqrt y := by
    rw [show (2 : ℝ) ^ 52 = Real.sqrt (2 ^ 104) by
      rw [show (2 : ℝ) ^ 104 = (2 ^ 52) ^ 2 by norm_num, Real.sqrt_sq (by positivity)]]
    exact Real.sqrt_le_sqrt y1'
  have t1 : (r : ℝ) ≤ 2 * Real.sqrt y :=
    (mul_self_le_mul_self_iff (by positivity) (by positivity)).2 (by nlinarith)
  have t2 : 2 * Real.sqrt y < r + 1 :=
    (mul_self_lt_mul_self_iff (by positivity) (by positivity)).2 (by nlinarith)
  have hq : (r : ℝ) ≤ 2 * (((r + 1) / 2 : ℕ) : ℝ) ∧ 2 * (((r + 1) / 2 : ℕ) : ℝ) ≤ r + 1 := by
    constructor
    · have : r ≤ 2 * ((r + 1) / 2) := by omega
      exact_mod_cast this
    · have : 2 * ((r + 1) / 2) ≤ r + 1 := by omega
      exact_mod_cast this
  generalize (r + 1) / 2 = q at hq ⊢
  have d1 : |(q : ℝ) - Real.sqrt y| ≤ 1 / 2 ^ 53 * Real.sqrt y := by
    have : (1 : ℝ) / 2 ≤ 1 / 2 ^ 53 * Real.sqrt y := by
      calc (1 : ℝ) / 2 = 1 / 2 ^ 53 * 2 ^ 52 := by norm_num
        _ ≤ _ := mul_le_mul_of_nonneg_left s1 (by positivity)
    rw [abs_le]
    constructor <;> linarith [hq.1, hq.2]
  have e2 : Real.sqrt (x : ℝ) = Real.sqrt y * 2 ^ b := by
    rw [hxy]
    push_cast
    rw [Real.sqrt_mul hy0, show (4 : ℝ) ^ b = (2 ^ b) ^ 2 by rw [← zpow_natCast, ← zpow_mul, mul_comm, zpow_mul]; norm_num,
      Real.sqrt_sq (by positivity)]
  rw [e2]
  push_cast
  have p2 : (0 : ℝ) < 2 ^ b := by positivity
  rw [← sub_mul, abs_mul, abs_of_pos p2, ← mul_assoc]
  exact mul_le_mul_of_nonneg_right d1 p2.le

theorem readQ_ok (l : List ℚ) (i : Int) (n : Nat) (hi : i = n) (h : n < l.length) : read l i = .ok (l.getD n 0) := by
  subst hi
  unfold XCorr.read
  simp [h, List.getD_eq_getElem?_getD]

theorem real_part (L : List ℚ) (i n : ℕ) : real (part L i n) = window (real L) i n := by
  simp [real, part, window, List.map_take, List.map_drop]

theorem real_getD (L : List ℚ) (i : ℕ) : (real L).getD i 0 = ((L.getD i 0 : ℚ) : ℝ) := by
  unfold real
  rw [List.getD_eq_getElem?_getD, List.getD_eq_getElem?_getD, List.getElem?_map]
  cases L[i]? <;> simp

theorem real_self (L : List ℚ) : real L = (List.range L.length).map (fun j => ((L.getD j 0 : ℚ) : ℝ)) := by
  have h := self_eq (real L)
  rw [h]
  simp only [real_getD]
  simp [real]

theorem Loud.at {A r : ℚ} {X : List ℚ} (h : Loud A r X) (hr : 0 < r) {n : ℕ} (hn : 0 < n) {f : ℕ → ℚ}
    (hX : real X = (List.range n).map (fun j => (f j : ℝ))) : LoudAt n A r f := by
  have hl : X.length = n := by
    have := congrArg List.length hX
    simpa [real] using this
  have h2 := h.2
  rw [hX, cov_eq, hl] at h2
  have hn' : (0 : ℝ) < n := by exact_mod_cast hn
  have hr' : (0 : ℝ) < r := by exact_mod_cast hr
  rw [div_le_div_iff₀ hr' hn'] at h2
  unfold LoudAt
  have c := cast_cv n hn f f
  have : (((n * A) ^ 2 : ℚ) : ℝ) ≤ ((r * (n * ∑ i ∈ range n, f i * f i - (∑ i ∈ range n, f i) * (∑ i ∈ range n, f i)) : ℚ) : ℝ) := by
    rw [Rat.cast_mul, c]
    push_cast
    nlinarith
  exact_mod_cast this

set_option exponentiation.threshold 2000 in
theorem ctx_of_doubles {fl : ℚ → ℚ} (hfl : Doubles fl) {n T : ℕ} {A r : ℚ} (hn : 1 ≤ n) (hT : n ≤ T) (lo : 1 / 2 ^ 500 ≤ A) (hi : A ≤ 2 ^ 400)
    (hr : 1 ≤ r) (hsmall : 640 * T * r ≤ 2 ^ 53) : Ctx fl n T A (1 / 2 ^ 53) := by
  have hA : 0 < A := lt_of_lt_of_le (by positivity) lo
  have hT0 : (1 : ℚ) ≤ T := by exact_mod_cast hn.trans hT
  have hn1 : (1 : ℚ) ≤ n := by exact_mod_cast hn
  have hnT : (n : ℚ) ≤ T := by exact_mod_cast hT
  have hTs : 640 * (T : ℚ) ≤ 2 ^ 53 := le_trans (le_mul_of_one_le_right (by linarith) hr) hsmall
  have hP : n * A ≤ 2 ^ 53 * 2 ^ 400 := mul_le_mul (by linarith) hi hA.le (by positivity)
  have hP0 : 0 ≤ n * A := mul_nonneg (by linarith) hA.le
  have hP2 : (n * A) ^ 2 ≤ (2 ^ 53 * 2 ^ 400) ^ 2 := pow_le_pow_left₀ hP0 hP 2
  have hA2 : (1 / 2 ^ 500) ^ 2 ≤ A ^ 2 := pow_le_pow_left₀ (by positivity) lo 2
  refine ⟨?_, hn, hA, by positivity, ?_, hT⟩
  · intro x B b1 b2 hx
    have lo' : (2 : ℚ) ^ (-1022 : ℤ) ≤ B := by
      rcases b1 with b1 | b1 | b1
      · exact le_trans (by rw [show (1 : ℚ) / 2 ^ 500 = 2 ^ (-500 : ℤ) by rw [zpow_neg]; norm_num]
                           exact zpow_le_zpow_right₀ (by norm_num) (by norm_num)) (lo.trans b1)
      · exact le_trans (by rw [show ((1 : ℚ) / 2 ^ 500) ^ 2 = 2 ^ (-1000 : ℤ) by rw [zpow_neg]; norm_num]
                           exact zpow_le_zpow_right₀ (by norm_num) (by norm_num)) (hA2.trans b1)
      · exact le_trans (by rw [show (1 : ℚ) = 2 ^ (0 : ℤ) by norm_num]
                           exact zpow_le_zpow_right₀ (by norm_num) (by norm_num)) b1
    have hi' : B < (2 : ℚ) ^ (1023 : ℤ) := by
      have e : (2 : ℚ) ^ (1023 : ℤ) = 2 ^ 1023 := zpow_natCast 2 1023
      rw [e]
      rcases b2 with b2 | b2 | b2
      · calc B ≤ 2 * (n * A) := b2
          _ ≤ 2 * (2 ^ 53 * 2 ^ 400) := by linarith
          _ < 2 ^ 1023 := by norm_num
      · calc B ≤ 7 * (n * A) ^ 2 := b2
          _ ≤ 7 * (2 ^ 53 * 2 ^ 400) ^ 2 := by linarith
          _ < 2 ^ 1023 := by norm_num
      · exact lt_of_le_of_lt b2 (by norm_num)
    exact near_bound hfl lo' hi' hx
  · have : (14 : ℚ) * (T * (1 / 2 ^ 53)) = 14 * T / 2 ^ 53 := by ring
    rw [this, div_le_one (by positivity)]
    linarith

/-- **C126** (partial) In double precision, for all waveforms whose analysed parts are not small compared with their largest
sample: nothing is read outside the arrays, the result is a delay and a number, the number is Pearson's coefficient of that delay
up to a bound that is proportional to the number of samples, and the coefficient of no delay is larger than that by more than
the bound.  Missing: waveforms with a dead segment, for which this is false. -/
theorem float_correlation_accurate_partial {fl sq : ℚ → ℚ} (hfl : Doubles fl) (hsq : Roots sq) (S L : List ℚ) (base m : ℕ) (hS : S ≠ [])
    (hfit : base + (S.length + m) ≤ L.length) (A r : ℚ) (lo : 1 / 2 ^ 500 ≤ A) (hi : A ≤ 2 ^ 400) (hr : 1 ≤ r)
    (hsmall : 640 * (S.length + m + 1) * r ≤ 2 ^ 53) (loudS : Loud A r S) (loudL : ∀ e ≤ m, Loud A r (part L (base + e) S.length))
    (delayIn : Int) :
    let ε : ℝ := 160 * (S.length + m + 1) * r / 2 ^ 53
    let w := fun e => real (part L (base + e) S.length)
    ∃ (d : ℕ) (c : ℚ), FloatXCorr.crossCorrelation fl sq S L base (S.length + m) delayIn = .ok ((d : Int), .num c) ∧ d ≤ m ∧
      |(c : ℝ) - pearson (real S) (w d)| ≤ ε ∧ ∀ e ≤ m, |pearson (real S) (w e)| ≤ |(c : ℝ)| + ε := by
  intro ε w
  have hn : 0 < S.length := List.length_pos_iff.2 hS
  have hr0 : 0 < r := by linarith
  let s : ℕ → ℚ := fun j => S.getD j 0
  let t : ℕ → ℚ := fun j => L.getD (base + j) 0
  have hsmall' : 640 * ((S.length + m + 1 : ℕ) : ℚ) * r ≤ 2 ^ 53 := by push_cast; exact hsmall
  have ctx := ctx_of_doubles (fl := fl) hfl (n := S.length) (T := S.length + m + 1) hn (by omega) lo hi hr hsmall'
  have hSe : real S = (List.range S.length).map (fun j => (s j : ℝ)) := real_self S
  have hw : ∀ e ≤ m, w e = (List.range S.length).map (fun j => ((t (e + j) : ℚ) : ℝ)) := by
    intro e he
    simp only [w, t]
    rw [real_part, window_eq _ _ _ (by simp [real]; omega)]
    apply List.map_congr_left
    intro j _
    rw [real_getD, Nat.add_assoc]
  have bs : ∀ i < S.length, |s i| ≤ A := by
    intro i hi
    apply loudS.1
    simp only [s]
    rw [List.getD_eq_getElem?_getD, List.getElem?_eq_getElem hi]
    exact List.getElem_mem hi
  have bt : ∀ i : ℕ, i + 1 < (m + 1) + S.length → |t i| ≤ A := by
    intro i hi
    obtain ⟨e, j, he, hj, rfl⟩ : ∃ e j, e ≤ m ∧ j < S.length ∧ i = e + j := ⟨min i m, i - min i m, by omega, by omega, by omega⟩
    apply (loudL e he).1
    simp only [t, part]
    have hlt : base + e + j < L.length := by omega
    rw [← Nat.add_assoc, List.getD_eq_getElem?_getD, List.getElem?_eq_getElem hlt]
    simp only [Option.getD_some]
    rw [List.mem_iff_getElem?]
    refine ⟨j, ?_⟩
    rw [List.getElem?_take_of_lt hj, List.getElem?_drop, List.getElem?_eq_getElem hlt]
  have ls : LoudAt S.length A r s := loudS.at hr0 hn hSe
  have lt : ∀ d < m + 1, LoudAt S.length A r (fun i => t (d + i)) := fun d hd => (loudL d (by omega)).at hr0 hn (hw d (by omega))
  have rs : ∀ i < S.length, read S i = .ok (s i) := fun i hi => readQ_ok S i i rfl hi
  have rt : ∀ i : ℕ, i + 1 < (m + 1) + S.length → read L (base + i) = .ok (t i) :=
    fun i hi => readQ_ok L _ (base + i) (by push_cast; ring) (by omega)
  obtain ⟨p, hp, np⟩ := prep_near ctx rs (fun i hi => rt i (by omega)) bs (fun i hi => bt i (by omega)) S.length 0 ⟨0, 0, 0, 0⟩ (by omega)
    ⟨by simp, by simp, by simp, by simp⟩
  have u1 : (0 : ℚ) ≤ 4 * (S.length * A) * (1 / 2 ^ 53) := mul_nonneg (mul_nonneg (by norm_num) (ctx.posA.le.trans ctx.A_le)) ctx.posu
  have u2 : (0 : ℚ) ≤ 7 * (S.length * A ^ 2) * (1 / 2 ^ 53) := mul_nonneg (mul_nonneg (by norm_num) ((sq_nonneg A).trans ctx.A2_le)) ctx.posu
  have hnT : (S.length : ℚ) ≤ (S.length + m + 1 : ℕ) := by exact_mod_cast (by omega : S.length ≤ S.length + m + 1)
  have q1 := np.sumL
  have q2 := np.sumL2
  rw [Nat.min_eq_right (by omega)] at q1 q2
  obtain ⟨res, hres, nb⟩ := corr_near ctx hsq hr0 hsmall' (m + 1) (by omega) rs rt bs bt ls lt
    (np.sumS.trans (mul_le_mul_of_nonneg_right hnT u1)) (np.sumS2.trans (mul_le_mul_of_nonneg_right hnT u2))
    (m + 1) 0 p.sumL p.sumL2 0 (delayIn, .nan) (by omega) (by simpa using ctx.posA.le)
    (by simpa using q1) (by simpa using q2) (.inl ⟨rfl, rfl⟩)
  have hε : (160 * ((S.length + m + 1 : ℕ) : ℝ) * r / 2 ^ 53 : ℝ) = ε := by simp only [ε]; push_cast; rfl
  rw [hε] at nb
  rcases nb with ⟨h0, -⟩ | ⟨e, v, he, rfl, hv, hmax⟩
  · omega
  · have hpe : ∀ e ≤ m, rho S.length (fun i => (s i : ℝ)) (fun i => (t (e + i) : ℝ)) = pearson (real S) (w e) := by
      intro e he
      rw [hw e he, ← pearson_eq, ← hSe]
    refine ⟨e, v, ?_, by omega, ?_, fun e' he' => ?_⟩
    · unfold FloatXCorr.crossCorrelation
      simp only [hp, Outcome.bind_ok]
      have ek : ((S.length : Int) + m - S.length + 1).toNat = m + 1 := by omega
      rw [ek]
      exact hres
    · rw [← hpe e (by omega)]; exact hv
    · rw [← hpe e' he']; exact hmax e' (by omega)

/-- **C126** (partial) When the coefficient of one delay is larger than those of all the others by more than twice the bound, this delay
is returned, the same as without rounding. -/
theorem float_delay_correct_partial {fl sq : ℚ → ℚ} (hfl : Doubles fl) (hsq : Roots sq) (S L : List ℚ) (base m : ℕ) (hS : S ≠ [])
    (hfit : base + (S.length + m) ≤ L.length) (A r : ℚ) (lo : 1 / 2 ^ 500 ≤ A) (hi : A ≤ 2 ^ 400) (hr : 1 ≤ r)
    (hsmall : 640 * (S.length + m + 1) * r ≤ 2 ^ 53) (loudS : Loud A r S) (loudL : ∀ e ≤ m, Loud A r (part L (base + e) S.length))
    (best : ℕ) (hbest : best ≤ m)
    (clear : ∀ e ≤ m, e ≠ best → |pearson (real S) (real (part L (base + e) S.length))| + 2 * (160 * (S.length + m + 1) * r / 2 ^ 53) <
      |pearson (real S) (real (part L (base + best) S.length))|) (delayIn : Int) :
    (∃ c : ℚ, FloatXCorr.crossCorrelation fl sq S L base (S.length + m) delayIn = .ok ((best : Int), .num c)) ∧
      ∃ c : ℝ, XCorr.crossCorrelation (real S) (real L) base (S.length + m) delayIn = .ok ((best : Int), .num c) := by
  constructor
  · obtain ⟨d, c, h1, hd, h2, h3⟩ := float_correlation_accurate_partial hfl hsq S L base m hS hfit A r lo hi hr hsmall loudS loudL delayIn
    by_cases hb : d = best
    · subst hb; exact ⟨c, h1⟩
    · have a1 := clear d hd hb
      have a2 := h3 best hbest
      have a3 := abs_sub_abs_le_abs_sub (c : ℝ) (pearson (real S) (real (part L (base + d) S.length)))
      linarith
  · have hlen : (real S).length = S.length := by simp [real]
    obtain ⟨d, c, h1, hd, h2⟩ := XCorr.correlation_exact (real S) (real L) base m (by simpa [real] using hS)
      (by simpa [real] using hfit) delayIn
    rw [hlen] at h1 h2
    simp only [← real_part] at h1 h2
    have hne : ∀ X : List ℚ, Loud A r X → ¬ Constant (real X) := by
      rintro X ⟨-, hv⟩ hc
      have e : real X = (List.range X.length).map (fun j => ((X.getD j 0 : ℚ) : ℝ)) := real_self X
      rw [e, XCorr.constant_iff] at hc
      rw [e, cov_eq, hc, zero_div] at hv
      have hA : (0 : ℝ) < A := by
        have : (0 : ℚ) < A := lt_of_lt_of_le (by positivity) lo
        exact_mod_cast this
      have hr' : (0 : ℝ) < r := by
        have : (0 : ℚ) < r := by linarith
        exact_mod_cast this
      have : 0 < (A : ℝ) ^ 2 / r := by positivity
      linarith
    rcases h2 with ⟨-, -, h2⟩ | ⟨rfl, -, -, -, h2⟩
    · rcases h2 0 (by omega) with h | h
      · exact absurd h (hne _ loudS)
      · exact absurd h (hne _ (loudL 0 (by omega)))
    · by_cases hb : d = best
      · subst hb; exact ⟨_, h1⟩
      · have a1 := clear d hd hb
        have a2 := (h2 best hbest (hne _ (loudL best hbest))).1
        have hr' : (0 : ℝ) < r := by
          have : (0 : ℚ) < r := by linarith
          exact_mod_cast this
        have : (0 : ℝ) < 2 * (160 * (S.length + m + 1) * r / 2 ^ 53) := by positivity
        linarith

open Verif.Double (round64)

/-- **C126** Reversing the polarity of the shorter or of the longer waveform changes nothing but the sign of the coefficient, exactly, in double
precision and whatever the samples are; this includes infinite and undefined coefficients. -/
theorem float_polarity (sq : ℚ → ℚ) (S L : List ℚ) (base sizeL delayIn : Int) :
    FloatXCorr.crossCorrelation round64 sq (S.map (-·)) L base sizeL delayIn =
        (FloatXCorr.crossCorrelation round64 sq S L base sizeL delayIn).map (fun r => (r.1, r.2.neg)) ∧
      FloatXCorr.crossCorrelation round64 sq S (L.map (-·)) base sizeL delayIn =
        (FloatXCorr.crossCorrelation round64 sq S L base sizeL delayIn).map (fun r => (r.1, r.2.neg)) := by
  have h1 := crossCorrelation_scale (fl := round64) (sq := sq) (a := -1) (b := 1) (.inr rfl) (.inl rfl) Double.round64_neg S L base sizeL delayIn
  have h2 := crossCorrelation_scale (fl := round64) (sq := sq) (a := 1) (b := -1) (.inl rfl) (.inr rfl) Double.round64_neg S L base sizeL delayIn
  simp only [neg_one_mul, one_mul, List.map_id', mul_one, scale_neg_one] at h1 h2
  exact ⟨h1, h2⟩

set_option maxRecDepth 100000 in
/-- two waveforms with both polarities -/
example : FloatXCorr.crossCorrelation round64 sqrt64 [0, 1, 0, 1] [0, 2, 0, 2] 0 4 0 = .ok (0, .num 1) ∧
    FloatXCorr.crossCorrelation round64 sqrt64 [0, -1, 0, -1] [0, 2, 0, 2] 0 4 0 = .ok (0, .num (-1)) := by decide +kernel

namespace DeadSegment

/-- a short signal -/
def signal : List ℚ := [0, 1, 0]

/-- a record that begins with the same signal, twice as large, followed by a dead segment -/
def record : List ℚ := [0, 2, 0, round64 (7 / 10), round64 (7 / 10), round64 (7 / 10), 1]

set_option maxRecDepth 100000 in
/-- **C126** A dead segment in the record, whose samples are all the same and not zero, makes a perfect match before it be forgotten:
the coefficient of the dead segment is infinite, replaces the best one so far and is replaced itself by the next one, whatever that is.
The result is the last delay, with a coefficient of -0.5, although the coefficient of the first delay is 1. -/
theorem dead_segment_forgets_match :
    FloatXCorr.crossCorrelation round64 sqrt64 signal record 0 7 0 = .ok (4, .num (-4503599627370533 / 9007199254740992)) ∧
      pearson (real signal) (real (part record 0 3)) = 1 := by
  constructor
  · decide +kernel
  · have e : real (part record 0 3) = [0, 2, 0] := by simp [record, part, real]
    have e' : real signal = [0, 1, 0] := by simp [signal, real]
    rw [e, e']
    have c1 : cov [0, 1, 0] [0, 2, 0] = 4 / 3 := by norm_num [cov, mean]
    have c2 : cov [0, 1, 0] [0, 1, 0] = 2 / 3 := by norm_num [cov, mean]
    have c3 : cov [0, 2, 0] [0, 2, 0] = 8 / 3 := by norm_num [cov, mean]
    unfold pearson
    rw [c1, c2, c3, ← Real.sqrt_mul (by norm_num)]
    rw [show (2 : ℝ) / 3 * (8 / 3) = (4 / 3) ^ 2 by norm_num, Real.sqrt_sq (by norm_num)]
    norm_num

/-- a coefficient whose denominator is not a number is not a number -/
theorem coefficient_nan (fl : ℚ → ℚ) (n : ℕ) (a b c : ℚ) (d : Fl ℚ) : FloatXCorr.coefficient fl n a b c .nan d = .nan := by
  unfold FloatXCorr.coefficient
  cases d <;> rfl

theorem corrLoop_nan (fl sq : ℚ → ℚ) (S L : List ℚ) (base : Int) (n : ℕ) (sumS : ℚ) : ∀ (k delay : ℕ) (a b l : ℚ) (d : Int) (r : Int × Fl ℚ),
    FloatXCorr.corrLoop fl sq S L base n sumS .nan k delay a b l (d, .nan) = .ok r → r.2 = .nan ∧ (0 < k → r.1 = delay + k - 1)
  | 0, delay, a, b, l, d, r, h => by
    simp only [FloatXCorr.corrLoop, Outcome.ok.injEq] at h
    subst h
    exact ⟨rfl, fun h => absurd h (lt_irrefl _)⟩
  | k + 1, delay, a, b, l, d, r, h => by
    simp only [FloatXCorr.corrLoop] at h
    cases h1 : read L (base + (delay + n - 1)) with
    | throws => rw [h1] at h; cases h
    | ub => rw [h1] at h; cases h
    | ok x =>
      cases h2 : read L (base + delay) with
      | throws => rw [h1, h2] at h; cases h
      | ub => rw [h1, h2] at h; cases h
      | ok y =>
        cases h3 : FloatXCorr.dotLoop fl S L base delay n 0 0 with
        | throws => rw [h1, h2, h3] at h; cases h
        | ub => rw [h1, h2, h3] at h; cases h
        | ok z =>
          rw [h1, h2, h3] at h
          simp only [Outcome.bind_ok, coefficient_nan] at h
          rw [if_pos (show (!(Fl.nan : Fl ℚ).isFinite || FloatXCorr.absGt Fl.nan Fl.nan) = true from rfl)] at h
          obtain ⟨h4, h5⟩ := corrLoop_nan fl sq S L base n sumS k (delay + 1) _ _ _ _ r h
          refine ⟨h4, fun _ => ?_⟩
          by_cases hk : 0 < k
          · rw [h5 hk]; push_cast; ring
          · have hk0 : k = 0 := by omega
            subst hk0
            simp only [FloatXCorr.corrLoop, Outcome.ok.injEq] at h
            rw [← h]
            push_cast
            ring

theorem sums_three (fl : ℚ → ℚ) (x : ℚ) (L : List ℚ) (base : Int) (s : FloatXCorr.Sums)
    (hs : FloatXCorr.prepLoop fl [x, x, x] L base 3 3 0 ⟨0, 0, 0, 0⟩ = .ok s) :
    s.sumS2 = fl (fl (fl (0 + fl (x * x)) + fl (x * x)) + fl (x * x)) ∧ s.sumS = fl (fl (fl (0 + x) + x) + x) := by
  have r0 : read [x, x, x] ((0 : ℕ) : Int) = .ok x := rfl
  have r1 : read [x, x, x] ((0 + 1 : ℕ) : Int) = .ok x := rfl
  have r2 : read [x, x, x] ((0 + 1 + 1 : ℕ) : Int) = .ok x := rfl
  simp only [FloatXCorr.prepLoop, r0, r1, r2, Outcome.bind_ok] at hs
  rw [if_neg (by decide)] at hs
  cases h1 : read L (base + ((0 : ℕ) : Int)) with
  | throws => rw [h1] at hs; cases hs
  | ub => rw [h1] at hs; cases hs
  | ok z =>
    rw [h1, Outcome.bind_ok, if_neg (by decide)] at hs
    cases h2 : read L (base + ((0 + 1 : ℕ) : Int)) with
    | throws => rw [h2] at hs; cases hs
    | ub => rw [h2] at hs; cases hs
    | ok y =>
      rw [h2, Outcome.bind_ok, if_pos (by decide)] at hs
      rw [← Outcome.ok.inj hs]
      exact ⟨rfl, rfl⟩

/-- a short waveform that is dead: three times the double next to 2.1 -/
def dead : List ℚ := [round64 (21 / 10), round64 (21 / 10), round64 (21 / 10)]

theorem dead_root : FloatXCorr.root round64 sqrt64 3
    (round64 (round64 (round64 (0 + round64 (round64 (21 / 10) * round64 (21 / 10))) + round64 (round64 (21 / 10) * round64 (21 / 10))) +
      round64 (round64 (21 / 10) * round64 (21 / 10))))
    (round64 (round64 (round64 (0 + round64 (21 / 10)) + round64 (21 / 10)) + round64 (21 / 10)))
    (round64 (round64 (round64 (0 + round64 (21 / 10)) + round64 (21 / 10)) + round64 (21 / 10))) = .nan := by decide +kernel

/-- **C126** The variance of a dead short waveform can be negative when it is computed in double precision. The coefficient is then not a
number, for every record, and the delay is the last one: no record correlates with it. -/
theorem dead_signal_no_coefficient (L : List ℚ) (base : Int) (m : ℕ) (delayIn : Int) (r : Int × Fl ℚ)
    (h : FloatXCorr.crossCorrelation round64 sqrt64 dead L base (3 + m) delayIn = .ok r) : r = ((m : Int), .nan) := by
  unfold FloatXCorr.crossCorrelation at h
  have hp : ∀ s, FloatXCorr.prepLoop round64 dead L base dead.length dead.length 0 ⟨0, 0, 0, 0⟩ = .ok s →
      FloatXCorr.root round64 sqrt64 dead.length s.sumS2 s.sumS s.sumS = .nan := by
    intro s hs
    obtain ⟨h1, h2⟩ := sums_three round64 (round64 (21 / 10)) L base s hs
    rw [h1, h2]
    exact dead_root
  cases hs : FloatXCorr.prepLoop round64 dead L base dead.length dead.length 0 ⟨0, 0, 0, 0⟩ with
  | throws => simp only [] at h; rw [hs] at h; cases h
  | ub => simp only [] at h; rw [hs] at h; cases h
  | ok s =>
    simp only [] at h
    rw [hs] at h
    simp only [Outcome.bind_ok, hp s hs] at h
    obtain ⟨h1, h2⟩ := corrLoop_nan _ _ _ _ _ _ _ _ _ _ _ _ _ _ h
    have hk : ((3 + m : Int) - dead.length + 1).toNat = m + 1 := by
      have : dead.length = 3 := rfl
      rw [this]; omega
    rw [hk] at h2
    refine Prod.ext ?_ h1
    rw [h2 (by omega)]
    push_cast
    ring

/-- the hypothesis holds for a record of four samples -/
example : FloatXCorr.crossCorrelation round64 sqrt64 dead [0, 1, 0, 2] 0 (3 + 1) 0 = .ok (1, .nan) := by decide +kernel

/-- a record without a dead segment meets the hypotheses of the theorems above, for double precision itself -/
example : Doubles round64 ∧ Roots sqrt64 ∧ Loud 2 18 signal ∧
    (∀ e ≤ 2, Loud 2 18 (part [0, 2, 0, 1, 0] (0 + e) signal.length)) ∧ 640 * ((signal.length : ℚ) + 2 + 1) * 18 ≤ 2 ^ 53 := by
  refine ⟨Double.round64_doubles, sqrt64_roots, ?_, ?_, by norm_num [signal]⟩
  · constructor
    · intro x hx; simp only [signal, List.mem_cons, List.not_mem_nil, or_false] at hx
      rcases hx with rfl | rfl | rfl <;> norm_num
    · norm_num [signal, real, cov, mean]
  · intro e he
    interval_cases e
    all_goals
      constructor
      · intro x hx
        simp only [signal, part, List.length_cons, List.length_nil, Nat.zero_add, List.drop, List.take, List.mem_cons, List.not_mem_nil, or_false] at hx
        rcases hx with rfl | rfl | rfl <;> norm_num
      · norm_num [signal, part, real, cov, mean]

end DeadSegment

end Verif.FloatXCorrSpec
