import Verif.Proofs.XCorr
import Verif.Props.Trace

/-!
# C35, C36, C65: cross-correlation
-/

set_option linter.unusedSimpArgs false

namespace Verif.XCorr
open Spec Finset

theorem read_ok (l : List ℝ) (i : Int) (n : Nat) (hi : i = n) (h : n < l.length) : read l i = .ok (l.getD n 0) := by
  subst hi
  unfold read
  simp [h, List.getD_eq_getElem?_getD]

theorem window_eq (L : List ℝ) (i n : Nat) (h : i + n ≤ L.length) :
    window L i n = (List.range n).map (fun j => L.getD (i + j) 0) := by
  unfold window
  apply List.ext_getElem
  · simp; omega
  · intro j h1 h2
    simp at h1 h2
    simp [List.getD_eq_getElem?_getD, List.getElem?_eq_getElem (show i + j < L.length by omega)]

theorem self_eq (S : List ℝ) : S = (List.range S.length).map (fun j => S.getD j 0) := by
  apply eq_map_range
  intro i hi
  simp [List.getD_eq_getElem?_getD, hi]

/-- The coefficient is defined unless one of the two series is constant, and lies in [-1, 1]; it does not
depend on the order of the two series. -/
theorem abs_pearson_le_one (X Y : List ℝ) (h : X.length = Y.length) : |pearson X Y| ≤ 1 ∧ pearson X Y = pearson Y X := by
  rw [self_eq X, self_eq Y, ← h]
  simp only [pearson_eq]
  refine ⟨abs_rho_le _ _ _, ?_⟩
  unfold rho
  rw [cv_symm, mul_comm]

/-- **C35** For every short series `S` and every part of an array `L`, `m + 1` delays: the call reads no
sample outside the arrays; unless the correlation coefficient is not defined for any delay (`S` or every
window constant), it returns the first delay with the largest absolute coefficient and this coefficient is
Pearson's, between -1 and 1. -/
theorem correlation_exact (S L : List ℝ) (base m : Nat) (hS : S ≠ []) (hfit : base + (S.length + m) ≤ L.length)
    (delayIn : Int) :
    let w := fun e => window L (base + e) S.length
    ∃ (d : Nat) (c : Fl ℝ), crossCorrelation S L base (S.length + m) delayIn = .ok ((d : Int), c) ∧ d ≤ m ∧
      (c = .nan ∧ d = m ∧ (∀ e ≤ m, Constant S ∨ Constant (w e)) ∨
       c = .num (pearson S (w d)) ∧ |pearson S (w d)| ≤ 1 ∧ ¬ Constant S ∧ ¬ Constant (w d) ∧
        ∀ e ≤ m, ¬ Constant (w e) → |pearson S (w e)| ≤ |pearson S (w d)| ∧
          (e < d → |pearson S (w e)| < |pearson S (w d)|)) := by
  intro w
  let s : Nat → ℝ := fun j => S.getD j 0
  let t : Nat → ℝ := fun j => L.getD (base + j) 0
  have hc : ∀ e ≤ m, coeffAt S.length s t e =
      (open Classical in if Constant S ∨ Constant (w e) then Fl.nan else .num (pearson S (w e))) := by
    intro e he
    have hw : w e = (List.range S.length).map (fun j => t (e + j)) := by
      simp only [w, t]
      rw [window_eq _ _ _ (by omega)]
      apply List.map_congr_left
      intro j _
      rw [Nat.add_assoc]
    have hSe := self_eq S
    have c1 : Constant S ↔ cv S.length s s = 0 := by
      rw [← constant_iff, ← hSe]
    have c2 : Constant (w e) ↔ cv S.length (fun j => t (e + j)) (fun j => t (e + j)) = 0 := by
      rw [hw, constant_iff]
    have c3 : pearson S (w e) = rho S.length s (fun j => t (e + j)) := by
      rw [hw, ← pearson_eq, ← hSe]
    unfold coeffAt
    rw [c3]
    simp only [c1, c2]
  obtain ⟨r, h1, h2⟩ := crossCorrelation_spec (S := S) (L := L) (base := base) (s := s) (w := t) hS (m + 1) (by omega)
    (fun i hi => read_ok S i i rfl hi) (fun i hi => read_ok L _ (base + i) (by push_cast; ring) (by omega)) delayIn
  have e1 : (S.length : Int) + ((m + 1 : Nat) : Int) - 1 = S.length + m := by push_cast; ring
  rw [e1] at h1
  by_cases hall : ∀ e < m + 1, coeffAt S.length s t e = .nan
  · obtain ⟨a1, a2⟩ := h2.none hall
    rw [if_neg (by omega)] at a2
    refine ⟨m, .nan, ?_, le_refl _, .inl ⟨rfl, rfl, ?_⟩⟩
    · rw [h1]
      congr 1
      ext1
      · rw [a2]; push_cast; ring
      · exact a1
    · intro e he
      have := hall e (by omega)
      rw [hc e he] at this
      by_contra hn
      rw [if_neg hn] at this
      cases this
  · push Not at hall
    obtain ⟨e0, he0, hne0⟩ := hall
    obtain ⟨d, hd, v, hv, hb, hmax⟩ := h2.some e0 he0 hne0
    have hcd := hc d (by omega)
    by_cases hn : Constant S ∨ Constant (w d)
    · rw [if_pos hn, hv] at hcd; cases hcd
    rw [if_neg hn, hv] at hcd
    have hv' : v = pearson S (w d) := by injection hcd
    have hn' := hn
    push Not at hn
    refine ⟨d, .num v, by rw [h1, hb, hv], by omega, .inr ⟨by rw [hv'], ?_, hn.1, hn.2, ?_⟩⟩
    · apply (abs_pearson_le_one _ _ _).1
      simp only [w, window, List.length_take, List.length_drop]
      omega
    · intro e he hce
      have h3 := hc e he
      rw [if_neg (by rintro (h | h); exacts [hn.1 h, hce h])] at h3
      rw [← hv']
      exact hmax e (by omega) _ h3

/-- the hypotheses under which two traces are correlated -/
structure Comparable (tr1 tr2 : Trace ℝ) (maxDelay : ℚ) : Prop where
  data1 : tr1.data ≠ []
  data2 : tr2.data ≠ []
  same : tr1.freq = tr2.freq
  freq : 0 < tr1.freq
  delay : 0 ≤ maxDelay
  fits : maxDelay * tr1.freq < 2147483648

theorem Comparable.symm {tr1 tr2 : Trace ℝ} {maxDelay : ℚ} (h : Comparable tr1 tr2 maxDelay) :
    Comparable tr2 tr1 maxDelay :=
  ⟨h.data2, h.data1, h.same.symm, by rw [← h.same]; exact h.freq, h.delay, by rw [← h.same]; exact h.fits⟩

theorem toInt_ok {x : ℚ} (h : 0 ≤ x) (h' : x < 2147483648) : toInt x = .ok ⌊x⌋ := by
  unfold toInt
  have h1 : 0 ≤ ⌊x⌋ := Int.floor_nonneg.2 h
  have h2 : ⌊x⌋ < 2147483648 := Int.floor_lt.2 (by exact_mod_cast h')
  simp only [if_pos h]
  rw [if_pos ⟨by omega, by omega⟩]

/-- the delay in samples and the first sample of the long trace that is used -/
theorem xcorr_unfold {tr1 tr2 : Trace ℝ} {maxDelay : ℚ} (h : Comparable tr1 tr2 maxDelay)
    (hle : tr1.data.length ≤ tr2.data.length) :
    ∃ m base : Nat, (m : ℚ) ≤ maxDelay * tr1.freq ∧ base + m = (tr2.data.length - tr1.data.length) / 2 ∧
      (maxDelay * tr1.freq < (m : ℚ) + 1 ∨ m = (tr2.data.length - tr1.data.length) / 2) ∧
      (∀ lagIn, xcorr tr1 tr2 maxDelay lagIn =
        (crossCorrelation tr1.data tr2.data base (tr1.data.length + (m * 2 : Nat)) lagIn).map
          (fun r => (((r.1 : ℚ) - m) / tr1.freq, r.2))) ∧
      (tr1.data.length < tr2.data.length → ∀ lagIn, xcorr tr2 tr1 maxDelay lagIn =
        (crossCorrelation tr1.data tr2.data base (tr1.data.length + (m * 2 : Nat)) lagIn).map
          (fun r => (-(((r.1 : ℚ) - m) / tr1.freq), r.2))) := by
  have hx : 0 ≤ maxDelay * tr1.freq := mul_nonneg h.delay h.freq.le
  have hf0 : 0 ≤ ⌊maxDelay * tr1.freq⌋ := Int.floor_nonneg.2 hx
  obtain ⟨f, hf⟩ : ∃ f : Nat, ⌊maxDelay * tr1.freq⌋ = f := ⟨⌊maxDelay * tr1.freq⌋.toNat, by omega⟩
  have hfl : (f : ℚ) ≤ maxDelay * tr1.freq := by
    have := Int.floor_le (maxDelay * tr1.freq)
    rw [hf] at this; exact_mod_cast this
  have hfu : maxDelay * tr1.freq < (f : ℚ) + 1 := by
    have := Int.lt_floor_add_one (maxDelay * tr1.freq)
    rw [hf] at this; exact_mod_cast this
  let a := (tr2.data.length - tr1.data.length) / 2
  have ha : ((tr2.data.length : Int) - tr1.data.length) / 2 = a := by omega
  let m := min f a
  have hm : (if (f : Int) > (a : Int) then (a : Int) else f) = m := by
    simp only [m]
    split <;> omega
  refine ⟨m, a - m, ?_, by omega, ?_, ?_, ?_⟩
  · have : (m : ℚ) ≤ f := by exact_mod_cast Nat.min_le_left f a
    linarith
  · by_cases hfa : f ≤ a
    · left
      have : m = f := Nat.min_eq_left hfa
      rw [this]; exact hfu
    · right
      exact Nat.min_eq_right (by omega)
  · intro lagIn
    unfold xcorr
    have hsw : ¬ tr2.data.length < tr1.data.length := by omega
    simp only [gt_iff_lt, hsw, decide_false, Bool.false_eq_true, if_false, toInt_ok hx h.fits, Outcome.bind_ok, hf, ha, hm]
    have e1 : (a : Int) - m = ((a - m : Nat) : Int) := by omega
    have e2 : (m : Int) * 2 = ((m * 2 : Nat) : Int) := by push_cast; ring
    rw [e1, e2]
    cases crossCorrelation tr1.data tr2.data ((a - m : Nat) : Int) (tr1.data.length + ((m * 2 : Nat) : Int)) lagIn <;> rfl
  · intro hlt lagIn
    unfold xcorr
    simp only [gt_iff_lt, hlt, decide_true, if_true, ← h.same, toInt_ok hx h.fits, Outcome.bind_ok, hf, ha, hm]
    have e1 : (a : Int) - m = ((a - m : Nat) : Int) := by omega
    have e2 : (m : Int) * 2 = ((m * 2 : Nat) : Int) := by push_cast; ring
    rw [e1, e2]
    cases crossCorrelation tr1.data tr2.data ((a - m : Nat) : Int) (tr1.data.length + ((m * 2 : Nat) : Int)) lagIn <;> rfl

theorem window_all {l : List ℝ} {n : Nat} (h : n = l.length) : window l 0 n = l := by
  subst h; simp [window]

/-- **C36** For every pair of non-empty traces of the same frequency, and every maximum delay (that fits in
an `int` as a number of samples): exchanging the traces keeps the coefficient and negates the lag. -/
theorem crosscorr_antisymmetric (tr1 tr2 : Trace ℝ) (maxDelay : ℚ) (h : Comparable tr1 tr2 maxDelay) (lagIn : Int) :
    ∃ lag coeff, xcorr tr1 tr2 maxDelay lagIn = .ok (lag, coeff) ∧ xcorr tr2 tr1 maxDelay lagIn = .ok (-lag, coeff) := by
  have key : ∀ (tr1 tr2 : Trace ℝ), Comparable tr1 tr2 maxDelay → tr1.data.length < tr2.data.length →
      ∃ lag coeff, xcorr tr1 tr2 maxDelay lagIn = .ok (lag, coeff) ∧ xcorr tr2 tr1 maxDelay lagIn = .ok (-lag, coeff) := by
    intro tr1 tr2 h hlt
    obtain ⟨m, base, h1, h2, -, h3, h4⟩ := xcorr_unfold h hlt.le
    obtain ⟨d, c, hd, -⟩ := correlation_exact tr1.data tr2.data base (m * 2) h.data1 (by omega) lagIn
    refine ⟨((d : ℚ) - m) / tr1.freq, c, ?_, ?_⟩
    · rw [h3, hd]; simp [Outcome.map]
    · rw [h4 hlt, hd]; simp [Outcome.map]
  rcases lt_trichotomy tr1.data.length tr2.data.length with hlt | heq | hgt
  · exact key tr1 tr2 h hlt
  · obtain ⟨m, base, h1, h2, -, h3, -⟩ := xcorr_unfold h heq.le
    obtain ⟨m', base', h1', h2', -, h3', -⟩ := xcorr_unfold h.symm heq.ge
    obtain ⟨rfl, rfl⟩ : m = 0 ∧ base = 0 := by omega
    obtain ⟨rfl, rfl⟩ : m' = 0 ∧ base' = 0 := by omega
    obtain ⟨d, c, hd, hdm, hr⟩ := correlation_exact tr1.data tr2.data 0 (0 * 2) h.data1 (by omega) lagIn
    obtain ⟨d', c', hd', hdm', hr'⟩ := correlation_exact tr2.data tr1.data 0 (0 * 2) h.data2 (by omega) lagIn
    obtain rfl : d = 0 := by omega
    obtain rfl : d' = 0 := by omega
    simp only [Nat.add_zero, window_all heq, window_all heq.symm] at hr hr'
    have hcc : c = c' := by
      rcases hr with ⟨r1, -, r2⟩ | ⟨r1, -, r2, r3, -⟩ <;> rcases hr' with ⟨q1, -, q2⟩ | ⟨q1, -, q2, q3, -⟩
      · rw [r1, q1]
      · rcases r2 0 (by omega) with h | h
        · exact absurd h q3
        · simp only [Nat.add_zero, window_all heq, window_all heq.symm] at h; exact absurd h q2
      · rcases q2 0 (by omega) with h | h
        · exact absurd h r3
        · simp only [Nat.add_zero, window_all heq, window_all heq.symm] at h; exact absurd h r2
      · rw [r1, q1, (abs_pearson_le_one _ _ heq).2]
    refine ⟨0, c, ?_, ?_⟩
    · rw [h3, hd]; simp [Outcome.map]
    · rw [h3', hd', hcc]; simp [Outcome.map]
  · obtain ⟨lag, c, h1, h2⟩ := key tr2 tr1 h.symm hgt
    exact ⟨-lag, c, h2, by simpa using h1⟩

/-- **C36** The call is safe (no sample outside the arrays is read), the lag is a whole number of samples,
not larger than the maximum delay nor than half the difference of the lengths; when the coefficient is
defined it is Pearson's for the window of the long trace shifted by the lag from its middle. -/
theorem xcorr_bounded (tr1 tr2 : Trace ℝ) (maxDelay : ℚ) (h : Comparable tr1 tr2 maxDelay)
    (hle : tr1.data.length ≤ tr2.data.length) (lagIn : Int) :
    let middle := (tr2.data.length - tr1.data.length) / 2
    ∃ (k : Int) (coeff : Fl ℝ), xcorr tr1 tr2 maxDelay lagIn = .ok ((k : ℚ) / tr1.freq, coeff) ∧
      |(k : ℚ) / tr1.freq| ≤ maxDelay ∧ |k| ≤ middle ∧
      (coeff = .nan ∨ coeff = .num (pearson tr1.data (window tr2.data (middle + k).toNat tr1.data.length))) ∧
      -- no other lag that is allowed has a larger coefficient, and no smaller one as large a coefficient
      ∀ k' : Int, |(k' : ℚ) / tr1.freq| ≤ maxDelay → |k'| ≤ middle →
        ¬ Constant tr1.data → ¬ Constant (window tr2.data (middle + k').toNat tr1.data.length) →
        ∃ v, coeff = .num v ∧ |pearson tr1.data (window tr2.data (middle + k').toNat tr1.data.length)| ≤ |v| ∧
          (k' < k → |pearson tr1.data (window tr2.data (middle + k').toNat tr1.data.length)| < |v|) := by
  intro middle
  obtain ⟨m, base, h1, h2, hm, h3, -⟩ := xcorr_unfold h hle
  obtain ⟨d, c, hd, hdm, hr⟩ := correlation_exact tr1.data tr2.data base (m * 2) h.data1 (by omega) lagIn
  have hk : |(d : Int) - m| ≤ m := by rw [abs_le]; omega
  have hmid : middle = base + m := h2.symm
  refine ⟨(d : Int) - m, c, ?_, ?_, ?_, ?_, ?_⟩
  · rw [h3, hd]; simp [Outcome.map]
  · rw [abs_div, abs_of_pos h.freq, div_le_iff₀ h.freq]
    have : ((|(d : Int) - m| : Int) : ℚ) ≤ m := by exact_mod_cast hk
    push_cast at this ⊢
    linarith
  · rw [hmid]; push_cast; omega
  · have e : ((middle : Int) + ((d : Int) - m)).toNat = base + d := by rw [hmid]; push_cast; omega
    rw [e]
    rcases hr with ⟨r1, -⟩ | ⟨r1, -⟩
    · exact .inl r1
    · exact .inr r1
  · intro k' hk1 hk2 hc1 hc2
    have hk'm : |k'| ≤ m := by
      rcases hm with hm | hm
      · rw [abs_div, abs_of_pos h.freq, div_le_iff₀ h.freq] at hk1
        have : ((|k'| : Int) : ℚ) < (m : ℚ) + 1 := by push_cast; linarith
        have : |k'| < (m : Int) + 1 := by exact_mod_cast this
        omega
      · omega
    rw [abs_le] at hk'm
    have e : ((middle : Int) + k').toNat = base + (k' + m).toNat := by rw [hmid]; push_cast; omega
    rw [e] at hc2 ⊢
    rcases hr with ⟨-, -, r2⟩ | ⟨r1, -, -, -, r3⟩
    · rcases r2 (k' + m).toNat (by omega) with h | h
      · exact absurd h hc1
      · exact absurd h hc2
    · have hb := r3 (k' + m).toNat (by omega) hc2
      exact ⟨_, r1, hb.1, fun hlt => hb.2 (by omega)⟩

/-- (negation) A negative maximum delay makes the call read outside the arrays. -/
theorem negative_delay_ub :
    xcorr ⟨0, 1, [1, 2, 3]⟩ ⟨0, 1, [1, 2, 3]⟩ (-2) 0 = .ub := by
  have h : toInt (-2 : ℚ) = .ok (-2) := by decide +kernel
  have h0 : toInt (-2 * 1 : ℚ) = .ok (-2) := by decide +kernel
  unfold xcorr
  simp only [h, h0, List.length_cons, List.length_nil, Outcome.bind_ok]
  simp [crossCorrelation, prepLoop, read]

/-- (negation) A maximum delay whose number of samples does not fit in an `int`, in either direction, makes
the call undefined, whatever the traces are. -/
theorem huge_delay_ub (tr1 tr2 : Trace ℝ) (maxDelay : ℚ)
    (h : maxDelay * tr1.freq ≤ -2147483649 ∨ 2147483648 ≤ maxDelay * tr1.freq) (lagIn : Int) :
    xcorr tr1 tr2 maxDelay lagIn = .ub := by
  have hu : toInt (maxDelay * tr1.freq) = .ub := by
    unfold toInt
    rcases h with h | h
    · have h0 : ¬ (0 : ℚ) ≤ maxDelay * tr1.freq := by linarith
      have h1 : ⌈maxDelay * tr1.freq⌉ ≤ -2147483649 := Int.ceil_le.2 (by push_cast; exact h)
      simp only [if_neg h0]
      rw [if_neg (by omega)]
    · have h0 : (0 : ℚ) ≤ maxDelay * tr1.freq := by linarith
      have h1 : 2147483648 ≤ ⌊maxDelay * tr1.freq⌋ := Int.le_floor.2 (by push_cast; exact h)
      simp only [if_pos h0]
      rw [if_neg (by omega)]
  unfold xcorr
  simp only [hu]
  rfl

example : xcorr ⟨0, 100, [1, 2, 3]⟩ ⟨0, 100, [1, 2, 3]⟩ 30000000 0 = .ub :=
  huge_delay_ub _ _ _ (.inr (by norm_num)) 0

/-- (negation) An empty trace makes the call read before the array. -/
theorem empty_trace_ub : xcorr ⟨0, 1, []⟩ ⟨0, 1, [1, 2]⟩ 1 0 = .ub := by
  have h0 : toInt (1 * 1 : ℚ) = .ok 1 := by decide +kernel
  unfold xcorr
  simp only [h0, List.length_cons, List.length_nil, Outcome.bind_ok]
  simp [crossCorrelation, prepLoop, corrLoop, read]

/-! ## the windows around the picks -/

theorem truncate_nonneg {x : ℚ} (h : 0 ≤ x) : 0 ≤ truncate x ∧ (truncate x : ℚ) ≤ x ∧ x < truncate x + 1 := by
  unfold truncate
  rw [if_pos h]
  exact ⟨Int.floor_nonneg.2 h, Int.floor_le _, Int.lt_floor_add_one _⟩

theorem truncate_nonpos {x : ℚ} (h : x ≤ 0) : truncate x ≤ 0 ∧ x ≤ truncate x := by
  unfold truncate
  by_cases h0 : 0 ≤ x
  · have : x = 0 := le_antisymm h h0
    subst this
    simp
  · rw [if_neg h0]
    exact ⟨Int.ceil_le.2 (by exact_mod_cast h), Int.le_ceil _⟩

/-- **C65** The window that is correlated has the configured length plus the travel time times the scaling
factor, contains the pick, and the window that is downloaded extends it by the maximum delay on both sides.
(To the microsecond; the configured window has a positive length, starts before the pick and ends after it,
and the pick is not before the origin.) -/
theorem correlation_windows (c : Config) (eventTime phaseTime : Int)
    (hlen : 0 < Trace.secToDur (c.endOffset - c.startOffset)) (hstart : Trace.secToDur c.startOffset ≤ 0)
    (hend : 0 ≤ Trace.secToDur c.startOffset + Trace.secToDur (c.endOffset - c.startOffset))
    (htt : eventTime ≤ phaseTime) (hscale : 0 ≤ c.winScaling) (hdelay : 0 ≤ Trace.secToDur c.maxDelay) :
    ∃ short long, windowShort c eventTime phaseTime = some short ∧ windowLong c eventTime phaseTime = some long ∧
      short.containsTime phaseTime = true ∧
      (short.length : ℚ) ≤ Trace.secToDur (c.endOffset - c.startOffset) + (phaseTime - eventTime) * c.winScaling ∧
      (Trace.secToDur (c.endOffset - c.startOffset) + (phaseTime - eventTime) * c.winScaling : ℚ) < short.length + 1 ∧
      long.startTime = short.startTime - Trace.secToDur c.maxDelay ∧
      long.endTime = short.endTime + Trace.secToDur c.maxDelay ∧ long.contains short = true := by
  unfold windowLong windowShort
  generalize Trace.secToDur (c.endOffset - c.startOffset) = len at *
  generalize Trace.secToDur c.startOffset = st at *
  generalize Trace.secToDur c.maxDelay = dl at *
  simp only [hlen.ne', if_false, Option.map_some]
  have hext : (0 : ℚ) ≤ ((phaseTime - eventTime : Int) : ℚ) * c.winScaling :=
    mul_nonneg (by exact_mod_cast (by omega : 0 ≤ phaseTime - eventTime)) hscale
  generalize hx : ((phaseTime - eventTime : Int) : ℚ) * c.winScaling = ext at *
  have hx' : ((phaseTime : ℚ) - eventTime) * c.winScaling = ext := by rw [← hx]; push_cast; ring
  have hlen' : (0 : ℚ) < len := by exact_mod_cast hlen
  have hsc : (0 : ℚ) ≤ (len + ext) / len := by positivity
  have hsc1 : (1 : ℚ) ≤ (len + ext) / len := by rw [le_div_iff₀ hlen']; linarith
  have hst : (st : ℚ) ≤ 0 := by exact_mod_cast hstart
  have hend' : (0 : ℚ) ≤ st + len := by exact_mod_cast hend
  obtain ⟨t1, t2⟩ := truncate_nonpos (mul_nonpos_of_nonpos_of_nonneg hst hsc)
  obtain ⟨l1, l2, l3⟩ := truncate_nonneg (show (0 : ℚ) ≤ len + ext by linarith)
  have hsum : (0 : ℚ) ≤ st * ((len + ext) / len) + (len + ext) := by
    have : st * ((len + ext) / len) + (len + ext) = (st + len) * ((len + ext) / len) := by
      field_simp
    rw [this]
    exact mul_nonneg hend' hsc
  have hcont : 0 ≤ truncate (st * ((len + ext) / len)) + truncate (len + ext) := by
    have : (-1 : ℚ) < truncate (st * ((len + ext) / len)) + truncate (len + ext) := by linarith
    have : (-1 : Int) < truncate (st * ((len + ext) / len)) + truncate (len + ext) := by exact_mod_cast this
    omega
  generalize truncate (st * ((len + ext) / len)) = A at *
  generalize truncate (len + ext) = B at *
  have e1 : TimeWindow.ofLength (phaseTime + A) B = ⟨phaseTime + A, phaseTime + A + B⟩ := by
    unfold TimeWindow.ofLength TimeWindow.mk' TimeWindow.setEndTime
    rw [if_neg (by simp only; omega)]
  have e2 : (TimeWindow.setStartTime ⟨phaseTime + A, phaseTime + A + B⟩ (phaseTime + A - dl)).setEndTime
      ((TimeWindow.setStartTime ⟨phaseTime + A, phaseTime + A + B⟩ (phaseTime + A - dl)).endTime + dl) =
      ⟨phaseTime + A - dl, phaseTime + A + B + dl⟩ := by
    have h1 : TimeWindow.setStartTime ⟨phaseTime + A, phaseTime + A + B⟩ (phaseTime + A - dl) =
        ⟨phaseTime + A - dl, phaseTime + A + B⟩ := by
      unfold TimeWindow.setStartTime
      rw [if_neg (by simp only; omega)]
    rw [h1]
    unfold TimeWindow.setEndTime
    rw [if_neg (by simp only; omega)]
  rw [e1]
  refine ⟨_, _, rfl, rfl, ?_, ?_, ?_, ?_, ?_, ?_⟩
  · simp only [TimeWindow.containsTime]
    exact decide_eq_true ⟨by omega, by omega⟩
  · simp only [TimeWindow.length, hx']
    have : ((phaseTime + A + B - (phaseTime + A) : Int) : ℚ) = B := by push_cast; ring
    rw [this]; exact l2
  · simp only [TimeWindow.length, hx']
    have : ((phaseTime + A + B - (phaseTime + A) : Int) : ℚ) = B := by push_cast; ring
    rw [this]; exact l3
  · rw [e2]
  · rw [e2]
  · rw [e2]
    simp only [TimeWindow.contains]
    exact decide_eq_true ⟨by omega, by omega⟩

/-- (negation) A window of length zero: undefined behaviour. -/
theorem empty_window_ub (c : Config) (h : c.endOffset = c.startOffset) (e p : Int) : windowShort c e p = none := by
  unfold windowShort
  have : Trace.secToDur (c.endOffset - c.startOffset) = 0 := by
    rw [h, sub_self]
    decide +kernel
  simp [this]

/-! ## the two directions of a pair -/

/-- a side that can be correlated -/
structure Side.Usable (c : Config) (s : Side) : Prop where
  data : ∀ tr, s.trace = some tr → tr.data ≠ [] ∧ 0 < tr.freq ∧ c.maxDelay * tr.freq < 2147483648

theorem windowShort_built (c : Config) (e p : Int) (w : TimeWindow) (h : windowShort c e p = some w) :
    w.startTime ≤ w.endTime := by
  unfold windowShort at h
  simp only at h
  split at h
  · cases h
  · injection h with h
    rw [← h]
    unfold TimeWindow.ofLength TimeWindow.mk' TimeWindow.setEndTime
    split
    · exact le_refl _
    · rename_i hh; exact not_lt.1 hh

theorem trim_spec (c : Config) (hlen : Trace.secToDur (c.endOffset - c.startOffset) ≠ 0) (s : Side) (tr : Trace ℝ)
    (hd : tr.data ≠ []) (hf : 0 < tr.freq) :
    trim c s tr = .ok none ∨ ∃ t, trim c s tr = .ok (some t) ∧ t.data ≠ [] ∧ t.freq = tr.freq := by
  unfold trim
  cases hw : windowShort c s.eventTime s.phaseTime with
  | none =>
    unfold windowShort at hw
    simp [hlen] at hw
  | some tw =>
    simp only
    have htw := windowShort_built c _ _ _ hw
    rcases Trace.slice_cases tr tw htw hf with ⟨-, h⟩ | ⟨-, -, h⟩ | ⟨-, -, h0, h1, ⟨-, h⟩ | ⟨h2, h⟩⟩
    · rw [h]; exact .inr ⟨tr, rfl, hd, rfl⟩
    · rw [h]; exact .inl rfl
    · rw [h]; exact .inl rfl
    · rw [h]
      refine .inr ⟨_, rfl, ?_, rfl⟩
      intro he
      have := congrArg List.length he
      simp only [List.length_take, List.length_drop, List.length_nil] at this
      omega

/-- `|a| = |b|` for finite values -/
def SameSize : Fl ℝ → Fl ℝ → Prop
  | .num x, .num y => |x| = |y|
  | _, _ => False

theorem absGt_asymm {a b : Fl ℝ} (ha : a.isFinite = true) (hb : b.isFinite = true) :
    (absGt a b = true ∧ absGt b a = false) ∨ (absGt a b = false ∧ absGt b a = true) ∨
    (absGt a b = false ∧ absGt b a = false ∧ SameSize a b) := by
  cases a <;> cases b <;> simp [Fl.isFinite] at ha hb
  rename_i x y
  simp only [absGt, SameSize]
  rcases lt_trichotomy |x| |y| with h | h | h
  · right; left; simp [h, h.le]
  · right; right; simp [h]
  · left; simp [h, h.le]

theorem first_second (c : Config) (hlen : Trace.secToDur (c.endOffset - c.startOffset) ≠ 0) (hdel : 0 ≤ c.maxDelay)
    (s : Side) (tr1 tr2 : Trace ℝ) (h1 : tr1.data ≠ []) (h2 : tr2.data ≠ []) (hf : 0 < tr1.freq)
    (hff : tr1.freq = tr2.freq) (hfit : c.maxDelay * tr1.freq < 2147483648) (want : Bool) :
    ((first c c s tr1 tr2 want = .ok none ∧ second c s tr2 tr1 want = .ok none) ∨
    ∃ lag coeff, first c c s tr1 tr2 want = .ok (some (lag, coeff)) ∧
      second c s tr2 tr1 want = .ok (some (-lag, coeff))) := by
  unfold first second
  cases want
  · exact .inr ⟨0, .nan, by simp⟩
  · simp only [if_true]
    rcases trim_spec c hlen s tr2 h2 (by rw [← hff]; exact hf) with h | ⟨t, h, ht1, ht2⟩
    · rw [h]; exact .inl ⟨rfl, rfl⟩
    · rw [h]
      obtain ⟨lag, coeff, e1, e2⟩ := crosscorr_antisymmetric tr1 t c.maxDelay
        ⟨h1, ht1, by rw [ht2, hff], hf, hdel, hfit⟩ 0
      right
      refine ⟨lag, coeff, ?_, ?_⟩
      · simp only [Outcome.bind_ok, e1]
      · simp only [Outcome.bind_ok, e2]

/-- **C65** Correlating two picks of the same type in the opposite order succeeds in the same cases, and gives the same
coefficient and the opposite lag, unless both directions are tried (equally trusted picks) and their best
coefficients have the same size; even then the size is the same.  The call never has undefined behaviour. -/
theorem pair_antisymmetric_partial (c : Config) (hlen : Trace.secToDur (c.endOffset - c.startOffset) ≠ 0)
    (hdel : 0 ≤ c.maxDelay) (s1 s2 : Side) (h1 : s1.Usable c) (h2 : s2.Usable c) :
    (onePhase c c s1 s2 = .ok none ∧ onePhase c c s2 s1 = .ok none) ∨
    ∃ lag lag' coeff coeff', onePhase c c s1 s2 = .ok (some (lag, coeff)) ∧ onePhase c c s2 s1 = .ok (some (lag', coeff')) ∧
      coeff.isFinite = true ∧ coeff'.isFinite = true ∧
      (lag' = -lag ∧ coeff' = coeff ∨ s1.trusted = s2.trusted ∧ SameSize coeff coeff') := by
  cases ht1 : s1.trace with
  | none => left; unfold onePhase; simp [ht1]
  | some tr1 =>
    cases ht2 : s2.trace with
    | none => left; unfold onePhase; simp [ht1, ht2]
    | some tr2 =>
      obtain ⟨a1, a2, a3⟩ := h1.data tr1 ht1
      obtain ⟨b1, b2, b3⟩ := h2.data tr2 ht2
      by_cases hff : tr1.freq = tr2.freq
      · unfold onePhase
        simp only [ht1, ht2, hff, ne_eq, not_true_eq_false, if_false]
        have esame : (s2.trusted == s1.trusted) = (s1.trusted == s2.trusted) := by
          cases s1.trusted <;> cases s2.trusted <;> rfl
        rw [esame]
        have hA := first_second c hlen hdel s2 tr1 tr2 a1 b1 a2 hff a3 ((!s1.trusted && s2.trusted) || (s1.trusted == s2.trusted))
        have hB := first_second c hlen hdel s1 tr2 tr1 b1 a1 b2 hff.symm b3 ((s1.trusted && !s2.trusted) || (s1.trusted == s2.trusted))
        have ew1 : ((s2.trusted && !s1.trusted) || (s1.trusted == s2.trusted)) = ((!s1.trusted && s2.trusted) || (s1.trusted == s2.trusted)) := by
          cases s1.trusted <;> cases s2.trusted <;> rfl
        have ew2 : ((!s2.trusted && s1.trusted) || (s1.trusted == s2.trusted)) = ((s1.trusted && !s2.trusted) || (s1.trusted == s2.trusted)) := by
          cases s1.trusted <;> cases s2.trusted <;> rfl
        rw [ew1, ew2]
        -- when only one direction is tried the other result is NaN
        have hA0 : ((!s1.trusted && s2.trusted) || (s1.trusted == s2.trusted)) = false →
            first c c s2 tr1 tr2 ((!s1.trusted && s2.trusted) || (s1.trusted == s2.trusted)) = .ok (some (0, .nan)) := by
          intro h; rw [h]; rfl
        have hB0 : ((s1.trusted && !s2.trusted) || (s1.trusted == s2.trusted)) = false →
            first c c s1 tr2 tr1 ((s1.trusted && !s2.trusted) || (s1.trusted == s2.trusted)) = .ok (some (0, .nan)) := by
          intro h; rw [h]; rfl
        have hboth : s1.trusted = s2.trusted ∨ ((!s1.trusted && s2.trusted) || (s1.trusted == s2.trusted)) = false ∨
            ((s1.trusted && !s2.trusted) || (s1.trusted == s2.trusted)) = false := by
          cases s1.trusted <;> cases s2.trusted <;> simp
        generalize hw1 : ((!s1.trusted && s2.trusted) || (s1.trusted == s2.trusted)) = w1 at *
        generalize hw2 : ((s1.trusted && !s2.trusted) || (s1.trusted == s2.trusted)) = w2 at *
        rcases hA with ⟨f1, g1⟩ | ⟨l1, c1, f1, g1⟩
        · rw [f1]
          left
          refine ⟨rfl, ?_⟩
          rcases hB with ⟨f2, g2⟩ | ⟨l2, c2, f2, g2⟩
          · rw [f2]; rfl
          · rw [f2, Outcome.bind_ok]
            simp only [g1, Outcome.bind_ok]
        · rw [f1]
          rcases hB with ⟨f2, g2⟩ | ⟨l2, c2, f2, g2⟩
          · rw [f2, g2]
            exact .inl ⟨rfl, rfl⟩
          · rw [f2, g2, g1]
            simp only [Outcome.bind_ok]
            cases hc1 : c1.isFinite <;> cases hc2 : c2.isFinite
            · left; simp [hc1, hc2]
            · right
              simp only [hc1, hc2, Bool.not_false, Bool.not_true, Bool.and_false, Bool.and_self, Bool.false_and,
                Bool.true_or, Bool.false_eq_true, if_false, if_true, Bool.true_and]
              exact ⟨_, _, _, _, rfl, rfl, hc2, hc2, .inl ⟨by ring, rfl⟩⟩
            · right
              simp only [hc1, hc2, Bool.not_false, Bool.not_true, Bool.and_false, Bool.and_self, Bool.false_and,
                Bool.true_or, Bool.false_eq_true, if_false, if_true, Bool.true_and]
              exact ⟨_, _, _, _, rfl, rfl, hc1, hc1, .inl ⟨by ring, rfl⟩⟩
            · right
              have htr : s1.trusted = s2.trusted := by
                rcases hboth with h | h | h
                · exact h
                · have := hA0 h
                  rw [f1] at this
                  injection this with this
                  injection this with this
                  have : c1 = .nan := congrArg Prod.snd this
                  rw [this] at hc1; cases hc1
                · have := hB0 h
                  rw [f2] at this
                  injection this with this
                  injection this with this
                  have : c2 = .nan := congrArg Prod.snd this
                  rw [this] at hc2; cases hc2
              simp only [Bool.not_true, Bool.and_self, Bool.false_eq_true, if_false, if_true, Bool.false_or]
              rcases absGt_asymm hc1 hc2 with ⟨g1, g2⟩ | ⟨g1, g2⟩ | ⟨g1, g2, g3⟩
              · simp only [hc1, hc2, g1, g2, Bool.not_true, Bool.and_self, Bool.false_eq_true, if_false, if_true, Bool.or_true, Bool.or_false]
                exact ⟨_, _, _, _, rfl, rfl, hc1, hc1, .inl ⟨by ring, rfl⟩⟩
              · simp only [hc1, hc2, g1, g2, Bool.not_true, Bool.and_self, Bool.false_eq_true, if_false, if_true, Bool.or_true, Bool.or_false]
                exact ⟨_, _, _, _, rfl, rfl, hc2, hc2, .inl ⟨by ring, rfl⟩⟩
              · simp only [hc1, hc2, g1, g2, Bool.not_true, Bool.and_self, Bool.false_eq_true, if_false, if_true, Bool.or_true, Bool.or_false]
                exact ⟨_, _, _, _, rfl, rfl, hc1, hc2, .inr ⟨htr, g3⟩⟩
      · left
        have hff' : ¬ tr2.freq = tr1.freq := fun h => hff h.symm
        unfold onePhase
        simp [ht1, ht2, hff, hff']

namespace Example

/-- two samples that differ are fully correlated with any two others that differ -/
theorem pearson_two : pearson [1, 0] [0, 1] = -1 := by
  have h : Real.sqrt (1 / 2) * Real.sqrt (1 / 2) = 1 / 2 := Real.mul_self_sqrt (by norm_num)
  have e1 : cov [1, 0] [0, 1] = -1 / 2 := by norm_num [cov, mean]
  have e2 : cov [1, 0] [1, 0] = 1 / 2 := by norm_num [cov, mean]
  have e3 : cov [0, 1] [0, 1] = 1 / 2 := by norm_num [cov, mean]
  unfold pearson
  rw [e1, e2, e3, h]
  norm_num

example : ¬ Constant ([1, 0] : List ℝ) := by
  intro h
  have := h 1 (by simp) 0 (by simp)
  norm_num at this

/-- one sample per second, one second of delay allowed; the short window is samples 1 and 2 -/
def config : Config := ⟨0, 1, 0, 1⟩

noncomputable def trace : Trace ℝ := ⟨0, 1, [0, 1, 0, 1]⟩
noncomputable def short : Trace ℝ := ⟨1000000, 1, [1, 0]⟩

noncomputable def side : Side := ⟨some trace, 0, 1000000, true⟩

theorem usable : side.Usable config := by
  refine ⟨?_⟩
  intro tr h
  injection h with h
  rw [← h]
  refine ⟨by simp [trace], ?_⟩
  simp only [trace, config]
  norm_num

theorem len_ne : Trace.secToDur (config.endOffset - config.startOffset) ≠ 0 := by decide +kernel

example := pair_antisymmetric_partial config len_ne (by norm_num [config]) side side usable usable

theorem window_eq : windowShort config 0 1000000 = some ⟨1000000, 2000000⟩ := by decide +kernel

theorem slice_eq : trace.slice ⟨1000000, 2000000⟩ = some (true, short) := by
  unfold Trace.slice trace short
  have e1 : (Trace.timeWindow (⟨0, 1, [0, 1, 0, 1]⟩ : Trace ℝ)) = ⟨0, 3000000⟩ := by
    have : Trace.endTime (⟨0, 1, [0, 1, 0, 1]⟩ : Trace ℝ) = 3000000 := by
      unfold Trace.endTime
      simp only [List.length_cons, List.length_nil]
      decide +kernel
    unfold Trace.timeWindow
    rw [this]
    rfl
  have e2 : Trace.index (⟨0, 1, [0, 1, 0, 1]⟩ : Trace ℝ) 1000000 = ((1 : Int) : ℚ) := by
    unfold Trace.index Trace.durToSec; norm_num
  have e3 : Trace.index (⟨0, 1, [0, 1, 0, 1]⟩ : Trace ℝ) 2000000 = ((2 : Int) : ℚ) := by
    unfold Trace.index Trace.durToSec; norm_num
  have e4 : Trace.secToDur (((1 : Int) : ℚ) / 1) = 1000000 := by decide +kernel
  rw [e1, if_neg (by decide), if_neg (by decide)]
  simp only [e2, e3, Int.floor_intCast, Int.ceil_intCast, e4]
  norm_num
  rfl

theorem comparable : Comparable short trace 1 :=
  ⟨by simp [short], by simp [trace], rfl, by norm_num [short], by norm_num, by norm_num [short]⟩

/-- the first of the three windows of the long trace already has the largest coefficient -/
theorem correlated : xcorr short trace 1 0 = .ok (-1, .num (-1)) := by
  have hc : ¬ Constant ([0, 1] : List ℝ) := by
    intro h; have := h 1 (by simp) 0 (by simp); norm_num at this
  have hc' : ¬ Constant ([1, 0] : List ℝ) := by
    intro h; have := h 1 (by simp) 0 (by simp); norm_num at this
  obtain ⟨d, c, h2, h3, h4⟩ := correlation_exact [1, 0] [0, 1, 0, 1] 0 2 (by simp) (by simp) 0
  have hw : window [0, 1, 0, 1] (0 + 0) (List.length [(1 : ℝ), 0]) = ([0, 1] : List ℝ) := rfl
  have hd : d = 0 ∧ c = .num (-1) := by
    rcases h4 with ⟨-, -, h⟩ | ⟨e1, e2, -, -, e3⟩
    · rcases h 0 (by omega) with h | h
      · exact absurd h hc'
      · exact absurd h hc
    · have hd : d = 0 := by
        by_contra hne
        have := (e3 0 (by omega) (hc)).2 (by omega)
        have this := this.trans_le e2
        simp only [hw, pearson_two] at this
        norm_num at this
      subst hd
      simp only [hw, pearson_two] at e1
      exact ⟨rfl, e1⟩
  obtain ⟨rfl, rfl⟩ := hd
  obtain ⟨m, base, g1, g2, g3, g4, -⟩ := xcorr_unfold comparable (by simp [short, trace])
  have hm : m = 1 ∧ base = 0 := by
    simp only [short, trace, List.length_cons, List.length_nil] at g1 g2 g3
    norm_num at g1 g2 g3
    omega
  obtain ⟨rfl, rfl⟩ := hm
  rw [g4]
  have e : crossCorrelation short.data trace.data ((0 : Nat) : Int) (short.data.length + ((1 * 2 : Nat) : Int)) 0 =
      .ok ((0 : Nat), .num (-1)) := h2
  rw [e]
  simp [Outcome.map, short]

/-- (negation) The lag of a trace with itself is one sample, whatever the order of the two sides: it is not
antisymmetric when the two directions have the same coefficient. -/
theorem tie_not_antisymmetric : onePhase config config side side = .ok (some (1, .num (-1))) := by
  have ht : trim config side trace = .ok (some short) := by
    unfold trim
    simp only [side, window_eq, slice_eq]
  have hc : config.maxDelay = 1 := rfl
  obtain ⟨lag, coeff, e1, e2⟩ := crosscorr_antisymmetric short trace 1 comparable 0
  rw [correlated] at e1
  injection e1 with e1
  injection e1 with e1 e1'
  subst e1 e1'
  have h1 : first config config side trace trace true = .ok (some (1, .num (-1))) := by
    unfold first
    simp only [if_true, ht, Outcome.bind_ok, hc, e2, neg_neg]
  have h2 : second config side trace trace true = .ok (some (-1, .num (-1))) := by
    unfold second
    simp only [if_true, ht, Outcome.bind_ok, hc, correlated]
  unfold onePhase
  simp only [show side.trace = some trace from rfl, show side.trusted = true from rfl]
  simp only [ne_eq, not_true_eq_false, if_false, beq_self_eq_true, Bool.or_true, h1, h2, Outcome.bind_ok, Fl.isFinite,
    Bool.not_true, Bool.and_self, Bool.false_eq_true, if_true, Bool.false_or, absGt]
  simp

example := correlation_exact [1, 0] [0, 1, 0, 1] 0 2 (by simp) (by simp) 7
example := xcorr_bounded short trace 1 comparable (by simp [short, trace]) 0
example := correlation_windows ⟨-1 / 2, 3 / 4, 1 / 50, 1 / 2⟩ 1000 5001000 (by decide +kernel) (by decide +kernel)
  (by decide +kernel) (by decide) (by norm_num) (by decide +kernel)

end Example
end Verif.XCorr
