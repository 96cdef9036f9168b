import Verif.Proofs.Repeaters
import Verif.Props.LagShift
import Mathlib.Tactic.IntervalCases

/-!
# C125: the gain and the offset of the instruments do not matter, and repeating earthquakes are recognised

Instrument responses are not removed before waveforms are correlated.  What the user relies on is that this does not matter: the
result depends on the shape of the signals only, it is perfect exactly for the same signal, and then the lag is where this signal is.
-/

set_option linter.unusedSimpArgs false

namespace Verif.RepeaterSpec
open Verif Verif.XCorr Verif.XCorr.Spec Verif.LagSpec Verif.Catalog Verif.CorrelationSpec

/-- The coefficient does not depend on the gain and the offset of one of the series, apart from the sign of the gain. -/
theorem pearson_amplify (X Y : List ℝ) (h : X.length = Y.length) (a b : ℝ) :
    pearson (amplify a b X) Y = Real.sign a * pearson X Y ∧ pearson Y (amplify a b X) = Real.sign a * pearson Y X := by
  rw [self_eq X, self_eq Y, ← h, amplify_range]
  simp only [pearson_eq]
  exact ⟨rho_affine _ _ _ _, by rw [rho_symm, rho_affine, rho_symm]⟩

/-- **C125a.** The coefficient of two series that are not constant is 1 or -1 exactly if they are the same signal, and 1 exactly if they
also have the same polarity. -/
theorem perfect_iff_same_signal (X Y : List ℝ) (h : X.length = Y.length) (hX : ¬Constant X) :
    (|pearson X Y| = 1 ↔ SameSignal X Y) ∧ (pearson X Y = 1 ↔ SamePolarity X Y) := by
  have hself : pearson X X = 1 := by
    rw [self_eq X, pearson_eq]
    apply rho_self
    intro h0
    apply hX
    rw [self_eq X, constant_iff]; exact h0
  have himage : ∀ a b, a ≠ 0 → Y = amplify a b X → pearson X Y = Real.sign a := by
    rintro a b ha rfl
    rw [(pearson_amplify X X rfl a b).2, hself, mul_one]
  have hpre : |pearson X Y| = 1 → SameSignal X Y := by
    intro hp
    have e : pearson X Y = rho X.length (fun j => X.getD j 0) (fun j => Y.getD j 0) := by
      conv_lhs => rw [self_eq X, self_eq Y, ← h]
      rw [pearson_eq]
    rw [e] at hp
    obtain ⟨a, b, ha, hab⟩ := rho_one _ _ _ hp
    refine ⟨a, b, ha, ?_⟩
    rw [self_eq Y, ← h]
    conv_rhs => rw [self_eq X]
    rw [amplify_range]
    apply List.map_congr_left
    intro i hi
    exact hab i (List.mem_range.1 hi)
  refine ⟨⟨hpre, ?_⟩, ?_, ?_⟩
  · rintro ⟨a, b, ha, he⟩
    rw [himage a b ha he]
    rcases lt_or_gt_of_ne ha with h | h
    · rw [Real.sign_of_neg h]; norm_num
    · rw [Real.sign_of_pos h]; norm_num
  · intro hp
    obtain ⟨a, b, ha, he⟩ := hpre (by rw [hp]; norm_num)
    refine ⟨a, b, ?_, he⟩
    rw [himage a b ha he] at hp
    rcases lt_or_gt_of_ne ha with h | h
    · rw [Real.sign_of_neg h] at hp; norm_num at hp
    · exact h
  · rintro ⟨a, b, ha, he⟩
    rw [himage a b ha.ne' he, Real.sign_of_pos ha]

example : pearson [0, 1, 0, 2] [5, 3, 5, 1] = -1 := by
  have hc : ¬Constant ([0, 1, 0, 2] : List ℝ) := by
    intro h; have := h 0 (by simp) 1 (by simp); norm_num at this
  have h := (perfect_iff_same_signal [0, 1, 0, 2] [5, 3, 5, 1] rfl hc)
  have h1 := h.1.2 ⟨-2, 5, by norm_num, by simp [amplify]; norm_num⟩
  rcases (abs_eq (by norm_num : (0 : ℝ) ≤ 1)).1 h1 with h2 | h2
  · obtain ⟨a, b, ha, he⟩ := h.2.1 h2
    simp only [amplify, List.map_cons, List.map_nil, List.cons.injEq, and_true] at he
    linarith [he.1, he.2.1]
  · exact h2

/-- the coefficient after the polarity of one of the waveforms is changed -/
inductive Turned (sign : ℝ) : Fl ℝ → Fl ℝ → Prop
  | none : Turned sign .nan .nan
  | some (v : ℝ) : Turned sign (.num v) (.num (sign * v))

theorem crossCorrelation_amplify (S L : List ℝ) (base m : Nat) (hS : S ≠ []) (hfit : base + (S.length + m) ≤ L.length) (delayIn : Int)
    {a a' : ℝ} (ha : a ≠ 0) (ha' : a' ≠ 0) (b b' : ℝ) :
    ∃ d c c', crossCorrelation S L base (S.length + m) delayIn = .ok (d, c) ∧
      crossCorrelation (amplify a b S) (amplify a' b' L) base ((amplify a b S).length + m) delayIn = .ok (d, c') ∧
      Turned (Real.sign a * Real.sign a') c c' := by
  have hS' : amplify a b S ≠ [] := by
    rw [← List.length_pos_iff, length_amplify]; exact List.length_pos_iff.2 hS
  have hlen : ∀ e, e ≤ m → S.length = (window L (base + e) S.length).length := by
    intro e he
    simp only [window, List.length_take, List.length_drop]; omega
  have hsa : |Real.sign a * Real.sign a'| = 1 := by
    rw [abs_mul]
    have : ∀ x : ℝ, x ≠ 0 → |Real.sign x| = 1 := by
      intro x hx
      rcases lt_or_gt_of_ne hx with h | h
      · rw [Real.sign_of_neg h]; norm_num
      · rw [Real.sign_of_pos h]; norm_num
    rw [this a ha, this a' ha', mul_one]
  have hp : ∀ e, e ≤ m → pearson (amplify a b S) (amplify a' b' (window L (base + e) S.length)) =
      Real.sign a * Real.sign a' * pearson S (window L (base + e) S.length) := by
    intro e he
    rw [(pearson_amplify S _ (by rw [length_amplify]; exact hlen e he) a b).1, (pearson_amplify _ S (hlen e he).symm a' b').2]
    ring
  obtain ⟨d, c, h1, hd, hr⟩ := correlation_exact S L base m hS hfit delayIn
  obtain ⟨d', c', h1', hd', hr'⟩ := correlation_exact (amplify a b S) (amplify a' b' L) base m hS'
    (by rw [length_amplify, length_amplify]; exact hfit) delayIn
  simp only [length_amplify, window_amplify, constant_amplify ha, constant_amplify ha'] at hr hr'
  rcases hr with ⟨r1, r2, r3⟩ | ⟨r1, -, r2, r3, r4⟩ <;> rcases hr' with ⟨q1, q2, q3⟩ | ⟨q1, -, q2, q3, q4⟩
  · exact ⟨_, _, _, h1, by rw [h1', q2, r2], by rw [r1, q1]; exact .none⟩
  · rcases r3 d' hd' with h | h
    · exact absurd h q2
    · exact absurd h q3
  · rcases q3 d hd with h | h
    · exact absurd h r2
    · exact absurd h r3
  · have hdd : d' = d := by
      have x1 := r4 d' hd' q3
      have x2 := q4 d hd r3
      have habs : ∀ x, |Real.sign a * Real.sign a' * x| = |x| := by intro x; rw [abs_mul, hsa, one_mul]
      rw [hp d hd, hp d' hd', habs, habs] at x2
      by_contra hne
      rcases Nat.lt_or_gt_of_ne hne with h | h
      · exact absurd (x1.2 h) (not_lt.2 x2.1)
      · exact absurd (x2.2 h) (not_lt.2 x1.1)
    subst hdd
    refine ⟨_, _, _, h1, h1', ?_⟩
    rw [r1, q1, hp d' hd']
    exact .some _

/-- **C125b.** Correlating two waveforms gives the same lag whatever the gains and the offsets of the two instruments are, and the same
coefficient, apart from its sign if only one of the gains is negative.  If there is no coefficient for the ones there is none for the
others. -/
theorem gain_and_offset_irrelevant (tr1 tr2 : Trace ℝ) (maxDelay : ℚ) (h : Comparable tr1 tr2 maxDelay) (lagIn : Int)
    {a a' : ℝ} (ha : a ≠ 0) (ha' : a' ≠ 0) (b b' : ℝ) :
    ∃ lag c c', xcorr tr1 tr2 maxDelay lagIn = .ok (lag, c) ∧
      xcorr (amplified a b tr1) (amplified a' b' tr2) maxDelay lagIn = .ok (lag, c') ∧ Turned (Real.sign a * Real.sign a') c c' := by
  have hne : ∀ (l : List ℝ) (a b : ℝ), l ≠ [] → amplify a b l ≠ [] := by
    intro l a b hl
    rw [← List.length_pos_iff, length_amplify]; exact List.length_pos_iff.2 hl
  have key : ∀ (tr1 tr2 : Trace ℝ), Comparable tr1 tr2 maxDelay → tr1.data.length ≤ tr2.data.length → ∀ {a a' : ℝ}, a ≠ 0 → a' ≠ 0 →
      ∀ b b' : ℝ, ∃ lag c c', xcorr tr1 tr2 maxDelay lagIn = .ok (lag, c) ∧
        xcorr (amplified a b tr1) (amplified a' b' tr2) maxDelay lagIn = .ok (lag, c') ∧ Turned (Real.sign a * Real.sign a') c c' := by
    intro tr1 tr2 h hle a a' ha ha' b b'
    obtain ⟨m, base, h1, h2, h0, h3, -⟩ := xcorr_unfold h hle
    have hA : Comparable (amplified a b tr1) (amplified a' b' tr2) maxDelay :=
      ⟨hne _ _ _ h.data1, hne _ _ _ h.data2, h.same, h.freq, h.delay, h.fits⟩
    obtain ⟨m', base', h1', h2', h0', h3', -⟩ := xcorr_unfold hA (by simp only [amplified, length_amplify]; exact hle)
    simp only [amplified, length_amplify] at h1' h2' h0' h3'
    have hmm : m = m' := by
      have q1 : (m : ℚ) < m' + 1 ∨ m ≤ m' := by
        rcases h0' with h | h
        · exact .inl (by linarith)
        · exact .inr (by omega)
      have q2 : (m' : ℚ) < m + 1 ∨ m' ≤ m := by
        rcases h0 with h | h
        · exact .inl (by linarith)
        · exact .inr (by omega)
      have q1 : m ≤ m' := by
        rcases q1 with h | h
        · have : m < m' + 1 := by exact_mod_cast h
          omega
        · exact h
      have q2 : m' ≤ m := by
        rcases q2 with h | h
        · have : m' < m + 1 := by exact_mod_cast h
          omega
        · exact h
      omega
    subst hmm
    obtain rfl : base = base' := by omega
    obtain ⟨d, c, c', e1, e2, e3⟩ := crossCorrelation_amplify tr1.data tr2.data base (m * 2) h.data1 (by omega) lagIn ha ha' b b'
    rw [length_amplify] at e2
    refine ⟨((d : ℚ) - m) / tr1.freq, c, c', ?_, ?_, e3⟩
    · rw [h3, e1]; rfl
    · unfold amplified
      rw [h3', e2]; rfl
  rcases Nat.le_total tr1.data.length tr2.data.length with hle | hle
  · exact key tr1 tr2 h hle ha ha' b b'
  · obtain ⟨lag, c, c', e1, e2, e3⟩ := key tr2 tr1 h.symm hle ha' ha b' b
    obtain ⟨l1, d1, f1, f2⟩ := crosscorr_antisymmetric tr2 tr1 maxDelay h.symm lagIn
    have hA : Comparable (amplified a' b' tr2) (amplified a b tr1) maxDelay :=
      ⟨hne _ _ _ h.data2, hne _ _ _ h.data1, h.symm.same, h.symm.freq, h.delay, h.symm.fits⟩
    obtain ⟨l2, d2, g1, g2⟩ := crosscorr_antisymmetric _ _ maxDelay hA lagIn
    rw [e1] at f1
    rw [e2] at g1
    injection f1 with f1
    injection g1 with g1
    simp only [Prod.mk.injEq] at f1 g1
    obtain ⟨rfl, rfl⟩ := f1
    obtain ⟨rfl, rfl⟩ := g1
    exact ⟨_, _, _, f2, g2, by rw [mul_comm]; exact e3⟩

/-- **C125c.** If, at a lag that is allowed, the longer waveform is the signal of the shorter one with some gain and some offset, the
coefficient is 1 or -1, and the lag that is reported is the first at which it is this signal.  If it is this signal at no other lag that
is allowed, the lag reported is exactly that lag, and the sign of the coefficient is that of the gain. -/
theorem repeater_recognised (tr1 tr2 : Trace ℝ) (maxDelay : ℚ) (h : Comparable tr1 tr2 maxDelay)
    (hle : tr1.data.length ≤ tr2.data.length) (hc : ¬Constant tr1.data) (lagIn : Int) :
    let part := fun k : Int => window tr2.data (((tr2.data.length - tr1.data.length) / 2 : ℕ) + k).toNat tr1.data.length
    let allowed := fun k : Int => |(k : ℚ) / tr1.freq| ≤ maxDelay ∧ |k| ≤ ((tr2.data.length - tr1.data.length) / 2 : ℕ)
    ∀ k0, allowed k0 → ∀ gain offset, gain ≠ 0 → part k0 = amplify gain offset tr1.data →
      (∃ (k : Int) (v : ℝ), xcorr tr1 tr2 maxDelay lagIn = .ok ((k : ℚ) / tr1.freq, .num v) ∧ |v| = 1 ∧
        allowed k ∧ SameSignal tr1.data (part k) ∧ ∀ k', allowed k' → SameSignal tr1.data (part k') → k ≤ k') ∧
      ((∀ k, allowed k → SameSignal tr1.data (part k) → k = k0) →
        xcorr tr1 tr2 maxDelay lagIn = .ok ((k0 : ℚ) / tr1.freq, .num (Real.sign gain))) := by
  intro part allowed k0 hk0 a b ha hcopy
  obtain ⟨k, coeff, e1, e2, e3, e4, e5⟩ := xcorr_bounded tr1 tr2 maxDelay h hle lagIn
  have hlen : ∀ k, allowed k → tr1.data.length = (part k).length := by
    intro k hk
    have := abs_le.1 hk.2
    simp only [part, window, List.length_take, List.length_drop]
    omega
  have hk : allowed k := ⟨e2, e3⟩
  have hpc : ∀ k', SameSignal tr1.data (part k') → ¬Constant (part k') := by
    rintro k' ⟨a, b, ha, he⟩
    rw [he, constant_amplify ha]; exact hc
  obtain ⟨v, hv, hmax, -⟩ := e5 k0 hk0.1 hk0.2 hc (hpc k0 ⟨a, b, ha, hcopy⟩)
  have hone : |pearson tr1.data (part k0)| = 1 := (perfect_iff_same_signal _ _ (hlen k0 hk0) hc).1.2 ⟨a, b, ha, hcopy⟩
  have hve : v = pearson tr1.data (part k) := by
    rcases e4 with e4 | e4
    · rw [hv] at e4; cases e4
    · rw [hv] at e4; injection e4
  have hv1 : |v| = 1 := by
    apply le_antisymm
    · rw [hve]; exact (abs_pearson_le_one _ _ (hlen k hk)).1
    · rw [← hone]; exact hmax
  have hsame : SameSignal tr1.data (part k) := (perfect_iff_same_signal _ _ (hlen k hk) hc).1.1 (by rw [← hve]; exact hv1)
  refine ⟨⟨k, v, by rw [e1, hv], hv1, hk, hsame, fun k' hk' hs' => ?_⟩, fun huniq => ?_⟩
  · by_contra hlt
    obtain ⟨v', hv', -, hfirst⟩ := e5 k' hk'.1 hk'.2 hc (hpc k' hs')
    rw [hv] at hv'
    injection hv' with hv'
    subst hv'
    have h1 := hfirst (by omega)
    have h2 : |pearson tr1.data (part k')| = 1 := (perfect_iff_same_signal _ _ (hlen k' hk') hc).1.2 hs'
    rw [hv1] at h1
    exact absurd h2 h1.ne
  obtain rfl := huniq k hk hsame
  rw [e1, hv, hve, hcopy, (pearson_amplify tr1.data tr1.data rfl a b).2,
    (perfect_iff_same_signal tr1.data tr1.data rfl hc).2.2 ⟨1, 0, one_pos, by simp [amplify]⟩, mul_one]

namespace RepeaterExample

/-- a short waveform, and one in which it is found one sample late, turned upside down and ten times as large -/
def short : Trace ℝ := ⟨0, 1, [0, 1, 0]⟩
def long : Trace ℝ := ⟨0, 1, [7, 4, 5, -5, 5]⟩

theorem comparable : Comparable short long 1 :=
  ⟨by simp [short], by simp [long], rfl, by norm_num [short], by norm_num, by norm_num [short]⟩

theorem varies : ¬Constant short.data := by
  intro h; have := h 0 (by simp [short]) 1 (by simp [short]); norm_num at this

example : xcorr short long 1 0 = .ok (1, .num (-1)) := by
  have h := (repeater_recognised short long 1 comparable (by simp [short, long]) varies 0 1 (by norm_num [short, long]) (-10) 5
    (by norm_num) (by simp [short, long, window, amplify]; norm_num)).2 ?_
  · rw [h, Real.sign_of_neg (by norm_num)]; norm_num [short]
  · rintro k ⟨-, hk⟩ ⟨a, b, ha, he⟩
    have hk' : k = -1 ∨ k = 0 ∨ k = 1 := by
      simp [short, long] at hk
      have := abs_le.1 hk
      omega
    rcases hk' with rfl | rfl | rfl
    · simp [short, long, window, amplify] at he
      linarith [he.1, he.2.2]
    · simp [short, long, window, amplify] at he
      linarith [he.1, he.2.2]
    · rfl

example := gain_and_offset_irrelevant short long 1 comparable 0 (a := 3) (a' := -2) (by norm_num) (by norm_num) 1 (-4)

/-- a signal that rises steadily, and the same one a second longer on both sides -/
def rise : Trace ℝ := ⟨0, 1, [1, 2]⟩
def longRise : Trace ℝ := ⟨-1000000, 1, [0, 1, 2, 3]⟩

/-- **Identical waveforms do not always have the lag zero**: both have the same samples at the same times, but the signal fits at
every lag, and the smallest lag is reported. -/
theorem identical_waveforms_lag : xcorr rise longRise 1 0 = .ok (-1, .num 1) := by
  have hc : ¬Constant rise.data := by
    intro h; have := h 1 (by simp [rise]) 2 (by simp [rise]); norm_num at this
  have hcmp : Comparable rise longRise 1 :=
    ⟨by simp [rise], by simp [longRise], rfl, by norm_num [rise], by norm_num, by norm_num [rise]⟩
  obtain ⟨k, v, h1, h2, h3, h4, h5⟩ := (repeater_recognised rise longRise 1 hcmp (by simp [rise, longRise]) hc 0 (-1)
    (by norm_num [rise, longRise]) 1 (-1) one_ne_zero (by simp [rise, longRise, window, amplify]; norm_num)).1
  have hle := h5 (-1) (by norm_num [rise, longRise]) ⟨1, -1, one_ne_zero, by simp [rise, longRise, window, amplify]; norm_num⟩
  have hge : -1 ≤ k := by
    have := h3.2
    simp [rise, longRise] at this
    exact (abs_le.1 this).1
  obtain rfl : k = -1 := by omega
  obtain ⟨k', c, e1, -, -, e4, -⟩ := xcorr_bounded rise longRise 1 hcmp (by simp [rise, longRise]) 0
  rw [h1] at e1
  injection e1 with e1
  simp only [Prod.mk.injEq] at e1
  obtain ⟨e5, rfl⟩ := e1
  have hk' : k' = -1 := by
    simp [rise] at e5
    have : (k' : ℚ) = ((-1 : Int) : ℚ) := by push_cast; linarith
    exact_mod_cast this
  subst hk'
  rcases e4 with e4 | e4
  · cases e4
  injection e4 with e4
  have hp : v = 1 := by
    rw [e4]
    refine (perfect_iff_same_signal _ _ (by simp [rise, longRise, window]) hc).2.2 ⟨1, -1, one_pos, ?_⟩
    simp [rise, longRise, window, amplify]; norm_num
  rw [h1, hp]
  norm_num [rise]

end RepeaterExample

/-- **C125d.** Two picks correlate perfectly only if parts of their waveforms, at least as long as the configured window, are the same
signal.  If this signal is seen in both with one shift of samples only, the lag is the time by which it is later after the second pick,
up to one and a half samples (two, for combined components) and the bias of C123. -/
theorem perfect_lag_is_true_shift {cfg : Config} {late : ℚ} {ev1 : Event ℝ} {pick1 : Phase ℝ} {ev2 : Event ℝ} {pick2 : Phase ℝ}
    {tr1 tr2 : Trace ℝ} (h : Pair cfg late ev1 pick1 ev2 pick2 tr1 tr2) {lag : ℚ} {k : ℝ}
    (hm : Matches cfg cfg ev1 pick1 ev2 pick2 tr1 tr2 lag k) (hk : |k| = 1) :
    ∃ i1 i2 n, i1 + n ≤ tr1.data.length ∧ i2 + n ≤ tr2.data.length ∧
      (cfg.endOffset - cfg.startOffset) * 1000000 ≤ (n + late) * step tr1 + 2 ∧
      SameSignal (window tr1.data i1 n) (window tr2.data i2 n) ∧
      ∀ s : Int, (∀ j1 j2 : ℕ, j1 + n ≤ tr1.data.length → j2 + n ≤ tr2.data.length →
          SameSignal (window tr1.data j1 n) (window tr2.data j2 n) → (j2 : Int) - j1 = s) →
        |(timeOf tr2 s - pick2.time) - (timeOf tr1 0 - pick1.time) - lag * 1000000 -
          bias cfg (((pick2.time : ℚ) - ev2.time) - (pick1.time - ev1.time))| ≤ (3 / 2 + late / 2) * step tr1 + 8 := by
  obtain ⟨i1, i2, n, hc, hn, hs⟩ := lag_is_shift_and_bias h hm
  have l1 : (window tr1.data i1 n).length = n := by
    have := hc.in1
    simp only [window, List.length_take, List.length_drop]; omega
  have l2 : (window tr2.data i2 n).length = n := by
    have := hc.in2
    simp only [window, List.length_take, List.length_drop]; omega
  have hsame : SameSignal (window tr1.data i1 n) (window tr2.data i2 n) := by
    have hnc : ¬Constant (window tr1.data i1 n) := by
      intro hcon
      have h0 : pearson (window tr1.data i1 n) (window tr2.data i2 n) = 0 := by
        have e : cov (window tr1.data i1 n) (window tr1.data i1 n) = 0 := by
          rw [self_eq (window tr1.data i1 n), constant_iff] at hcon
          rw [self_eq (window tr1.data i1 n), cov_eq]; exact hcon
        unfold pearson
        rw [e]; simp
      rw [hc.coeff, h0] at hk
      norm_num at hk
    exact (perfect_iff_same_signal _ _ (by rw [l1, l2]) hnc).1.1 (by rw [← hc.coeff]; exact hk)
  refine ⟨i1, i2, n, hc.in1, hc.in2, hn, hsame, fun s hu => ?_⟩
  have he := hu i1 i2 hc.in1 hc.in2 hsame
  have e : (timeOf tr2 s - pick2.time) - (timeOf tr1 0 - pick1.time) = shift tr1 pick1.time i1 tr2 pick2.time i2 := by
    unfold shift timeOf
    rw [← he, h.same]
    push_cast
    ring
  rw [e]
  exact hs

namespace PickExample
open Verif.LagSpec.Example (event pick)

/-- two samples per second, a window of a second before and after the pick, lags of up to a second -/
def config : Config := ⟨-1, 1, 0, 1⟩
/-- a signal, and the same one half a second earlier, recorded ten times as large -/
def first : Trace ℝ := ⟨0, 2, [0, 1, 4, 9, 16, 25, 36, 49, 64]⟩
def second : Trace ℝ := ⟨0, 2, [10, 40, 90, 160, 250, 360, 490, 640, 810]⟩
def cut : Trace ℝ := ⟨1000000, 2, [4, 9, 16, 25, 36]⟩

theorem pair : Pair config 0 event (pick 2000000 .catalog) event (pick 2000000 .rtEventAutomatic) first second where
  settings := ⟨-1000000, 1000000, by norm_num [config], by norm_num [config], by norm_num, by norm_num [config], by norm_num [config]⟩
  notEarly := le_rfl
  after1 := by decide
  after2 := by decide
  same := rfl
  freq := by norm_num [first]
  fits := by norm_num [first, config]
  data1 := by simp [first]
  data2 := by simp [second]
  cut1 := ⟨⟨0, 4000000⟩, by show windowLong config 0 2000000 = _; decide +kernel, by constructor <;> norm_num [first, timeOf, step]⟩
  cut2 := ⟨⟨0, 4000000⟩, by show windowLong config 0 2000000 = _; decide +kernel, by constructor <;> norm_num [second, timeOf, step]⟩

theorem cutTo : CutTo config event (pick 2000000 .catalog) first cut := by
  refine ⟨⟨1000000, 3000000⟩, by show windowShort config 0 2000000 = _; decide +kernel, ?_⟩
  unfold Trace.slice cut
  have e1 : first.timeWindow = ⟨0, 4000000⟩ := by
    have : first.endTime = 4000000 := by
      unfold Trace.endTime first
      simp only [List.length_cons, List.length_nil]
      decide +kernel
    unfold Trace.timeWindow
    rw [this]; rfl
  have e2 : first.index 1000000 = ((2 : Int) : ℚ) := by
    unfold Trace.index Trace.durToSec first; norm_num
  have e3 : first.index 3000000 = ((6 : Int) : ℚ) := by
    unfold Trace.index Trace.durToSec first; norm_num
  have e4 : Trace.secToDur (((2 : Int) : ℚ) / 2) = 1000000 := by decide +kernel
  rw [e1, if_neg (by decide), if_neg (by decide)]
  simp only [e2, e3, Int.floor_intCast, Int.ceil_intCast]
  rw [show first.freq = 2 from rfl, e4]
  norm_num [first]
  rfl

theorem found : xcorr cut second 1 0 = .ok (-1 / 2, .num 1) := by
  have hc : ¬Constant cut.data := by
    intro h; have := h 4 (by simp [cut]) 9 (by simp [cut]); norm_num at this
  have hcmp : Comparable cut second 1 :=
    ⟨by simp [cut], by simp [second], rfl, by norm_num [cut], by norm_num, by norm_num [cut]⟩
  have h := (repeater_recognised cut second 1 hcmp (by simp [cut, second]) hc 0 (-1) (by norm_num [cut, second]) 10 0
    (by norm_num) (by simp [cut, second, window, amplify]; norm_num)).2 ?_
  · rw [h, Real.sign_of_pos (by norm_num)]; norm_num [cut]
  · rintro k ⟨-, hk⟩ ⟨a, b, ha, he⟩
    have hk' : k = -2 ∨ k = -1 ∨ k = 0 ∨ k = 1 ∨ k = 2 := by
      simp [cut, second] at hk
      have := abs_le.1 hk
      omega
    rcases hk' with rfl | rfl | rfl | rfl | rfl
    · simp [cut, second, window, amplify] at he; linarith [he.1, he.2.1, he.2.2.1]
    · rfl
    · simp [cut, second, window, amplify] at he; linarith [he.1, he.2.1, he.2.2.1]
    · simp [cut, second, window, amplify] at he; linarith [he.1, he.2.1, he.2.2.1]
    · simp [cut, second, window, amplify] at he; linarith [he.1, he.2.1, he.2.2.1]

theorem matched : Matches config config event (pick 2000000 .catalog) event (pick 2000000 .rtEventAutomatic) first second (-1 / 2) 1 :=
  .first (.inl rfl) (by rintro (h | h) <;> cases h) cutTo found

theorem first_at (i : ℕ) (h : i < 9) : first.data.getD i 0 = (i : ℝ) ^ 2 := by
  interval_cases i <;> norm_num [first]

theorem second_at (i : ℕ) (h : i < 9) : second.data.getD i 0 = 10 * ((i : ℝ) + 1) ^ 2 := by
  interval_cases i <;> norm_num [second]

/-- the signal is the same with one shift only, for all windows of four samples and more -/
theorem one_shift {n j1 j2 : ℕ} (hn : 3 ≤ n) (h1 : j1 + n ≤ first.data.length) (h2 : j2 + n ≤ second.data.length)
    (h : SameSignal (window first.data j1 n) (window second.data j2 n)) : (j2 : Int) - j1 = -1 := by
  obtain ⟨a, b, ha, he⟩ := h
  rw [window_eq _ _ _ h1, window_eq _ _ _ h2, amplify_range] at he
  have key : ∀ i < n, 10 * ((j2 : ℝ) + i + 1) ^ 2 = a * ((j1 : ℝ) + i) ^ 2 + b := by
    intro i hi
    have := List.map_inj_left.1 he i (List.mem_range.2 hi)
    simp only [first, second, List.length_cons, List.length_nil] at h1 h2
    rw [first_at _ (by omega), second_at _ (by omega)] at this
    push_cast at this
    exact this
  have k0 := key 0 (by omega)
  have k1 := key 1 (by omega)
  have k2 := key 2 (by omega)
  push_cast at k0 k1 k2
  have ha' : a = 10 := by linarith
  subst ha'
  have : (j2 : ℝ) + 1 = j1 := by linarith
  have : j2 + 1 = j1 := by exact_mod_cast this
  omega

/-- the signal is half a second earlier after the second pick -/
example : |(timeOf second ((-1 : Int) : ℚ) - 2000000) - (timeOf first 0 - 2000000) - (-1 / 2) * 1000000 - bias config 0| ≤
    (3 / 2 + 0 / 2) * step first + 8 := by
  obtain ⟨i1, i2, n, h1, h2, h3, -, h5⟩ := perfect_lag_is_true_shift pair matched (by norm_num)
  have hn : 3 ≤ n := by
    norm_num [config, step, first] at h3
    have : (3 : ℚ) ≤ n := by linarith
    exact_mod_cast this
  have := h5 (-1) (fun j1 j2 q1 q2 q3 => one_shift hn q1 q2 q3)
  simpa [pick, event] using this

end PickExample

end Verif.RepeaterSpec
