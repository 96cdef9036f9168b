import Verif.Proofs.LagShift

/-!
# C123: the lag of a correlation is the shift in time between two waveforms, relative to their picks

The correlation finds where a part of one waveform fits into the other by counting samples from the middles of the two
waveforms; the times of the samples are not looked at.  What the user relies on is that the lag is a difference in
time: if the same signal is seen `lag` seconds later after the second pick than after the first one, the difference of
the travel times has to be corrected by `lag`.
-/

set_option linter.unusedSimpArgs false

namespace Verif.LagSpec
open Verif Verif.XCorr Verif.XCorr.Spec Verif.Catalog Verif.CorrelationSpec

/-- two waveforms for the extended windows of two picks, as they are correlated; `late` is 0 for single components (C123d) and 1
for those combined from the horizontal components (C123e) -/
structure Pair (cfg : Config) (late : ℚ) (ev1 : Event ℝ) (pick1 : Phase ℝ) (ev2 : Event ℝ) (pick2 : Phase ℝ) (tr1 tr2 : Trace ℝ) : Prop where
  settings : Settings cfg
  notEarly : 0 ≤ late
  after1 : ev1.time ≤ pick1.time
  after2 : ev2.time ≤ pick2.time
  same : tr1.freq = tr2.freq
  freq : 0 < tr1.freq
  fits : cfg.maxDelay * tr1.freq < 2147483648
  data1 : tr1.data ≠ []
  data2 : tr2.data ≠ []
  cut1 : ∃ w, windowLong cfg ev1.time pick1.time = some w ∧ Cut tr1 late w
  cut2 : ∃ w, windowLong cfg ev2.time pick2.time = some w ∧ Cut tr2 late w

theorem Pair.close {cfg : Config} {late : ℚ} {ev1 : Event ℝ} {pick1 : Phase ℝ} {ev2 : Event ℝ} {pick2 : Phase ℝ} {tr1 tr2 : Trace ℝ}
    (h : Pair cfg late ev1 pick1 ev2 pick2 tr1 tr2) {lag : ℚ} {k : ℝ} (hm : Matches cfg cfg ev1 pick1 ev2 pick2 tr1 tr2 lag k) :
    ∃ i1 i2 n, Close cfg late ev1.time pick1.time ev2.time pick2.time tr1 tr2 lag k i1 i2 n := by
  obtain ⟨w1, hw1, hc1⟩ := h.cut1
  obtain ⟨w2, hw2, hc2⟩ := h.cut2
  cases hm with
  | second _ _ hs hx =>
    obtain ⟨s, hs, hsl⟩ := hs
    exact close_second h.settings h.after1 h.after2 hw1 hw2 h.same h.freq h.fits h.data1 h.data2 h.notEarly hc1 hs hsl hx
  | first _ _ hs hx =>
    obtain ⟨s, hs, hsl⟩ := hs
    exact close_first h.settings h.after1 h.after2 hw1 hw2 h.same h.freq h.fits h.data1 h.data2 h.notEarly hc2 hs hsl hx
  | bothSecond _ _ hs hx _ _ =>
    obtain ⟨s, hs, hsl⟩ := hs
    exact close_second h.settings h.after1 h.after2 hw1 hw2 h.same h.freq h.fits h.data1 h.data2 h.notEarly hc1 hs hsl hx
  | bothFirst _ hs _ _ hx _ =>
    obtain ⟨s, hs, hsl⟩ := hs
    exact close_first h.settings h.after1 h.after2 hw1 hw2 h.same h.freq h.fits h.data1 h.data2 h.notEarly hc2 hs hsl hx

/-- **C123a.** What is compared is a part of the first waveform, at least as long as the configured window, with a part of the
second one, and the reported coefficient is theirs.  The reported lag is the time by which that part of the second waveform is
later after its pick than that of the first one, up to one and a half samples (two, for combined components; and eight
microseconds), once the motion of the middle of the window with the travel time is added. -/
theorem lag_is_shift_and_bias {cfg : Config} {late : ℚ} {ev1 : Event ℝ} {pick1 : Phase ℝ} {ev2 : Event ℝ} {pick2 : Phase ℝ} {tr1 tr2 : Trace ℝ}
    (h : Pair cfg late ev1 pick1 ev2 pick2 tr1 tr2) {lag : ℚ} {k : ℝ} (hm : Matches cfg cfg ev1 pick1 ev2 pick2 tr1 tr2 lag k) :
    ∃ i1 i2 n, Compared tr1 tr2 i1 i2 n k ∧ (cfg.endOffset - cfg.startOffset) * 1000000 ≤ (n + late) * step tr1 + 2 ∧
      |shift tr1 pick1.time i1 tr2 pick2.time i2 - lag * 1000000 -
        bias cfg (((pick2.time : ℚ) - ev2.time) - (pick1.time - ev1.time))| ≤ (3 / 2 + late / 2) * step tr1 + 8 := by
  obtain ⟨i1, i2, n, c⟩ := h.close hm
  exact ⟨i1, i2, n, c.compared, c.whole, c.near⟩

/-- **C123b.** If the window is as long before the pick as after it (as by default for P phases), or is not scaled with the travel
time, or the travel times are the same, the lag is the shift in time up to one and a half samples (two, for combined
components). -/
theorem lag_is_shift_partial {cfg : Config} {late : ℚ} {ev1 : Event ℝ} {pick1 : Phase ℝ} {ev2 : Event ℝ} {pick2 : Phase ℝ} {tr1 tr2 : Trace ℝ}
    (h : Pair cfg late ev1 pick1 ev2 pick2 tr1 tr2) {lag : ℚ} {k : ℝ} (hm : Matches cfg cfg ev1 pick1 ev2 pick2 tr1 tr2 lag k)
    (hb : cfg.startOffset = -cfg.endOffset ∨ cfg.winScaling = 0 ∨ pick1.time - ev1.time = pick2.time - ev2.time) :
    ∃ i1 i2 n, Compared tr1 tr2 i1 i2 n k ∧ (cfg.endOffset - cfg.startOffset) * 1000000 ≤ (n + late) * step tr1 + 2 ∧
      |shift tr1 pick1.time i1 tr2 pick2.time i2 - lag * 1000000| ≤ (3 / 2 + late / 2) * step tr1 + 8 := by
  obtain ⟨i1, i2, n, c1, c2, c3⟩ := lag_is_shift_and_bias h hm
  have hz : bias cfg (((pick2.time : ℚ) - ev2.time) - (pick1.time - ev1.time)) = 0 := by
    unfold bias
    rcases hb with hb | hb | hb
    · rw [hb]; simp
    · rw [hb]; simp
    · have : ((pick1.time : ℚ) - ev1.time) = (pick2.time - ev2.time) := by exact_mod_cast hb
      rw [this]; simp
  rw [hz, sub_zero] at c3
  exact ⟨i1, i2, n, c1, c2, c3⟩

/-- **C123c.** If the window is not scaled and the maximum lag is a whole number of samples (at most 100000 per second), the lag
is the shift in time up to one sample. -/
theorem lag_is_shift_to_a_sample_partial {cfg : Config} {ev1 : Event ℝ} {pick1 : Phase ℝ} {ev2 : Event ℝ} {pick2 : Phase ℝ} {tr1 tr2 : Trace ℝ}
    (h : Pair cfg 0 ev1 pick1 ev2 pick2 tr1 tr2) {lag : ℚ} {k : ℝ} (hm : Matches cfg cfg ev1 pick1 ev2 pick2 tr1 tr2 lag k)
    (hscale : cfg.winScaling = 0) (hf : tr1.freq ≤ 100000) (N : ℕ) (hN : N ≠ 0) (hd : cfg.maxDelay = N / tr1.freq)
    (hmicro : ∃ d : Int, cfg.maxDelay * 1000000 = d) :
    ∃ i1 i2 n, Compared tr1 tr2 i1 i2 n k ∧ (cfg.endOffset - cfg.startOffset) * 1000000 ≤ n * step tr1 + 2 ∧
      |shift tr1 pick1.time i1 tr2 pick2.time i2 - lag * 1000000| ≤ step tr1 + 5 := by
  obtain ⟨i1, i2, n, c⟩ := h.close hm
  have hten : 10 ≤ step tr1 := by
    unfold step
    rw [le_div_iff₀ h.freq]; linarith
  obtain ⟨d, hd'⟩ := hmicro
  exact ⟨i1, i2, n, c.compared, by have := c.whole; rwa [add_zero] at this, c.nearer rfl hscale hten
    ⟨N, hN, by rw [hd]; unfold step; ring, by unfold Trace.secToDur; rw [hd', cround_intCast]⟩⟩

/-- **The default settings for S phases** (dd.h:113: from 0.5 s before the pick to 1 s after it, lengthened by 4 % of the travel
time, lags of up to 0.5 s) -/
def defaultS : Config := ⟨-1 / 2, 1, 1 / 25, 1 / 2⟩

/-- the default settings for P phases (dd.h:112) -/
def defaultP : Config := ⟨-1 / 2, 1 / 2, 1 / 50, 1 / 2⟩

/-- **C123 as stated is false for S phases with the default settings**: the lag is off by 1/150 of the difference of the travel
times, whatever the waveforms are.  With travel times that differ by 1.5 s it is off by almost 5 ms or more at 400 Hz (two
samples). -/
theorem default_s_lag_biased {late : ℚ} {ev1 : Event ℝ} {pick1 : Phase ℝ} {ev2 : Event ℝ} {pick2 : Phase ℝ} {tr1 tr2 : Trace ℝ}
    (h : Pair defaultS late ev1 pick1 ev2 pick2 tr1 tr2) {lag : ℚ} {k : ℝ} (hm : Matches defaultS defaultS ev1 pick1 ev2 pick2 tr1 tr2 lag k)
    (hl : late ≤ 1) (hf : 400 ≤ tr1.freq) (htt : 1500000 ≤ (pick2.time - ev2.time) - (pick1.time - ev1.time)) :
    ∃ i1 i2 n, Compared tr1 tr2 i1 i2 n k ∧ 1500000 ≤ (n + 1) * step tr1 + 2 ∧
      4900 ≤ shift tr1 pick1.time i1 tr2 pick2.time i2 - lag * 1000000 := by
  obtain ⟨i1, i2, n, c1, c2, c3⟩ := lag_is_shift_and_bias h hm
  have hs : step tr1 ≤ 2500 := by
    unfold step
    rw [div_le_iff₀ h.freq]; linarith
  have hs0 : 0 < step tr1 := by
    have := h.freq
    unfold step; positivity
  have hls : late * step tr1 ≤ step tr1 := by nlinarith
  refine ⟨i1, i2, n, c1, by unfold defaultS at c2; norm_num at c2; nlinarith, ?_⟩
  have htt' : (1500000 : ℚ) ≤ ((pick2.time : ℚ) - ev2.time) - (pick1.time - ev1.time) := by exact_mod_cast htt
  have hb : bias defaultS (((pick2.time : ℚ) - ev2.time) - (pick1.time - ev1.time)) =
      (((pick2.time : ℚ) - ev2.time) - (pick1.time - ev1.time)) / 150 := by
    unfold bias defaultS; ring
  rw [hb, abs_le] at c3
  nlinarith [c3.1]

/-- **C123d.** The waveform of one component, as the processor delivers it, is cut to the window asked for. -/
theorem processed_is_cut (e : Waveform.Env) (r : Waveform.Request) (hr : r.trans = .none) (htw : TimeWindow.Built r.tw)
    (hload : ∀ t, e.load (r.tw.extend e.extra e.extra) r.ph = some t →
      ∀ t', Waveform.filter e.wf t r.filterStr r.resampleFreq = some t' → t'.data ≠ [] ∧ 0 < t'.freq)
    {tr : Trace ℝ} (h : Waveform.process e r = .ok (some tr)) : tr.data ≠ [] ∧ 0 < tr.freq ∧ Cut tr 0 r.tw := by
  unfold Waveform.process at h
  rw [hr] at h
  simp only [Waveform.loadAndProcess] at h
  split at h
  · cases h
  · rename_i t ht
    split at h
    · cases h
    · rename_i t' ht'
      obtain ⟨hd, hf⟩ := hload t ht t' ht'
      unfold Waveform.sliced at h
      split at h
      · rename_i t'' hs
        injection h with h; injection h with h
        subst h
        obtain ⟨q1, q2, q3, -⟩ := slice_cut (TimeWindow.timewindow_never_negative htw) htw hf hd hs
        exact ⟨q1, q2 ▸ hf, q3⟩
      · cases h
      · cases h

/-- **C123e.** The waveform combined from the horizontal components (the default for S phases) is cut to the window asked for, apart
from one sample that can be missing at its end. -/
theorem combined_is_cut (e : Waveform.Env) (r : Waveform.Request) (hr : r.trans = .l2) (htw : TimeWindow.Built r.tw)
    (hload : ∀ ph t, e.load (r.tw.extend e.extra e.extra) ph = some t →
      ∀ t', Waveform.filter e.wf t r.filterStr r.resampleFreq = some t' → t'.data ≠ [] ∧ 0 < t'.freq)
    {tr : Trace ℝ} (h : Waveform.process e r = .ok (some tr)) : tr.data ≠ [] ∧ 0 < tr.freq ∧ Cut tr 1 r.tw := by
  have key : ∀ ch tr', Waveform.loadAndProcess e r.tw r.ph ch r.filterStr r.resampleFreq = .ok (some tr') →
      ∃ t : Trace ℝ, t.data ≠ [] ∧ 0 < t.freq ∧ t.slice r.tw = some (true, tr') := by
    intro ch tr' h
    simp only [Waveform.loadAndProcess] at h
    split at h
    · cases h
    · rename_i t ht
      split at h
      · cases h
      · rename_i t' ht'
        obtain ⟨hd, hf⟩ := hload _ t ht t' ht'
        unfold Waveform.sliced at h
        split at h
        · rename_i t'' hs
          injection h with h; injection h with h
          subst h
          exact ⟨t', hd, hf, hs⟩
        · cases h
        · cases h
  unfold Waveform.process at h
  rw [hr] at h
  simp only at h
  split at h
  · cases h
  rename_i names tc hcomp
  cases h1 : Waveform.loadAndProcess e r.tw r.ph (names 1) r.filterStr r.resampleFreq with
  | throws => rw [h1] at h; cases h
  | ub => rw [h1] at h; cases h
  | ok o1 =>
    rw [h1] at h
    simp only [Outcome.bind_ok] at h
    cases h2 : Waveform.loadAndProcess e r.tw r.ph (names 2) r.filterStr r.resampleFreq with
    | throws => rw [h2] at h; cases h
    | ub => rw [h2] at h; cases h
    | ok o2 =>
      rw [h2] at h
      simp only [Outcome.bind_ok] at h
      cases o1 with
      | none => cases h
      | some t1 =>
        cases o2 with
        | none => cases h
        | some t2 =>
          obtain ⟨w1, hd1, hf1, hs1⟩ := key _ _ h1
          obtain ⟨w2, hd2, hf2, hs2⟩ := key _ _ h2
          obtain ⟨q1, q2, q3⟩ := combined_cut htw hf1 hf2 hd1 hd2 hs1 hs2 h
          exact ⟨q1, q2 ▸ hf1, q3⟩

/-- **The last sample is lost**: at 3 Hz the components cut to the first two samples end at 333333 µs, a third of a microsecond before the
second one, so that only one sample is combined; the requested window is not covered. -/
theorem combined_loses_last_sample :
    let h : Trace ℝ := ⟨0, 3, [1, 2]⟩
    h.slice (TimeWindow.mk' 0 333333) = some (true, h) ∧
    ∃ tr, Waveform.transformL2 h h = .ok (some tr) ∧ tr.stime = 0 ∧ tr.data.length = 1 := by
  intro h
  have he : h.endTime = 333333 := by
    unfold Trace.endTime Trace.secToDur
    simp only [h, List.length_cons, List.length_nil]
    decide +kernel
  refine ⟨?_, ?_⟩
  · unfold Trace.slice Trace.timeWindow
    rw [he]
    rfl
  · have hc : Waveform.sampleCount 0 333333 3 = .ok 1 := by decide +kernel
    have hs : Waveform.samplesFrom 0 1 h = some 0 := by
      unfold Waveform.samplesFrom Trace.index Trace.durToSec
      have hf : ⌊(2 : ℚ)⁻¹⌋ = 0 := by rw [Int.floor_eq_iff]; norm_num
      simp [h, cround, hf]
    unfold Waveform.transformL2
    simp only [ne_eq, not_true_eq_false, if_false, max_self, min_self, he]
    rw [show h.stime = 0 from rfl, show h.freq = 3 from rfl, hc]
    simp only [Outcome.bind_ok, hs]
    simp

namespace Example

noncomputable def event : Event ℝ := ⟨1, 0, 0, 0, 0, 0, false, 0, 0⟩
/-- a pick of the catalog, or one found automatically -/
noncomputable def pick (time : Int) (source : Source) : Phase ℝ :=
  ⟨1, "S", time, 0, 0, "S", "CH", "S", "", "HHT", .S, 0, source, false, 0, 0, 0⟩

theorem usual : Pair XCorr.Example.config 0 event (pick 1000000 .catalog) event (pick 1000000 .catalog) XCorr.Example.trace XCorr.Example.trace where
  settings := ⟨0, 1000000, by norm_num [XCorr.Example.config], by norm_num [XCorr.Example.config], by norm_num,
    by norm_num [XCorr.Example.config], by norm_num [XCorr.Example.config]⟩
  notEarly := le_rfl
  after1 := by decide
  after2 := by decide
  same := rfl
  freq := by norm_num [XCorr.Example.trace]
  fits := by norm_num [XCorr.Example.trace, XCorr.Example.config]
  data1 := by simp [XCorr.Example.trace]
  data2 := by simp [XCorr.Example.trace]
  cut1 := ⟨⟨0, 3000000⟩, by show windowLong XCorr.Example.config 0 1000000 = _; decide +kernel,
    by constructor <;> norm_num [XCorr.Example.trace, timeOf]⟩
  cut2 := ⟨⟨0, 3000000⟩, by show windowLong XCorr.Example.config 0 1000000 = _; decide +kernel,
    by constructor <;> norm_num [XCorr.Example.trace, timeOf]⟩

theorem matched : Matches XCorr.Example.config XCorr.Example.config event (pick 1000000 .catalog) event (pick 1000000 .catalog)
    XCorr.Example.trace XCorr.Example.trace 1 (-1) := by
  have hcut : CutTo XCorr.Example.config event (pick 1000000 .catalog) XCorr.Example.trace XCorr.Example.short :=
    ⟨_, XCorr.Example.window_eq, XCorr.Example.slice_eq⟩
  obtain ⟨lag, coeff, e1, e2⟩ := crosscorr_antisymmetric _ _ 1 XCorr.Example.comparable 0
  have hc := XCorr.Example.correlated
  rw [hc] at e1
  injection e1 with e1; injection e1 with e1 e1'
  subst e1 e1'
  rw [neg_neg] at e2
  exact .bothSecond Iff.rfl hcut hcut e2 hc (fun q hq => by injection hq with hq; rw [hq])

example := lag_is_shift_and_bias usual matched
example := lag_is_shift_partial usual matched (.inr (.inl rfl))
example := lag_is_shift_to_a_sample_partial usual matched rfl (by norm_num [XCorr.Example.trace]) 1 (by norm_num)
  (by norm_num [XCorr.Example.trace, XCorr.Example.config]) ⟨1000000, by norm_num [XCorr.Example.config]⟩

/-- waveforms that rise steadily have a coefficient -/
theorem rising_correlates {a b : Trace ℝ} {D : ℚ} (h : Comparable a b D) (ha : a.data.Pairwise (· < ·)) (hb : b.data.Pairwise (· < ·))
    (la : 2 ≤ a.data.length) (lb : 2 ≤ b.data.length) : ∃ lag k, xcorr a b D 0 = .ok (lag, .num k) := by
  have hnot : ∀ l : List ℝ, l.Pairwise (· < ·) → 2 ≤ l.length → ¬Constant l := by
    intro l hl hlen hc
    match l, hlen with
    | x :: y :: _, _ =>
      have h1 := hc x (by simp) y (by simp)
      have h2 := (List.pairwise_cons.1 hl).1 y (by simp)
      linarith
  have key : ∀ a b : Trace ℝ, Comparable a b D → a.data.Pairwise (· < ·) → b.data.Pairwise (· < ·) → 2 ≤ a.data.length →
      a.data.length ≤ b.data.length → ∃ lag k, xcorr a b D 0 = .ok (lag, .num k) := by
    intro a b h ha hb la hle
    obtain ⟨q, c, e1, -, -, -, e5⟩ := xcorr_bounded a b D h hle 0
    obtain ⟨v, hv, -⟩ := e5 0 (by simpa using h.delay) (by rw [abs_zero]; exact Int.natCast_nonneg _) (hnot _ ha la) (hnot _
      (hb.sublist ((List.take_sublist _ _).trans (List.drop_sublist _ _)))
      (by simp only [window, List.length_take, List.length_drop]; omega))
    exact ⟨_, v, by rw [e1, hv]⟩
  rcases Nat.le_total a.data.length b.data.length with hle | hle
  · exact key a b h ha hb la hle
  · obtain ⟨lag, k, e⟩ := key b a h.symm hb ha lb hle
    obtain ⟨lag', c', f1, f2⟩ := crosscorr_antisymmetric b a D h.symm 0
    rw [e] at f1
    injection f1 with f1; injection f1 with f1 f1'
    exact ⟨_, k, by rw [f2, f1']⟩

/-- two rising waveforms at 400 Hz, for picks 5 s and 6.5 s after the origin -/
noncomputable def rising (start : Int) (n : ℕ) : Trace ℝ := ⟨start, 400, (List.range n).map (fun i : ℕ => (i : ℝ))⟩

theorem rising_length (start : Int) (n : ℕ) : (rising start n).data.length = n := by
  show ((List.range n).map (fun i : ℕ => (i : ℝ))).length = n
  rw [List.length_map, List.length_range]

theorem rising_data (start : Int) {n : ℕ} (h : 0 < n) : (rising start n).data ≠ [] := by
  rw [← List.length_pos_iff, rising_length]; exact h

theorem rising_rises (start : Int) (n : ℕ) : (rising start n).data.Pairwise (· < ·) := by
  show ((List.range n).map (fun i : ℕ => (i : ℝ))).Pairwise (· < ·)
  rw [List.pairwise_map]
  exact List.pairwise_lt_range.imp (fun h => by exact_mod_cast h)

theorem long1 : windowLong defaultS 0 5000000 = some ⟨3933334, 6633334⟩ := by decide +kernel
theorem long2 : windowLong defaultS 0 6500000 = some ⟨5413334, 8173334⟩ := by decide +kernel
theorem short2 : windowShort defaultS 0 6500000 = some ⟨5913334, 7673334⟩ := by decide +kernel

theorem pair : Pair defaultS 0 event (pick 5000000 .rtEventAutomatic) event (pick 6500000 .catalog) (rising 3933334 1081) (rising 5413334 1105) where
  settings := ⟨-500000, 1000000, by norm_num [defaultS], by norm_num [defaultS], by norm_num, by norm_num [defaultS], by norm_num [defaultS]⟩
  notEarly := le_rfl
  after1 := by decide
  after2 := by decide
  same := rfl
  freq := by norm_num [rising]
  fits := by norm_num [rising, defaultS]
  data1 := rising_data _ (by norm_num)
  data2 := rising_data _ (by norm_num)
  cut1 := ⟨_, long1, by constructor <;> norm_num [rising, timeOf]⟩
  cut2 := ⟨_, long2, by constructor <;> norm_num [rising, timeOf]⟩

theorem rising_matches : ∃ lag k, Matches defaultS defaultS event (pick 5000000 .rtEventAutomatic) event (pick 6500000 .catalog)
    (rising 3933334 1081) (rising 5413334 1105) lag k := by
  have i1 : Trace.index (rising 5413334 1105) 5913334 = ((200 : Int) : ℚ) := by
    unfold Trace.index Trace.durToSec rising; norm_num
  have i2 : Trace.index (rising 5413334 1105) 7673334 = ((904 : Int) : ℚ) := by
    unfold Trace.index Trace.durToSec rising; norm_num
  have hw : (rising 5413334 1105).timeWindow = ⟨5413334, 8173334⟩ := by
    have : (rising 5413334 1105).endTime = 8173334 := by
      unfold Trace.endTime rising Trace.secToDur
      simp only [List.length_map, List.length_range]
      norm_num
      rw [show (2760000 : ℚ) = ((2760000 : Int) : ℚ) by norm_num, cround_intCast]
      norm_num
    unfold Trace.timeWindow
    rw [this]
    rfl
  obtain ⟨short, hs, hd⟩ : ∃ short, (rising 5413334 1105).slice ⟨5913334, 7673334⟩ = some (true, short) ∧
      short.freq = 400 ∧ short.data = ((rising 5413334 1105).data.drop 200).take 705 := by
    rcases Trace.slice_cases (rising 5413334 1105) ⟨5913334, 7673334⟩ (by decide) (by norm_num [rising]) with
      ⟨h, -⟩ | ⟨-, h, -⟩ | ⟨-, -, h0, h1, ⟨h2, -⟩ | ⟨-, h⟩⟩
    · rw [hw] at h; exact absurd h (by decide)
    · rw [hw] at h; exact absurd h (by decide)
    · simp only [i2, Int.ceil_intCast] at h2
      rw [rising_length] at h2
      exact absurd h2 (by norm_num)
    · refine ⟨_, h, rfl, ?_⟩
      simp only [i1, i2, Int.floor_intCast, Int.ceil_intCast]
      rfl
  obtain ⟨hf, hd⟩ := hd
  have hlen : short.data.length = 705 := by
    rw [hd, List.length_take, List.length_drop, rising_length]; rfl
  obtain ⟨lag, k, hx⟩ := rising_correlates (a := rising 3933334 1081) (b := short) (D := 1 / 2)
    ⟨rising_data _ (by norm_num), by intro h; rw [h] at hlen; simp at hlen, by rw [hf]; rfl, by norm_num [rising], by norm_num, by norm_num [rising]⟩
    (rising_rises _ _) (by rw [hd]; exact (rising_rises _ _).sublist ((List.take_sublist _ _).trans (List.drop_sublist _ _)))
    (by rw [rising_length]; norm_num) (by omega)
  exact ⟨lag, k, .second (by rintro (h | h) <;> cases h) (.inl rfl) ⟨_, short2, hs⟩ hx⟩

/-- the bias is that of an actual pair of waveforms -/
example : ∃ lag k i1 i2 n, Compared (rising 3933334 1081) (rising 5413334 1105) i1 i2 n k ∧ 1500000 ≤ (n + 1) * step (rising 3933334 1081) + 2 ∧
    4900 ≤ shift (rising 3933334 1081) 5000000 i1 (rising 5413334 1105) 6500000 i2 - lag * 1000000 := by
  obtain ⟨lag, k, h⟩ := rising_matches
  obtain ⟨i1, i2, n, h'⟩ := default_s_lag_biased pair h (by norm_num) (by norm_num [rising]) (by decide)
  exact ⟨lag, k, i1, i2, n, h'⟩

/-- P phases with the default settings are not affected -/
example : defaultP.startOffset = -defaultP.endOffset := by norm_num [defaultP]

/-- a processor with a loader that has four samples, asked for all of them -/
noncomputable def processor : Waveform.Env := ⟨fun _ _ => some XCorr.Example.trace, fun _ t => some t, fun _ => none, 0⟩
noncomputable def request : Waveform.Request :=
  ⟨TimeWindow.mk' 0 3000000, pick 1000000 .catalog, event, ⟨"S", 0, 0, 0, "CH", "S", ""⟩, "", 0, .none⟩

theorem filtered : Waveform.filter processor.wf XCorr.Example.trace "" 0 = some (Waveform.demean XCorr.Example.trace) := by
  unfold Waveform.filter; simp

theorem demeaned : (Waveform.demean XCorr.Example.trace).stime = 0 ∧ (Waveform.demean XCorr.Example.trace).freq = 1 ∧
    (Waveform.demean XCorr.Example.trace).data.length = 4 := by
  unfold Waveform.demean XCorr.Example.trace; simp

example : Waveform.process processor request = .ok (some (Waveform.demean XCorr.Example.trace)) ∧
    Cut (Waveform.demean XCorr.Example.trace) 0 request.tw := by
  obtain ⟨h1, h2, h3⟩ := demeaned
  have hp : Waveform.process processor request = .ok (some (Waveform.demean XCorr.Example.trace)) := by
    have hw : (Waveform.demean XCorr.Example.trace).timeWindow = TimeWindow.mk' 0 3000000 := by
      unfold Trace.timeWindow Trace.endTime Trace.secToDur
      rw [h1, h2, h3, if_neg (by norm_num)]
      congr 1
      decide +kernel
    simp only [Waveform.process, request, Waveform.loadAndProcess, processor, filtered.trans rfl]
    have := filtered
    unfold processor at this
    simp only at this
    rw [this]
    simp only [Waveform.sliced, Trace.slice, hw, if_true]
  refine ⟨hp, (processed_is_cut processor request rfl (TimeWindow.Built.ctor 0 3000000 : TimeWindow.Built request.tw) ?_ hp).2.2⟩
  intro t ht t' ht'
  obtain rfl : XCorr.Example.trace = t := by injection ht
  have h := filtered
  rw [show processor.wf = processor.wf from rfl, show Waveform.filter processor.wf XCorr.Example.trace "" 0 = some t' from ht'] at h
  injection h with h
  subst h
  exact ⟨by rw [← List.length_pos_iff, h3]; norm_num, by rw [h2]; norm_num⟩

/-- the same for the combination of the two horizontal components -/
noncomputable def processor2 : Waveform.Env :=
  ⟨fun _ _ => some XCorr.Example.trace, fun _ t => some t, fun _ => some (fun _ => "HHE", ⟨fun _ => 0, fun _ => 0⟩), 0⟩

example : ∃ tr, Waveform.process processor2 { request with trans := .l2 } = .ok (some tr) ∧ Cut tr 1 request.tw := by
  obtain ⟨h1, h2, h3⟩ := demeaned
  have he : (Waveform.demean XCorr.Example.trace).endTime = 3000000 := by
    unfold Trace.endTime Trace.secToDur
    rw [h1, h2, h3, if_neg (by norm_num)]
    decide +kernel
  have hf : Waveform.filter processor2.wf XCorr.Example.trace "" 0 = some (Waveform.demean XCorr.Example.trace) := by
    unfold Waveform.filter; simp
  have hp : ∀ ch, Waveform.loadAndProcess processor2 request.tw request.ph ch "" 0 =
      .ok (some (Waveform.demean XCorr.Example.trace)) := by
    intro ch
    have hw : (Waveform.demean XCorr.Example.trace).timeWindow = request.tw := by
      unfold Trace.timeWindow; rw [h1, he]; rfl
    unfold Waveform.loadAndProcess
    simp only [show ∀ w ph, processor2.load w ph = some XCorr.Example.trace from fun _ _ => rfl, hf]
    simp only [Waveform.sliced, Trace.slice, hw, if_true]
  obtain ⟨tr, htr⟩ : ∃ tr, Waveform.transformL2 (Waveform.demean XCorr.Example.trace) (Waveform.demean XCorr.Example.trace) = .ok (some tr) := by
    have hc : Waveform.sampleCount 0 3000000 1 = .ok 4 := by decide +kernel
    have hs : Waveform.samplesFrom 0 4 (Waveform.demean XCorr.Example.trace) = some 0 := by
      have hi : (Waveform.demean XCorr.Example.trace).index 0 = ((0 : Int) : ℚ) := by
        unfold Trace.index Trace.durToSec; rw [h1]; norm_num
      unfold Waveform.samplesFrom
      rw [hi, cround_intCast, h3]
      rfl
    unfold Waveform.transformL2
    simp only [ne_eq, not_true_eq_false, if_false, max_self, min_self, he, h1, h2, hc, Outcome.bind_ok, hs]
    exact ⟨_, if_neg (by norm_num)⟩
  have hproc : Waveform.process processor2 { request with trans := .l2 } = .ok (some tr) := by
    unfold Waveform.process
    simp only [show processor2.components = fun _ => some (fun _ => "HHE", ⟨fun _ => 0, fun _ => 0⟩) from rfl,
      show request.filterStr = "" from rfl, show request.resampleFreq = 0 from rfl, hp, Outcome.bind_ok, htr]
  refine ⟨tr, hproc, (combined_is_cut processor2 { request with trans := .l2 } rfl
    (TimeWindow.Built.ctor 0 3000000 : TimeWindow.Built request.tw) ?_ hproc).2.2⟩
  intro ph t ht t' ht'
  obtain rfl : XCorr.Example.trace = t := by injection ht
  have h : some (Waveform.demean XCorr.Example.trace) = some t' := hf.symm.trans ht'
  injection h with h
  subst h
  exact ⟨by rw [← List.length_pos_iff, h3]; norm_num, by rw [h2]; norm_num⟩

end Example
end Verif.LagSpec
