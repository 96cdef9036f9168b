import Verif.Props.WaveformTransform
import Verif.Props.BatchLoader
import Mathlib.Tactic.FieldSimp
import Mathlib.Tactic.Positivity
import Mathlib.Data.Rat.Floor

set_option linter.unusedSimpArgs false

/-!
# C66: resampling and processing of waveforms

The time of sample `i` of a trace is `Trace.sampleTime` (start time plus `i` sampling intervals).
-/

namespace Verif.Waveform
open Verif.Catalog (Phase Event Station)

/-- **C66a.** Resampling to the same or to no frequency changes nothing.  Otherwise the result starts at the same
time, has the new frequency and `⌊n · new / old⌋` samples, and sample `i` is computed at the position of the
input that has the same time. -/
theorem resample_time_base (t : Trace ℝ) (sf : ℚ) (ht : 0 < t.freq) :
    (sf ≤ 0 ∨ sf = t.freq → resample t sf = t) ∧
    (0 < sf → sf ≠ t.freq →
      (resample t sf).stime = t.stime ∧ (resample t sf).freq = sf ∧
      ((resample t sf).data.length : Int) = ⌊(t.data.length : ℚ) * sf / t.freq⌋ ∧
      ∀ i < (resample t sf).data.length, ∃ x : ℚ, t.sampleTime x = (resample t sf).sampleTime i ∧
        (resample t sf).data[i]? = some (newSample t.data t.freq x (min sf t.freq / 2)
          ⌈598 / 100 * t.freq / (min sf t.freq / 2 * (1 / 10))⌉)) := by
  constructor
  · intro h
    unfold resample
    rw [if_pos]
    rcases h with h | h
    · exact Or.inl h
    · exact Or.inr h.symm
  · intro h0 h1
    have hc : ¬ (sf ≤ 0 ∨ t.freq = sf) := by
      push Not; exact ⟨h0, fun h => h1 h.symm⟩
    unfold resample
    rw [if_neg hc]
    simp only
    have e : (t.data.length : ℚ) * (sf / t.freq) = (t.data.length : ℚ) * sf / t.freq := by ring
    rw [e]
    have hn : 0 ≤ ⌊(t.data.length : ℚ) * sf / t.freq⌋ := Int.floor_nonneg.2 (by positivity)
    refine ⟨trivial, trivial, by simp [Int.toNat_of_nonneg hn], fun i hi => ⟨(i : ℚ) / (sf / t.freq), ?_, ?_⟩⟩
    · unfold Trace.sampleTime
      simp only
      field_simp
    · simp only [List.length_map, List.length_range] at hi
      simp [hi]

/-- **C66b.** Resampling is linear: scaling the input scales the output. -/
theorem resample_homogeneous (data : List ℝ) (dataSf x fmax : ℚ) (winLen : Int) (c : ℝ) :
    newSample (data.map (c * ·)) dataSf x fmax winLen = c * newSample data dataSf x fmax winLen := by
  unfold newSample
  rw [← List.sum_map_mul_left]
  congr 1
  apply List.map_congr_left
  intro i _
  simp only [List.length_map]
  split
  · rename_i h
    have hi : i.toNat < data.length := by omega
    simp only [List.getD_eq_getElem?_getD, List.getElem?_map, List.getElem?_eq_getElem hi, Option.map_some, Option.getD_some]
    ring
  · simp

theorem toInt_of_nonneg {x : ℚ} (h : 0 ≤ x) : toInt x = ⌊x⌋ := by unfold toInt; rw [if_pos h]

theorem toInt_intCast (n : Int) : toInt (n : ℚ) = n := by
  unfold toInt; split <;> simp

theorem toInt_neg_half (w : Int) (hw : 0 ≤ w) : toInt (-((w : ℚ) / 2)) = -(w / 2) := by
  unfold toInt
  have : (0 : ℚ) ≤ w := by exact_mod_cast hw
  split
  · rename_i h
    have h0 : (w : ℚ) = 0 := by linarith
    have : w = 0 := by exact_mod_cast h0
    subst this; simp
  · rw [Int.ceil_neg]
    congr 1
    rw [show ((w : ℚ) / 2) = ((w : Int) : ℚ) / ((2 : Nat) : ℚ) by simp, Rat.floor_intCast_div_natCast]
    simp

/-- **C66c.** Away from the start of the trace, or at a position that falls on an input sample, the window
consists of consecutive input samples, each used once.  Missing: the first output samples after a change to a
frequency that is not a divisor of the old one, for which it is false, see below. -/
theorem resample_window_partial (x : ℚ) (winLen : Int) (hw : 0 ≤ winLen) (h : (∃ n : Int, x = n) ∨ ((winLen / 2 : Int) : ℚ) ≤ x) :
    windowIndexes x winLen = (List.range (⌈(winLen : ℚ) - winLen / 2⌉ + winLen / 2).toNat).map
      (fun (k : Nat) => ⌊x⌋ - winLen / 2 + (k : Int)) ∧ (windowIndexes x winLen).Nodup := by
  have key : windowIndexes x winLen = (List.range (⌈(winLen : ℚ) - winLen / 2⌉ + winLen / 2).toNat).map
      (fun (k : Nat) => ⌊x⌋ - winLen / 2 + (k : Int)) := by
    unfold windowIndexes
    simp only
    rw [toInt_neg_half winLen hw]
    rw [sub_neg_eq_add]
    apply List.map_congr_left
    intro k _
    rcases h with ⟨n, rfl⟩ | h
    · have : ((n : ℚ) + ((-(winLen / 2) + (k : Int) : Int) : ℚ)) = ((n + (-(winLen / 2) + k) : Int) : ℚ) := by push_cast; ring
      rw [this, toInt_intCast, Int.floor_intCast]
      ring
    · have h0 : (0 : ℚ) ≤ x + ((-(winLen / 2) + (k : Int) : Int) : ℚ) := by
        have : (0 : ℚ) ≤ (k : ℚ) := by positivity
        push_cast
        linarith
      rw [toInt_of_nonneg h0, Int.floor_add_intCast]
      ring
  refine ⟨key, ?_⟩
  rw [key]
  apply List.Nodup.map _ List.nodup_range
  intro a b hab
  simp only at hab
  omega

example : windowIndexes (7 / 2) 6 = [0, 1, 2, 3, 4, 5] := by decide +kernel

/-- **C66 as stated is false near the start of the trace**: converting a negative position to an integer rounds
towards zero, so the first input sample enters twice. -/
theorem resample_first_sample_twice : windowIndexes (1 / 2) 6 = [-2, -1, 0, 0, 1, 2] := by decide +kernel

/-- **C66 as stated is false at the end of the trace**: when the frequency is doubled, the result pretends to
hold data half an input sample after the last one. -/
theorem resample_beyond_end : (resample ⟨0, 1, [1, 3]⟩ 2).endTime = 1500000 ∧ (⟨0, 1, [1, 3]⟩ : Trace ℝ).endTime = 1000000 := by
  constructor
  · have h := (resample_time_base ⟨0, 1, [1, 3]⟩ 2 (by norm_num)).2 (by norm_num) (by norm_num)
    obtain ⟨h1, h2, h3, _⟩ := h
    have h4 : (resample ⟨0, 1, [1, 3]⟩ 2).data.length = 4 := by
      simp only [List.length_cons, List.length_nil] at h3
      norm_num at h3
      omega
    unfold Trace.endTime
    rw [h1, h2, h4]
    decide +kernel
  · simp only [Trace.endTime, List.length_cons, List.length_nil]
    decide +kernel

/-! ## the whole processing -/

theorem sliced_some {α : Type} {t t' : Trace α} {tw : TimeWindow} (htw : TimeWindow.Built tw) (hf : 0 < t.freq)
    (h : sliced t tw = .ok (some t')) : t'.freq = t.freq ∧ t'.stime ≤ tw.startTime ∧ tw.endTime ≤ t'.endTime := by
  obtain ⟨ok, u, hs, _, h1⟩ := Trace.trace_slice_sound t tw htw hf
  unfold sliced at h
  rw [hs] at h
  cases ok with
  | false => simp at h
  | true =>
    simp only [Outcome.ok.injEq, Option.some.injEq] at h
    subst h
    obtain ⟨a, b, c, _⟩ := h1 rfl
    exact ⟨a, b, c⟩

/-- the data source delivers traces with a positive sampling frequency and filtering does not change that -/
def Env.Sane (e : Env) : Prop :=
  (∀ tw ph t, e.load tw ph = some t → 0 < t.freq) ∧ ∀ s t t', e.wf s t = some t' → 0 < t.freq → 0 < t'.freq

theorem filter_freq {e : Env} (he : e.Sane) {t t' : Trace ℝ} {s : String} {f : ℚ} (h : filter e.wf t s f = some t')
    (hf : 0 < t.freq) : 0 < t'.freq := by
  have hd : 0 < (demean t).freq := hf
  have hr : 0 < (if f > 0 then resample (demean t) f else demean t).freq := by
    split
    · rename_i h0
      unfold resample
      split
      · exact hd
      · exact h0
    · exact hd
  unfold filter at h
  simp only at h
  split at h
  · exact he.2 _ _ _ h hr
  · injection h with h
    rw [← h]; exact hr

theorem loadAndProcess_spec {e : Env} (he : e.Sane) (tw : TimeWindow) (htw : TimeWindow.Built tw) (ph : Phase ℝ) (ch s : String)
    (f : ℚ) : ∃ r, loadAndProcess e tw ph ch s f = .ok r ∧
      ∀ t, r = some t → 0 < t.freq ∧ t.stime ≤ tw.startTime ∧ tw.endTime ≤ t.endTime := by
  unfold loadAndProcess
  cases hl : e.load (tw.extend e.extra e.extra) { ph with channelCode := ch } with
  | none => exact ⟨none, rfl, fun t h => by cases h⟩
  | some t =>
    cases hfl : filter e.wf t s f with
    | none => exact ⟨none, by simp [hfl], fun t h => by cases h⟩
    | some t' =>
      have hf := filter_freq he hfl (he.1 _ _ _ hl)
      simp only [hfl]
      cases hs : sliced t' tw with
      | ok r =>
        refine ⟨r, rfl, fun u hu => ?_⟩
        rw [hu] at hs
        obtain ⟨a, b, c⟩ := sliced_some htw hf hs
        exact ⟨a ▸ hf, b, c⟩
      | throws =>
        obtain ⟨r, hr⟩ := Batch.sliced_ok' t' hf htw
        rw [hs] at hr; cases hr
      | ub =>
        obtain ⟨r, hr⟩ := Batch.sliced_ok' t' hf htw
        rw [hs] at hr; cases hr

/-- **C66d.** For every request, whatever the data source delivers (with a positive sampling frequency), processing
does not misbehave: traces that reach the transforms always overlap.  A raw waveform that is returned covers
the requested window; a transformed one starts not after it. -/
theorem process_defined (e : Env) (he : e.Sane) (r : Request) (htw : TimeWindow.Built r.tw) :
    ∃ o, process e r = .ok o ∧ ∀ t, o = some t →
      t.stime ≤ r.tw.startTime ∧ (r.trans = .none → r.tw.endTime ≤ t.endTime) := by
  have hle := TimeWindow.timewindow_never_negative htw
  have hlp := fun ch => loadAndProcess_spec he r.tw htw r.ph ch r.filterStr r.resampleFreq
  have hsc : ∀ (s x : Int) (f : ℚ), s ≤ x → 0 < f → ∃ n, sampleCount s x f = .ok (n + 1) := by
    intro s x f h hf
    obtain ⟨n, hn, _⟩ := sampleCount_ok h hf
    exact ⟨n, hn⟩
  have rt : ∀ k, k ≠ Transform.none → k ≠ Transform.l2 → ∀ (names : Fin 3 → String) (tc : Components), ∃ o, (do
        let v ← loadAndProcess e r.tw r.ph (names 0) r.filterStr r.resampleFreq
        let h1 ← loadAndProcess e r.tw r.ph (names 1) r.filterStr r.resampleFreq
        let h2 ← loadAndProcess e r.tw r.ph (names (2 : Fin 3)) r.filterStr r.resampleFreq
        match v, h1, h2 with
        | some v, some h1, some h2 =>
          transformRT tc (stationAzimuth r.ev.latitude r.ev.longitude r.sta.latitude r.sta.longitude) v h1 h2 k
        | _, _, _ => Outcome.ok none) = .ok o ∧ ∀ t, o = some t → t.stime ≤ r.tw.startTime := by
    intro k _ _ names tc
    obtain ⟨rv, hv, qv⟩ := hlp (names 0)
    obtain ⟨r1, h1, q1⟩ := hlp (names 1)
    obtain ⟨r2, h2, q2⟩ := hlp (names 2)
    rw [hv, h1, h2]
    simp only [Outcome.bind_ok]
    match rv, r1, r2 with
    | none, _, _ => exact ⟨none, rfl, fun t h => by cases h⟩
    | some _, none, _ => exact ⟨none, rfl, fun t h => by cases h⟩
    | some _, some _, none => exact ⟨none, rfl, fun t h => by cases h⟩
    | some v, some t1, some t2 =>
      simp only
      obtain ⟨fv, sv, ev⟩ := qv v rfl
      obtain ⟨f1, s1, e1⟩ := q1 t1 rfl
      obtain ⟨f2, s2, e2⟩ := q2 t2 rfl
      have hst : ∀ az out, transformRT tc az v t1 t2 k = .ok (some out) → out.stime ≤ r.tw.startTime := by
        intro az out ho
        rw [(transform_rt_output_partial tc az v t1 t2 out k ho).1]
        exact s1
      have hok : ∀ az, ∃ o, transformRT tc az v t1 t2 k = .ok o := by
        intro az
        unfold transformRT
        split
        · exact ⟨none, rfl⟩
        · obtain ⟨n, hn⟩ := hsc (max (max t1.stime t2.stime) v.stime) (min (min t1.endTime t2.endTime) v.endTime) t1.freq
            (by omega) f1
          simp only [hn, Outcome.bind_ok]
          rw [if_neg (by omega)]
          split <;> exact ⟨_, rfl⟩
      obtain ⟨o, ho⟩ := hok (stationAzimuth r.ev.latitude r.ev.longitude r.sta.latitude r.sta.longitude)
      exact ⟨o, ho, fun t ht => hst _ t (by rw [ho, ht])⟩
  unfold process
  cases hk : r.trans with
  | none =>
    obtain ⟨o, ho, q⟩ := hlp r.ph.channelCode
    exact ⟨o, ho, fun t ht => ⟨(q t ht).2.1, fun _ => (q t ht).2.2⟩⟩
  | l2 =>
    simp only
    cases e.components r.ph with
    | none => exact ⟨none, rfl, fun t h => by cases h⟩
    | some x =>
      obtain ⟨names, tc⟩ := x
      simp only
      obtain ⟨r1, h1, q1⟩ := hlp (names 1)
      obtain ⟨r2, h2, q2⟩ := hlp (names 2)
      rw [h1, h2]
      simp only [Outcome.bind_ok]
      match r1, r2 with
      | none, _ => exact ⟨none, rfl, fun t h => by cases h⟩
      | some _, none => exact ⟨none, rfl, fun t h => by cases h⟩
      | some t1, some t2 =>
        simp only
        obtain ⟨f1, s1, e1⟩ := q1 t1 rfl
        obtain ⟨f2, s2, e2⟩ := q2 t2 rfl
        have hok : ∃ o, transformL2 t1 t2 = .ok o := by
          unfold transformL2
          split
          · exact ⟨none, rfl⟩
          · obtain ⟨n, hn⟩ := hsc (max t1.stime t2.stime) (min t1.endTime t2.endTime) t1.freq (by omega) f1
            simp only [hn, Outcome.bind_ok]
            rw [if_neg (by omega)]
            split <;> exact ⟨_, rfl⟩
        obtain ⟨o, ho⟩ := hok
        refine ⟨o, ho, fun t ht => ⟨?_, fun h => by cases h⟩⟩
        rw [ht] at ho
        rw [(transform_l2_output t1 t2 t ho).1]
        omega
  | transversal =>
    simp only
    cases e.components r.ph with
    | none => exact ⟨none, rfl, fun t h => by cases h⟩
    | some x =>
      obtain ⟨o, ho, q⟩ := rt .transversal (by decide) (by decide) x.1 x.2
      exact ⟨o, ho, fun t ht => ⟨q t ht, fun h => by cases h⟩⟩
  | radial =>
    simp only
    cases e.components r.ph with
    | none => exact ⟨none, rfl, fun t h => by cases h⟩
    | some x =>
      obtain ⟨o, ho, q⟩ := rt .radial (by decide) (by decide) x.1 x.2
      exact ⟨o, ho, fun t ht => ⟨q t ht, fun h => by cases h⟩⟩

example : Example.env.Sane ∧ TimeWindow.Built Example.second := by
  refine ⟨⟨?_, ?_⟩, TimeWindow.Built.ctor 0 1000000⟩
  · intro tw ph t h
    simp only [Example.env, Option.some.injEq] at h
    rw [← h]; norm_num
  · intro s t t' h hf
    simp only [Example.env] at h
    split at h
    · cases h
    · injection h with h; rw [← h]; exact hf

end Verif.Waveform
