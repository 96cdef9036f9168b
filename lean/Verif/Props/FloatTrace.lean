import Verif.Proofs.FloatTrace

/-!
# C122: cutting a trace, with the rounding of doubles
-/

namespace Verif.FloatTime
open Verif.DoubleSpec Verif.Double
variable {α : Type}

/-- **C122a.** C06 with the rounding of every operation on doubles, for sampling frequencies from 10⁻⁶ to 10⁶ Hz and traces of up
to 2^28 seconds (8 years).  `slice` never has undefined behaviour, and if it fails the trace is unchanged.  If it succeeds, the
result consists of consecutive samples of the trace, at their times to within a microsecond; it begins at or before the requested
window, ends at most one microsecond before the end of the window, and at either end at most one sample is kept beyond the
window, apart from one that lies on its border to within a quarter of a microsecond. -/
theorem float_slice_sound {fl : ℚ → ℚ} (h : Doubles fl) (t : Trace α) (tw : TimeWindow) (htw : TimeWindow.Built tw)
    (hf : Usual t.freq) (hl : ((t.data.length : ℚ) - 1) / t.freq ≤ 2 ^ 28) :
    ∃ ok t', slice fl t tw = some (ok, t') ∧ (ok = false → t' = t) ∧
      (ok = true →
        t'.freq = t.freq ∧ t'.stime ≤ tw.startTime ∧ (∃ e, endTime fl t' = some e ∧ tw.endTime ≤ e + 1) ∧
        ∃ k : ℕ, k + t'.data.length ≤ t.data.length ∧
          (∀ i < t'.data.length, t'.data[i]? = t.data[k + i]? ∧ |t'.sampleTime i - t.sampleTime (k + i)| ≤ 11 / 16) ∧
          (tw.startTime : ℚ) < t.sampleTime (k + 1) + 1 / 4 ∧
          t.sampleTime (((k : ℚ) + t'.data.length) - 2) < tw.endTime + 1 / 4) := by
  have hwf := TimeWindow.timewindow_never_negative htw
  have hf0 : 0 < t.freq := lt_of_lt_of_le (by norm_num) hf.1
  obtain ⟨e, he, hse, hcase⟩ := slice_cases (tw := tw) h hwf hf hl
  obtain ⟨d0, hd0, hd00, hd01, hdn, hdz⟩ := endTime_near h hf hl
  have hed : e = t.stime + d0 := by rw [he] at hd0; injection hd0
  rcases hcase with ⟨hc, hs⟩ | ⟨-, hs⟩ | ⟨-, hst, hen, k, m, hkm, hk, hm, ⟨-, hs⟩ | ⟨hmn, d, hd, hs⟩⟩
  · refine ⟨true, t, hs, by simp, fun _ => ⟨rfl, ?_, ⟨e, he, ?_⟩, 0, by omega, ?_, ?_, ?_⟩⟩
    · rw [← hc, mk'_eq hse]
    · rw [← hc, mk'_eq hse]; simp
    · intro i _
      simp only [Nat.cast_zero, zero_add, true_and, sub_self, abs_zero]
      norm_num
    · rw [← hc, mk'_eq hse]
      unfold Trace.sampleTime
      have : (0 : ℚ) < 1 / t.freq * 1000000 := by positivity
      simp only [Nat.cast_zero, zero_add]
      linarith
    · rw [← hc, mk'_eq hse]
      unfold Trace.sampleTime
      simp only [Nat.cast_zero, zero_add]
      rw [hed]
      push_cast
      by_cases hz : t.data.length = 0
      · rw [hdz hz, hz]
        have : (0 : ℚ) < 2 / t.freq * 1000000 := by positivity
        have e2 : ((0 : ℕ) - 2 : ℚ) / t.freq * 1000000 = -(2 / t.freq * 1000000) := by push_cast; ring
        rw [e2]
        push_cast
        linarith
      · have h2 := (hdn (by omega)).2
        have h3 : (1 : ℚ) ≤ 1 / t.freq * 1000000 := by
          rw [div_mul_eq_mul_div, le_div_iff₀ hf0]
          have := hf.2
          norm_num at this ⊢
          linarith
        have e3 : ((t.data.length : ℚ) - 2) / t.freq * 1000000 =
            ((t.data.length : ℚ) - 1) / t.freq * 1000000 - 1 / t.freq * 1000000 := by ring
        rw [e3]
        linarith
  · exact ⟨false, t, hs, fun _ => rfl, by simp⟩
  · exact ⟨false, t, hs, fun _ => rfl, by simp⟩
  · -- positions of the ends
    have ha0 : 0 ≤ tw.startTime - t.stime := by omega
    have hb0 : 0 ≤ tw.endTime - t.stime := by omega
    have hi1 := index_near h hf ha0 (by omega)
    have hi2 := index_near h hf hb0 (by omega)
    set a : ℚ := ((tw.startTime - t.stime : ℤ) : ℚ) with haq
    set b : ℚ := ((tw.endTime - t.stime : ℤ) : ℚ) with hbq
    have hab : a ≤ 2 ^ 48 ∧ b ≤ 2 ^ 48 ∧ 0 ≤ a ∧ 0 ≤ b := by
      refine ⟨?_, ?_, ?_, ?_⟩
      · rw [haq]; exact_mod_cast (by omega : tw.startTime - t.stime ≤ 2 ^ 48)
      · rw [hbq]; exact_mod_cast (by omega : tw.endTime - t.stime ≤ 2 ^ 48)
      · rw [haq]; exact_mod_cast ha0
      · rw [hbq]; exact_mod_cast hb0
    have hk1 : (k : ℚ) ≤ index fl t tw.startTime := by
      have := Int.floor_le (index fl t tw.startTime)
      rw [hk] at this
      exact_mod_cast this
    have hk2 : index fl t tw.startTime < k + 1 := by
      have := Int.lt_floor_add_one (index fl t tw.startTime)
      rw [hk] at this
      exact_mod_cast this
    have hm1 : index fl t tw.endTime ≤ m := by
      have := Int.le_ceil (index fl t tw.endTime)
      rw [hm] at this
      exact_mod_cast this
    have hm2 : (m : ℚ) - 1 < index fl t tw.endTime := by
      have := Int.ceil_lt_add_one (index fl t tw.endTime)
      rw [hm] at this
      have : (m : ℚ) < index fl t tw.endTime + 1 := by exact_mod_cast this
      linarith
    have conv : ∀ x y : ℚ, x ≤ y / 1000000 * t.freq → x / t.freq * 1000000 ≤ y := by
      intro x y hxy
      have := div_le_div_of_nonneg_right hxy hf0.le
      rw [mul_div_assoc, div_self hf0.ne', mul_one] at this
      linarith
    have conv' : ∀ x y : ℚ, y / 1000000 * t.freq ≤ x → y ≤ x / t.freq * 1000000 := by
      intro x y hxy
      have := div_le_div_of_nonneg_right hxy hf0.le
      rw [mul_div_assoc, div_self hf0.ne', mul_one] at this
      linarith
    have convl : ∀ x y : ℚ, y / 1000000 * t.freq < x → y < x / t.freq * 1000000 := by
      intro x y hxy
      have := div_lt_div_of_pos_right hxy hf0
      rw [mul_div_assoc, div_self hf0.ne', mul_one] at this
      linarith
    have convr : ∀ x y : ℚ, x < y / 1000000 * t.freq → x / t.freq * 1000000 < y := by
      intro x y hxy
      have := div_lt_div_of_pos_right hxy hf0
      rw [mul_div_assoc, div_self hf0.ne', mul_one] at this
      linarith
    have p1 : (k : ℚ) / t.freq * 1000000 ≤ a * (1 + 3 / 2 ^ 53) := by
      apply conv
      refine (hk1.trans hi1.2).trans (le_of_eq ?_)
      ring
    have p2 : a * (1 - 3 / 2 ^ 53) < ((k : ℚ) + 1) / t.freq * 1000000 := by
      apply convl
      refine lt_of_le_of_lt ?_ hk2
      refine le_trans (le_of_eq ?_) hi1.1
      ring
    have p3 : b * (1 - 3 / 2 ^ 53) ≤ (m : ℚ) / t.freq * 1000000 := by
      apply conv'
      refine le_trans ?_ hm1
      refine le_trans (le_of_eq ?_) hi2.1
      ring
    have p4 : ((m : ℚ) - 1) / t.freq * 1000000 < b * (1 + 3 / 2 ^ 53) := by
      apply convr
      refine lt_of_lt_of_le hm2 (hi2.2.trans (le_of_eq ?_))
      ring
    have q1 : (k : ℚ) / t.freq * 1000000 ≤ a + 3 / 16 := by linarith [hab.1, hab.2.1, hab.2.2.1, hab.2.2.2]
    have q2 : a - 3 / 16 < ((k : ℚ) + 1) / t.freq * 1000000 := by linarith [hab.1, hab.2.1, hab.2.2.1, hab.2.2.2]
    have q3 : b - 3 / 16 ≤ (m : ℚ) / t.freq * 1000000 := by linarith [hab.1, hab.2.1, hab.2.2.1, hab.2.2.2]
    have q4 : ((m : ℚ) - 1) / t.freq * 1000000 < b + 3 / 16 := by linarith [hab.1, hab.2.1, hab.2.2.1, hab.2.2.2]
    obtain ⟨d', hd', s1, s2, s3⟩ := sample_near h hf (k := (k : ℤ)) (by omega) (by
      push_cast
      linarith [hab.1])
    have hdd : d' = d := by
      push_cast at hd'
      rw [hd] at hd'
      injection hd' with hd'
      exact hd'.symm
    subst hdd
    push_cast at s1 s2 s3
    have hmf : ((m : ℚ) - k) / t.freq * 1000000 = (m : ℚ) / t.freq * 1000000 - (k : ℚ) / t.freq * 1000000 := by ring
    have hkpos : (0 : ℚ) ≤ (k : ℚ) / t.freq * 1000000 := by positivity
    have h1f : (0 : ℚ) < 1 / t.freq * 1000000 := by positivity
    have h1e : (1 : ℚ) / t.freq * 1000000 ≤ 10 ^ 12 := by
      rw [div_mul_eq_mul_div, div_le_iff₀ hf0]
      have := hf.1
      norm_num at this ⊢
      linarith
    have hmm : ((m : ℚ) - 1) / t.freq * 1000000 = (m : ℚ) / t.freq * 1000000 - 1 / t.freq * 1000000 := by ring
    obtain ⟨D, hD, r1, r2, -⟩ := sample_near h hf (k := (m : ℤ) - (k : ℤ)) (by omega) (by
      push_cast
      rw [hmf]
      linarith [hab.2.1])
    push_cast at hD r1 r2
    have hlen : ((t.data.drop k).take (m + 1 - k)).length = m + 1 - k := by
      rw [List.length_take, List.length_drop]
      omega
    refine ⟨true, _, hs, by simp, fun _ => ⟨rfl, ?_, ⟨t.stime + d' + D, ?_, ?_⟩, k, ?_, ?_, ?_, ?_⟩⟩
    · -- the start
      have := s3 (tw.startTime - t.stime) (by
        rw [← haq]
        linarith)
      simp only
      omega
    · unfold endTime
      rw [if_neg (by rw [hlen]; omega)]
      simp only [hlen]
      have e1 : (((m + 1 - k : ℕ) : ℚ) - 1) = (((m : ℤ) - (k : ℤ) : ℤ) : ℚ) := by
        rw [Nat.cast_sub (by omega)]
        push_cast
        ring
      rw [e1, fl_int h (by rw [abs_of_nonneg (by omega)]; have := length_bound hf hl; omega)]
      push_cast
      rw [hD]
      rfl
    · -- the end
      have : ((tw.endTime - t.stime - 2 : ℤ) : ℚ) < ((d' + D : ℤ) : ℚ) := by
        push_cast
        have : b = (tw.endTime : ℚ) - t.stime := by rw [hbq]; push_cast; rfl
        linarith
      have := Int.cast_lt.mp this
      omega
    · simp only [hlen]; omega
    · intro i hi
      simp only [hlen] at hi
      constructor
      · simp only
        rw [List.getElem?_take_of_lt hi, List.getElem?_drop]
      · unfold Trace.sampleTime
        simp only
        have e1 : ((t.stime + d' : ℤ) : ℚ) + (i : ℚ) / t.freq * 1000000 -
            ((t.stime : ℚ) + ((k : ℚ) + i) / t.freq * 1000000) = d' - (k : ℚ) / t.freq * 1000000 := by
          push_cast
          ring
        rw [e1, abs_le]
        constructor <;> linarith
    · unfold Trace.sampleTime
      have : a = (tw.startTime : ℚ) - t.stime := by rw [haq]; push_cast; rfl
      linarith
    · unfold Trace.sampleTime
      simp only [hlen]
      have e1 : ((k : ℚ) + ((m + 1 - k : ℕ) : ℚ)) - 2 = (m : ℚ) - 1 := by
        rw [Nat.cast_sub (by omega)]
        push_cast
        ring
      rw [e1]
      have : b = (tw.endTime : ℚ) - t.stime := by rw [hbq]; push_cast; rfl
      linarith

/-- at 100 Hz, ten samples from 290 ms on: the first one kept is sample 28 although sample 29 is on time, because 0.29 · 100 is
28.999999999999996 in doubles -/
theorem float_slice_keeps_extra :
    let t : Trace ℕ := ⟨1718409600000000, 100, List.range 100⟩
    (slice round64 t (TimeWindow.mk' 1718409600290000 1718409600380000)).map (fun r => (r.1, r.2.stime, r.2.data)) =
      some (true, 1718409600280000, [28, 29, 30, 31, 32, 33, 34, 35, 36, 37, 38]) ∧
    t.sampleTime 29 = 1718409600290000 := by decide +kernel

example : ∃ ok t', slice round64 (⟨1718409600000000, 100, List.range 100⟩ : Trace ℕ) (TimeWindow.mk' 1718409600290000 1718409600380000) =
    some (ok, t') ∧ ok = true ∧ t'.stime ≤ 1718409600290000 := by
  obtain ⟨ok, t', h, h1, h2⟩ := float_slice_sound (α := ℕ) round64_doubles ⟨1718409600000000, 100, List.range 100⟩
    (TimeWindow.mk' 1718409600290000 1718409600380000) (.ctor _ _) ⟨by norm_num, by norm_num⟩ (by norm_num)
  have h3 := float_slice_keeps_extra.1
  rw [h] at h3
  simp only [Option.map_some, Option.some.injEq, Prod.mk.injEq] at h3
  exact ⟨ok, t', h, h3.1, (h2 h3.1).2.1⟩

/-- The microsecond at the end is needed: at 640 Hz a window is cut off one microsecond early, because samples lie half way between
two microseconds and both conversions round down. -/
theorem float_slice_ends_early :
    let t : Trace ℕ := ⟨0, 640, List.range 100⟩
    let tw := TimeWindow.mk' 64063 128125
    ((slice round64 t tw).map (fun r => (r.1, endTime round64 r.2)) = some (true, some 128124)) ∧
    (t.slice tw).map (fun r => (r.1, decide (r.2.endTime < 128125))) = some (true, false) := by decide +kernel

/-- **C122b.** Slicing fails only if the window is not inside the trace, or ends on the last sample or after it (less than a
quarter of a microsecond before it). -/
theorem float_slice_complete_partial {fl : ℚ → ℚ} (h : Doubles fl) (t : Trace α) (tw : TimeWindow) (htw : TimeWindow.Built tw)
    (hf : Usual t.freq) (hl : ((t.data.length : ℚ) - 1) / t.freq ≤ 2 ^ 28) (hin : t.stime ≤ tw.startTime)
    (hlast : (tw.endTime : ℚ) ≤ t.sampleTime ((t.data.length : ℚ) - 1) - 1 / 4) :
    ∃ t', slice fl t tw = some (true, t') := by
  have hwf := TimeWindow.timewindow_never_negative htw
  have hf0 : 0 < t.freq := lt_of_lt_of_le (by norm_num) hf.1
  unfold Trace.sampleTime at hlast
  have hse : (t.stime : ℚ) ≤ tw.endTime := by exact_mod_cast hin.trans hwf
  obtain ⟨e, he, hse', hcase⟩ := slice_cases (tw := tw) h hwf hf hl
  obtain ⟨d0, hd0, hd00, hd01, hdn, hdz⟩ := endTime_near h hf hl
  have hed : e = t.stime + d0 := by rw [he] at hd0; injection hd0
  have hpos : 0 < t.data.length := by
    by_contra hc
    have hz : t.data.length = 0 := by omega
    rw [hz] at hlast
    have : (0 : ℚ) < 1 / t.freq * 1000000 := by positivity
    have e2 : (((0 : ℕ) : ℚ) - 1) / t.freq * 1000000 = -(1 / t.freq * 1000000) := by push_cast; ring
    rw [e2] at hlast
    linarith
  have hend : tw.endTime ≤ e := by
    have h2 := (hdn hpos).2
    have : ((tw.endTime : ℤ) : ℚ) < ((e + 1 : ℤ) : ℚ) := by
      rw [hed]
      push_cast
      linarith
    have := Int.cast_lt.mp this
    omega
  rcases hcase with ⟨-, hs⟩ | ⟨hc, -⟩ | ⟨-, -, -, k, m, -, -, hm, ⟨hge, -⟩ | ⟨-, d, -, hs⟩⟩
  · exact ⟨t, hs⟩
  · rw [mk'_eq hse'] at hc
    unfold TimeWindow.contains at hc
    simp [hin, hend] at hc
  · exfalso
    have hi2 := index_near h hf (d := tw.endTime - t.stime) (by omega) (by omega)
    set b : ℚ := ((tw.endTime - t.stime : ℤ) : ℚ) with hbq
    have hb : b = (tw.endTime : ℚ) - t.stime := by rw [hbq]; push_cast; rfl
    have hb48 : b ≤ 2 ^ 48 := by rw [hbq]; exact_mod_cast (by omega : tw.endTime - t.stime ≤ 2 ^ 48)
    have h1 : b * (1 + 3 / 2 ^ 53) ≤ ((t.data.length : ℚ) - 1) / t.freq * 1000000 := by linarith
    have h2 : index fl t tw.endTime ≤ (t.data.length : ℚ) - 1 := by
      refine hi2.2.trans ?_
      have e1 : b / 1000000 * t.freq * (1 + 3 / 2 ^ 53) = b * (1 + 3 / 2 ^ 53) / 1000000 * t.freq := by ring
      rw [e1]
      have e3 : (t.data.length : ℚ) - 1 = ((t.data.length : ℚ) - 1) / t.freq * 1000000 / 1000000 * t.freq := by field_simp
      rw [e3]
      exact mul_le_mul_of_nonneg_right (div_le_div_of_nonneg_right h1 (by norm_num)) hf0.le
    have h3 : ⌈index fl t tw.endTime⌉ ≤ (t.data.length : ℤ) - 1 := by
      rw [Int.ceil_le]
      push_cast
      exact h2
    omega
  · exact ⟨_, hs⟩

example : ∃ t', slice round64 (⟨1718409600000000, 100, List.range 100⟩ : Trace ℕ)
    (TimeWindow.mk' 1718409600070000 1718409600989999) = some (true, t') :=
  float_slice_complete_partial round64_doubles _ _ (.ctor _ _) ⟨by norm_num, by norm_num⟩ (by norm_num) (by decide) (by decide +kernel)

/-- **The last sample can be refused**: at 100 Hz the window from the second to the last of eight samples is inside the trace, and in
exact arithmetic it is cut out, but in doubles 0.07 · 100 is 7.000000000000001 and slicing fails. -/
theorem float_slice_refuses_last_sample :
    let t : Trace ℕ := ⟨0, 100, List.range 8⟩
    let tw := TimeWindow.mk' 10000 70000
    endTime round64 t = some 70000 ∧ t.sampleTime 7 = 70000 ∧
    (slice round64 t tw).map (fun r => (r.1, r.2.data)) = some (false, List.range 8) ∧
    (t.slice tw).map (fun r => (r.1, r.2.data)) = some (true, [1, 2, 3, 4, 5, 6, 7]) := by decide +kernel

end Verif.FloatTime
