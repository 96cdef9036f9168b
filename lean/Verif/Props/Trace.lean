import Verif.Model.Trace
import Verif.Props.TimeWindow

/-!
# C06: slicing a trace
-/

namespace Verif.Trace
variable {α : Type}

/-- the exact instant (in microseconds) of sample `i` -/
def sampleTime (t : Trace α) (i : ℚ) : ℚ := (t.stime : ℚ) + i / t.freq * 1000000

theorem index_le_iff {t : Trace α} (hf : 0 < t.freq) (x : Int) (i : ℚ) :
    t.index x ≤ i ↔ (x : ℚ) ≤ t.sampleTime i := by
  unfold index durToSec sampleTime
  push_cast
  rw [div_mul_eq_mul_div, div_le_iff₀ (by norm_num : (0 : ℚ) < 1000000),
    ← le_div_iff₀ hf]
  have : i * 1000000 / t.freq = i / t.freq * 1000000 := by ring
  rw [this]
  constructor <;> intro h <;> linarith

theorem le_index_iff {t : Trace α} (hf : 0 < t.freq) (x : Int) (i : ℚ) :
    i ≤ t.index x ↔ t.sampleTime i ≤ (x : ℚ) := by
  unfold index durToSec sampleTime
  push_cast
  rw [div_mul_eq_mul_div, le_div_iff₀ (by norm_num : (0 : ℚ) < 1000000),
    ← div_le_iff₀ hf]
  have : i * 1000000 / t.freq = i / t.freq * 1000000 := by ring
  rw [this]
  constructor <;> intro h <;> linarith

/-- all that `slice` does when it neither returns early nor fails -/
theorem slice_cases (t : Trace α) (tw : TimeWindow) (htw : tw.startTime ≤ tw.endTime)
    (hf : 0 < t.freq) :
    (t.timeWindow = tw ∧ t.slice tw = some (true, t)) ∨
    (t.timeWindow ≠ tw ∧ t.timeWindow.contains tw = false ∧ t.slice tw = some (false, t)) ∨
    (t.timeWindow ≠ tw ∧ t.timeWindow.contains tw = true ∧
      0 ≤ ⌊t.index tw.startTime⌋ ∧ ⌊t.index tw.startTime⌋ ≤ ⌈t.index tw.endTime⌉ ∧
      ((t.data.length : Int) ≤ ⌈t.index tw.endTime⌉ ∧ t.slice tw = some (false, t) ∨
       ⌈t.index tw.endTime⌉ < (t.data.length : Int) ∧
        t.slice tw = some (true,
          { t with
            stime := t.stime + secToDur (((⌊t.index tw.startTime⌋ : Int) : ℚ) / t.freq)
            data := (t.data.drop (⌊t.index tw.startTime⌋).toNat).take
              (⌈t.index tw.endTime⌉ + 1 - ⌊t.index tw.startTime⌋).toNat }))) := by
  unfold slice
  by_cases h1 : t.timeWindow = tw
  · left; exact ⟨h1, by rw [if_pos h1]⟩
  right
  by_cases h2 : t.timeWindow.contains tw = false
  · left; exact ⟨h1, h2, by rw [if_neg h1, if_pos h2]⟩
  right
  have h2' : t.timeWindow.contains tw = true := by simpa using h2
  have hst : t.stime ≤ tw.startTime := by
    have : t.timeWindow.startTime = t.stime := by
      unfold timeWindow TimeWindow.mk' TimeWindow.setEndTime; split <;> rfl
    simp only [TimeWindow.contains, ge_iff_le, this] at h2'
    have := of_decide_eq_true h2'
    exact this.1
  have h0 : (0 : ℚ) ≤ t.index tw.startTime := by
    rw [le_index_iff hf]; unfold sampleTime; simp; exact_mod_cast hst
  have h0' : 0 ≤ ⌊t.index tw.startTime⌋ := Int.floor_nonneg.2 h0
  have hmono : t.index tw.startTime ≤ t.index tw.endTime := by
    unfold index durToSec
    have : ((tw.startTime - t.stime : Int) : ℚ) ≤ ((tw.endTime - t.stime : Int) : ℚ) := by
      exact_mod_cast (by omega)
    gcongr
  have hle : ⌊t.index tw.startTime⌋ ≤ ⌈t.index tw.endTime⌉ :=
    le_trans (Int.floor_le_floor hmono) (Int.floor_le_ceil _)
  refine ⟨h1, h2', h0', hle, ?_⟩
  simp only
  rw [if_neg h1, if_neg h2, if_neg (by omega)]
  by_cases h3 : ⌈t.index tw.endTime⌉ ≥ (t.data.length : Int)
  · left; exact ⟨h3, by rw [if_pos h3]⟩
  · right
    refine ⟨by omega, ?_⟩
    rw [if_neg h3, if_pos (by omega)]

/-- **C06a.** `slice` never leaves the data (no undefined behaviour).  If it fails the trace is
unchanged.  If it succeeds the result keeps the sampling frequency, covers the requested window,
consists of consecutive original samples `k, k+1, …`, whose exact times it preserves up to the half
microsecond of clock rounding, and not more than one sample is kept beyond either end of the
window. -/
theorem trace_slice_sound (t : Trace α) (tw : TimeWindow) (htw : TimeWindow.Built tw)
    (hf : 0 < t.freq) :
    ∃ ok t', t.slice tw = some (ok, t') ∧ (ok = false → t' = t) ∧
      (ok = true →
        t'.freq = t.freq ∧ t'.stime ≤ tw.startTime ∧ tw.endTime ≤ t'.endTime ∧
        ∃ k : ℕ, k + t'.data.length ≤ t.data.length ∧
          (∀ i < t'.data.length, t'.data[i]? = t.data[k + i]? ∧
            |t'.sampleTime i - t.sampleTime (k + i)| ≤ 1 / 2) ∧
          (tw.startTime : ℚ) < t.sampleTime (k + 1) ∧
          t.sampleTime (((k : ℚ) + t'.data.length) - 2) < tw.endTime + 1 / 2) := by
  have htw' := TimeWindow.timewindow_never_negative htw
  rcases slice_cases t tw htw' hf with ⟨h1, h⟩ | ⟨_, _, h⟩ | ⟨_, _, h0, hle, ⟨_, h⟩ | ⟨hlen, h⟩⟩
  · refine ⟨true, t, h, by simp, fun _ => ⟨rfl, ?_, ?_, 0, by simp, ?_, ?_, ?_⟩⟩
    · rw [← h1]; unfold timeWindow TimeWindow.mk' TimeWindow.setEndTime; split <;> simp
    · rw [← h1]
      have hend : t.stime ≤ t.endTime := by
        unfold endTime; split
        · exact le_rfl
        · rename_i hn
          have : (0 : ℚ) ≤ ((t.data.length : ℚ) - 1) / t.freq * 1000000 := by
            have : (1 : ℚ) ≤ (t.data.length : ℚ) := by exact_mod_cast Nat.one_le_iff_ne_zero.2 hn
            have : (0 : ℚ) ≤ (t.data.length : ℚ) - 1 := by linarith
            positivity
          have := cround_nonneg this
          unfold secToDur; omega
      unfold timeWindow TimeWindow.mk' TimeWindow.setEndTime; split <;> simp_all
    · intro i hi; simp
    · rw [← h1]
      have : t.timeWindow.startTime = t.stime := by
        unfold timeWindow TimeWindow.mk' TimeWindow.setEndTime; split <;> rfl
      rw [this]; unfold sampleTime
      have : (0 : ℚ) < 1 / t.freq * 1000000 := by positivity
      simpa using this
    · rw [← h1]
      have hge : t.endTime ≤ t.timeWindow.endTime := by
        unfold timeWindow TimeWindow.mk' TimeWindow.setEndTime; split
        · rename_i hlt; simp only at hlt ⊢; omega
        · exact le_rfl
      have hge' : (t.endTime : ℚ) ≤ (t.timeWindow.endTime : ℚ) := by exact_mod_cast hge
      have key : t.sampleTime ((t.data.length : ℚ) - 2) < (t.endTime : ℚ) + 1 / 2 := by
        unfold sampleTime endTime secToDur
        split
        · rename_i hn
          rw [hn]
          have : ((0 : ℕ) : ℚ) - 2 < 0 := by norm_num
          have : (((0 : ℕ) : ℚ) - 2) / t.freq * 1000000 < 0 :=
            mul_neg_of_neg_of_pos (div_neg_of_neg_of_pos this hf) (by norm_num)
          linarith
        · have hr := sub_half_le_cround (((t.data.length : ℚ) - 1) / t.freq * 1000000)
          have : ((t.data.length : ℚ) - 2) / t.freq * 1000000
              < ((t.data.length : ℚ) - 1) / t.freq * 1000000 := by
            have : ((t.data.length : ℚ) - 2) / t.freq < ((t.data.length : ℚ) - 1) / t.freq := by
              apply div_lt_div_of_pos_right _ hf; linarith
            linarith
          push_cast; linarith
      have : (((0 : ℕ) : ℚ) + (t.data.length : ℚ)) - 2 = (t.data.length : ℚ) - 2 := by simp
      rw [this]; linarith
  · exact ⟨false, t, h, fun _ => rfl, by simp⟩
  · exact ⟨false, t, h, fun _ => rfl, by simp⟩
  · refine ⟨true, _, h, by simp, fun _ => ⟨rfl, ?_, ?_, (⌊t.index tw.startTime⌋).toNat, ?_, ?_, ?_,
      ?_⟩⟩
    all_goals
      obtain ⟨a, ha⟩ := Int.eq_ofNat_of_zero_le h0
      obtain ⟨b, hb⟩ := Int.eq_ofNat_of_zero_le (le_trans h0 hle)
      simp only [ha, hb] at h0 hle hlen ⊢
      have hfl : (a : ℚ) ≤ t.index tw.startTime := by
        have := Int.floor_le (t.index tw.startTime); rw [ha] at this; simpa using this
      have hfl' : t.index tw.startTime < (a : ℚ) + 1 := by
        have := Int.lt_floor_add_one (t.index tw.startTime); rw [ha] at this; simpa using this
      have hce : t.index tw.endTime ≤ (b : ℚ) := by
        have := Int.le_ceil (t.index tw.endTime); rw [hb] at this; simpa using this
      have hce' : (b : ℚ) - 1 < t.index tw.endTime := by
        have := Int.ceil_lt_add_one (t.index tw.endTime); rw [hb] at this
        have : (b : ℚ) < t.index tw.endTime + 1 := by simpa using this
        linarith
      have hab : a ≤ b := by omega
      have hbl : b < t.data.length := by omega
      have hlen' : ((t.data.drop a).take (b + 1 - a)).length = b + 1 - a := by
        simp; omega
      have htn : ((b : Int) + 1 - (a : Int)).toNat = b + 1 - a := by omega
      try simp only [Int.toNat_natCast, htn, hlen']
    · have h1 : t.sampleTime a ≤ tw.startTime := (le_index_iff hf _ _).1 hfl
      unfold sampleTime at h1
      have h2 : (a : ℚ) / t.freq * 1000000 ≤ ((tw.startTime - t.stime : Int) : ℚ) := by
        push_cast; linarith
      have := cround_le_of_le_int h2
      unfold secToDur; push_cast; omega
    · have h1 : (tw.endTime : ℚ) ≤ t.sampleTime b := (index_le_iff hf _ _).1 hce
      unfold sampleTime at h1
      simp only [endTime, Int.toNat_natCast, htn, hlen']
      rw [if_neg (by omega)]
      simp only [secToDur]
      have hx : (0 : ℚ) ≤ (a : ℚ) / t.freq * 1000000 := by positivity
      have hy : (0 : ℚ) ≤ (((b + 1 - a : ℕ) : ℚ) - 1) / t.freq * 1000000 := by
        have : (1 : ℚ) ≤ ((b + 1 - a : ℕ) : ℚ) := by exact_mod_cast (by omega : 1 ≤ b + 1 - a)
        have : (0 : ℚ) ≤ ((b + 1 - a : ℕ) : ℚ) - 1 := by linarith
        positivity
      have hxy : (a : ℚ) / t.freq * 1000000 + (((b + 1 - a : ℕ) : ℚ) - 1) / t.freq * 1000000
          = (b : ℚ) / t.freq * 1000000 := by
        rw [Nat.cast_sub (by omega)]; push_cast; ring
      have r1 := sub_half_lt_cround hx
      have r2 := sub_half_lt_cround hy
      have : (tw.endTime : ℚ) < (t.stime : ℚ) + cround ((a : ℚ) / t.freq * 1000000)
          + cround ((((b + 1 - a : ℕ) : ℚ) - 1) / t.freq * 1000000) + 1 := by linarith
      have : tw.endTime < t.stime + cround ((a : ℚ) / t.freq * 1000000)
          + cround ((((b + 1 - a : ℕ) : ℚ) - 1) / t.freq * 1000000) + 1 := by exact_mod_cast this
      push_cast at *
      omega
    · omega
    · intro i hi
      refine ⟨?_, ?_⟩
      · rw [List.getElem?_take, if_pos (by omega), List.getElem?_drop]
      · unfold sampleTime secToDur
        simp only
        have r1 := sub_half_le_cround ((a : ℚ) / t.freq * 1000000)
        have r2 := cround_le_add_half ((a : ℚ) / t.freq * 1000000)
        have : ((a : ℚ) + i) / t.freq * 1000000
            = (a : ℚ) / t.freq * 1000000 + (i : ℚ) / t.freq * 1000000 := by ring
        rw [this]
        push_cast
        rw [abs_le]
        constructor <;> linarith
    · have := (le_index_iff hf tw.startTime ((a : ℚ) + 1)).not.1 (by linarith)
      linarith
    · have := (index_le_iff hf tw.endTime ((b : ℚ) - 1)).not.1 (by linarith)
      have e : ((a : ℚ) + ((b + 1 - a : ℕ) : ℚ)) - 2 = (b : ℚ) - 1 := by
        rw [Nat.cast_sub (by omega)]; push_cast; ring
      rw [e]; linarith

/-- the trace of 11 samples at 100 Hz starting at 1 s, sliced between 1.021 s and 1.052 s -/
example : (Trace.slice ⟨1000000, 100, [0,1,2,3,4,5,6,7,8,9,10]⟩ (TimeWindow.mk' 1021000 1052000))
    = some (true, ⟨1020000, 100, [2,3,4,5,6]⟩) := by decide +kernel

/-- **C06b.** When slicing fails: the window is not inside the trace, or the window ends after the
last sample (which a window inside the trace can do by at most half a microsecond, because the
trace's end time is rounded to the clock). -/
theorem trace_slice_complete_partial (t : Trace α) (tw : TimeWindow) (htw : TimeWindow.Built tw)
    (hf : 0 < t.freq) (hin : t.timeWindow.contains tw = true)
    (hlast : (tw.endTime : ℚ) ≤ t.sampleTime ((t.data.length : ℚ) - 1)) :
    ∃ t', t.slice tw = some (true, t') := by
  have htw' := TimeWindow.timewindow_never_negative htw
  rcases slice_cases t tw htw' hf with ⟨h1, h⟩ | ⟨_, hc, _⟩ | ⟨_, _, h0, hle, ⟨hl, _⟩ | ⟨hlen, h⟩⟩
  · exact ⟨_, h⟩
  · rw [hin] at hc; cases hc
  · exfalso
    have h1 := (index_le_iff hf tw.endTime ((t.data.length : ℚ) - 1)).2 hlast
    have h2 : ⌈t.index tw.endTime⌉ ≤ (t.data.length : Int) - 1 := by
      rw [Int.ceil_le]; push_cast; exact h1
    omega
  · exact ⟨_, h⟩

/-- In particular slicing any window inside the trace succeeds whenever the duration of the trace
is a whole number of microseconds (100 Hz, 200 Hz, 250 Hz, …). -/
theorem trace_slice_complete_exact_partial (t : Trace α) (tw : TimeWindow)
    (htw : TimeWindow.Built tw) (hf : 0 < t.freq) (hne : t.data ≠ []) (d : Int)
    (hd : ((t.data.length : ℚ) - 1) / t.freq * 1000000 = d)
    (hin : t.timeWindow.contains tw = true) : ∃ t', t.slice tw = some (true, t') := by
  have hlen : t.data.length ≠ 0 := by simpa using hne
  refine trace_slice_complete_partial t tw htw hf hin ?_
  have hend : t.endTime = t.stime + d := by
    unfold endTime secToDur; rw [if_neg hlen, hd, cround_intCast]
  have hd0 : 0 ≤ d := by
    have : (0 : ℚ) ≤ ((t.data.length : ℚ) - 1) / t.freq * 1000000 := by
      have : (1 : ℚ) ≤ (t.data.length : ℚ) := by exact_mod_cast Nat.one_le_iff_ne_zero.2 hlen
      have : (0 : ℚ) ≤ (t.data.length : ℚ) - 1 := by linarith
      positivity
    rw [hd] at this; exact_mod_cast this
  have hw : t.timeWindow.endTime = t.stime + d := by
    unfold timeWindow TimeWindow.mk' TimeWindow.setEndTime
    rw [hend, if_neg (by simp; omega)]
  have := of_decide_eq_true hin
  rw [hw] at this
  unfold sampleTime; rw [hd]
  exact_mod_cast this.2

example : (((11 : ℕ) : ℚ) - 1) / 100 * 1000000 = ((100000 : Int) : ℚ) := by norm_num

/-- **C06 as stated is false**: at 128 Hz a trace of two samples ends at 7812.5 µs, reported as
7813 µs.  The window from 1 µs to the reported end is inside the trace, yet slicing it fails. -/
theorem trace_slice_fails_inside :
    let t : Trace ℕ := ⟨0, 128, [10, 20]⟩
    let tw := TimeWindow.mk' 1 t.endTime
    t.timeWindow.contains tw = true ∧ t.slice tw = some (false, t) := by decide +kernel

/-- `setEndTime` moves the trace so that it ends at the given time. -/
theorem trace_setEndTime (t : Trace α) (time : Int) :
    (t.setEndTime time).endTime = time ∧ (t.setEndTime time).data = t.data := by
  refine ⟨?_, rfl⟩
  unfold setEndTime endTime
  simp only
  split <;> omega

end Verif.Trace
