import Verif.Proofs.FloatTime

/-!
# Rounding errors of the positions of samples
-/

namespace Verif.FloatTime
open Verif.DoubleSpec

variable {fl : ℚ → ℚ} {α : Type}

/-- one rounding of a number that is neither tiny nor huge, or zero -/
theorem fl_rel (h : Doubles fl) {x : ℚ} (hx : x = 0 ∨ (2 : ℚ) ^ (-1022 : ℤ) ≤ x) (hhi : x ≤ 2 ^ (1023 : ℤ)) :
    x * (1 - 1 / 2 ^ 53) ≤ fl x ∧ fl x ≤ x * (1 + 1 / 2 ^ 53) := by
  rcases hx with rfl | hx
  · rw [fl_zero h]; simp
  · have h0 : 0 < x := lt_of_lt_of_le (by positivity) hx
    have := fl_relative h (x := x) (hx.trans (abs_of_pos h0).ge) ((abs_of_pos h0).le.trans hhi)
    rw [abs_of_pos h0, abs_le] at this
    constructor <;> nlinarith [this.1, this.2]

theorem tiny : (2 : ℚ) ^ (-1022 : ℤ) ≤ 1 / 10 ^ 30 := by
  have : (2 : ℚ) ^ (-1022 : ℤ) ≤ 2 ^ (-100 : ℤ) := zpow_le_zpow_right₀ (by norm_num) (by norm_num)
  refine this.trans ?_
  norm_num

theorem huge : (10 : ℚ) ^ 60 ≤ 2 ^ (1023 : ℤ) := by
  have : (2 : ℚ) ^ (200 : ℤ) ≤ 2 ^ (1023 : ℤ) := zpow_le_zpow_right₀ (by norm_num) (by norm_num)
  refine le_trans ?_ this
  norm_num

/-- the position of a time in a trace -/
theorem index_near (h : Doubles fl) {f : ℚ} (hf : Usual f) {d : ℤ} (h0 : 0 ≤ d) (hd : d ≤ 2 ^ 49) :
    (d : ℚ) / 1000000 * f * (1 - 3 / 2 ^ 53) ≤ fl (durToSec fl d * f) ∧
    fl (durToSec fl d * f) ≤ (d : ℚ) / 1000000 * f * (1 + 3 / 2 ^ 53) := by
  obtain ⟨hf1, hf2⟩ := hf
  have hf0 : 0 < f := lt_of_lt_of_le (by norm_num) hf1
  rcases h0.eq_or_lt with h0 | h0
  · subst h0
    unfold durToSec
    have := fl_zero h
    norm_num [this]
  · have hdq : (1 : ℚ) ≤ d := by exact_mod_cast h0
    have hdq2 : (d : ℚ) ≤ 2 ^ 49 := by exact_mod_cast hd
    have e1 := tiny
    have e2 := huge
    unfold durToSec
    rw [fl_int h (by rw [abs_of_pos h0]; omega)]
    have r1 := fl_rel h (x := (d : ℚ) / 1000000) (Or.inr (by
      refine e1.trans ?_
      rw [le_div_iff₀ (by norm_num)]
      norm_num at *
      linarith)) (by
      refine le_trans ?_ e2
      rw [div_le_iff₀ (by norm_num)]
      norm_num at *
      linarith)
    set s := fl ((d : ℚ) / 1000000) with hs
    have hs1 : 1 / 10 ^ 7 ≤ s := by
      refine le_trans ?_ r1.1
      norm_num
      linarith
    have hs2 : s ≤ 10 ^ 15 := by
      refine r1.2.trans ?_
      norm_num at *
      linarith
    have hlo : (1 : ℚ) / 10 ^ 13 ≤ s * f := by
      calc (1 : ℚ) / 10 ^ 13 = 1 / 10 ^ 7 * (1 / 10 ^ 6) := by norm_num
        _ ≤ s * f := mul_le_mul hs1 hf1 (by norm_num) (by linarith [show (0 : ℚ) ≤ 1 / 10 ^ 7 by norm_num])
    have hhi : s * f ≤ 10 ^ 21 := by
      calc s * f ≤ 10 ^ 15 * 10 ^ 6 := mul_le_mul hs2 hf2 hf0.le (by norm_num)
        _ = 10 ^ 21 := by norm_num
    have r2 := fl_rel h (x := s * f) (Or.inr (by
      refine e1.trans (le_trans ?_ hlo)
      norm_num)) (by
      refine hhi.trans (le_trans ?_ e2)
      norm_num)
    have hp : 0 < (d : ℚ) / 1000000 * f := by positivity
    constructor
    · refine le_trans ?_ r2.1
      have : (d : ℚ) / 1000000 * (1 - 1 / 2 ^ 53) * f ≤ s * f := mul_le_mul_of_nonneg_right r1.1 hf0.le
      have h3 : (d : ℚ) / 1000000 * (1 - 1 / 2 ^ 53) * f * (1 - 1 / 2 ^ 53) ≤ s * f * (1 - 1 / 2 ^ 53) :=
        mul_le_mul_of_nonneg_right this (by norm_num)
      refine le_trans ?_ h3
      have : (d : ℚ) / 1000000 * (1 - 1 / 2 ^ 53) * f * (1 - 1 / 2 ^ 53) =
          (d : ℚ) / 1000000 * f * ((1 - 1 / 2 ^ 53) * (1 - 1 / 2 ^ 53)) := by ring
      rw [this]
      apply mul_le_mul_of_nonneg_left _ hp.le
      norm_num
    · refine r2.2.trans ?_
      have : s * f ≤ (d : ℚ) / 1000000 * (1 + 1 / 2 ^ 53) * f := mul_le_mul_of_nonneg_right r1.2 hf0.le
      have h3 : s * f * (1 + 1 / 2 ^ 53) ≤ (d : ℚ) / 1000000 * (1 + 1 / 2 ^ 53) * f * (1 + 1 / 2 ^ 53) :=
        mul_le_mul_of_nonneg_right this (by norm_num)
      refine h3.trans ?_
      have : (d : ℚ) / 1000000 * (1 + 1 / 2 ^ 53) * f * (1 + 1 / 2 ^ 53) =
          (d : ℚ) / 1000000 * f * ((1 + 1 / 2 ^ 53) * (1 + 1 / 2 ^ 53)) := by ring
      rw [this]
      apply mul_le_mul_of_nonneg_left _ hp.le
      norm_num

/-- the microseconds of a number of samples -/
theorem sample_near (h : Doubles fl) {f : ℚ} (hf : Usual f) {k : ℤ} (h0 : 0 ≤ k) (hk : (k : ℚ) / f * 1000000 ≤ 2 ^ 49) :
    ∃ d, secToDur fl (fl ((k : ℚ) / f)) = some d ∧ (d : ℚ) ≤ (k : ℚ) / f * 1000000 + 1 / 2 + 3 / 16 ∧
      (k : ℚ) / f * 1000000 - 1 / 2 - 3 / 16 ≤ d ∧ (∀ n : ℤ, (k : ℚ) / f * 1000000 ≤ n + 1 / 4 → d ≤ n) := by
  obtain ⟨hf1, hf2⟩ := hf
  have hf0 : 0 < f := lt_of_lt_of_le (by norm_num) hf1
  have key : (k : ℚ) / f * 1000000 - 3 / 16 ≤ fl (fl ((k : ℚ) / f) * 1000000) ∧
      fl (fl ((k : ℚ) / f) * 1000000) ≤ (k : ℚ) / f * 1000000 + 3 / 16 := by
    rcases h0.eq_or_lt with h0 | h0
    · subst h0
      have := fl_zero h
      norm_num [this]
    · have hkq : (1 : ℚ) ≤ k := by exact_mod_cast h0
      have e1 := tiny
      have e2 := huge
      have hlo : (1 : ℚ) / 10 ^ 6 ≤ k / f := by
        rw [le_div_iff₀ hf0]
        linarith
      have r1 := fl_rel h (x := (k : ℚ) / f) (Or.inr (by
        refine e1.trans (le_trans ?_ hlo)
        norm_num)) (by
        refine le_trans ?_ e2
        norm_num at *
        linarith)
      set x := (k : ℚ) / f with hx
      set s := fl x with hs
      have r2 := fl_rel h (x := s * 1000000) (Or.inr (by
        refine e1.trans ?_
        norm_num at *
        linarith)) (by
        refine le_trans ?_ e2
        norm_num at *
        linarith)
      norm_num at *
      constructor
      · nlinarith [r1.1, r2.1]
      · nlinarith [r1.2, r2.2]
  have h1 := cround_le_add_half (fl (fl ((k : ℚ) / f) * 1000000))
  have h2 := sub_half_le_cround (fl (fl ((k : ℚ) / f) * 1000000))
  have hpos : 0 ≤ (k : ℚ) / f * 1000000 := by
    have : (0 : ℚ) ≤ k := by exact_mod_cast h0
    positivity
  refine ⟨cround (fl (fl ((k : ℚ) / f) * 1000000)), ?_, by linarith [key.2], by linarith [key.1], ?_⟩
  · unfold secToDur
    simp only
    have b1 : ((cround (fl (fl ((k : ℚ) / f) * 1000000)) : ℤ) : ℚ) < ((2 ^ 63 : ℤ) : ℚ) := by
      norm_num at *
      linarith [key.2]
    have b2 : ((-1 : ℤ) : ℚ) < ((cround (fl (fl ((k : ℚ) / f) * 1000000)) : ℤ) : ℚ) := by
      norm_num at *
      linarith [key.1]
    have c1 := Int.cast_lt.mp b1
    have c2 := Int.cast_lt.mp b2
    rw [if_pos (by omega)]
  · intro n hn
    have : ((cround (fl (fl ((k : ℚ) / f) * 1000000)) : ℤ) : ℚ) < ((n + 1 : ℤ) : ℚ) := by
      push_cast
      have := cround_le_add_half (fl (fl ((k : ℚ) / f) * 1000000))
      linarith [key.2]
    have := Int.cast_lt.mp this
    omega

end Verif.FloatTime

namespace Verif.FloatTime
open Verif.DoubleSpec

variable {fl : ℚ → ℚ} {α : Type}

theorem mk'_eq {s e : Int} (h : s ≤ e) : TimeWindow.mk' s e = ⟨s, e⟩ := by
  unfold TimeWindow.mk' TimeWindow.setEndTime
  rw [if_neg (by simpa using h)]

theorem length_bound {t : Trace α} (hf : Usual t.freq) (hl : ((t.data.length : ℚ) - 1) / t.freq ≤ 2 ^ 28) :
    (t.data.length : ℤ) ≤ 2 ^ 49 := by
  have hf0 : 0 < t.freq := lt_of_lt_of_le (by norm_num) hf.1
  rw [div_le_iff₀ hf0] at hl
  have h2 := hf.2
  have : (t.data.length : ℚ) ≤ 2 ^ 49 := by linarith
  exact_mod_cast this

/-- the end of a trace -/
theorem endTime_near (h : Doubles fl) {t : Trace α} (hf : Usual t.freq) (hl : ((t.data.length : ℚ) - 1) / t.freq ≤ 2 ^ 28) :
    ∃ d, endTime fl t = some (t.stime + d) ∧ 0 ≤ d ∧ d ≤ 2 ^ 48 ∧
      (0 < t.data.length → (d : ℚ) ≤ ((t.data.length : ℚ) - 1) / t.freq * 1000000 + 11 / 16 ∧
        ((t.data.length : ℚ) - 1) / t.freq * 1000000 - 11 / 16 ≤ d) ∧ (t.data.length = 0 → d = 0) := by
  unfold endTime
  by_cases h0 : t.data.length = 0
  · rw [if_pos h0]
    exact ⟨0, by simp, le_rfl, by norm_num, by omega, fun _ => rfl⟩
  · rw [if_neg h0]
    have hn := length_bound hf hl
    have e : ((t.data.length : ℚ) - 1) = (((t.data.length : ℤ) - 1 : ℤ) : ℚ) := by push_cast; rfl
    rw [e, fl_int h (by rw [abs_of_nonneg (by omega)]; omega)]
    rw [e] at hl
    obtain ⟨d, hd, h1, h2, h3⟩ := sample_near h hf (k := (t.data.length : ℤ) - 1) (by omega) (by
      norm_num at hl ⊢
      linarith)
    refine ⟨d, by rw [hd]; rfl, ?_, ?_, fun _ => ⟨by linarith, by linarith⟩, fun hc => absurd hc h0⟩
    · have hf0 : 0 < t.freq := lt_of_lt_of_le (by norm_num) hf.1
      have : (0 : ℚ) ≤ (((t.data.length : ℤ) - 1 : ℤ) : ℚ) / t.freq * 1000000 := by
        have : (0 : ℚ) ≤ (((t.data.length : ℤ) - 1 : ℤ) : ℚ) := by exact_mod_cast (by omega : (0 : ℤ) ≤ (t.data.length : ℤ) - 1)
        positivity
      have : ((-1 : ℤ) : ℚ) < d := by push_cast; linarith
      have := Int.cast_lt.mp this
      omega
    · have : (d : ℚ) ≤ 2 ^ 48 := by
        norm_num at hl h1 ⊢
        linarith
      exact_mod_cast this

/-- what `slice` does -/
theorem slice_cases (h : Doubles fl) {t : Trace α} {tw : TimeWindow} (htw : tw.startTime ≤ tw.endTime) (hf : Usual t.freq)
    (hl : ((t.data.length : ℚ) - 1) / t.freq ≤ 2 ^ 28) :
    ∃ e, endTime fl t = some e ∧ t.stime ≤ e ∧
    ((TimeWindow.mk' t.stime e = tw ∧ slice fl t tw = some (true, t)) ∨
     ((TimeWindow.mk' t.stime e).contains tw = false ∧ slice fl t tw = some (false, t)) ∨
     ((TimeWindow.mk' t.stime e).contains tw = true ∧ t.stime ≤ tw.startTime ∧ tw.endTime ≤ e ∧
      ∃ k m : ℕ, k ≤ m ∧ ⌊index fl t tw.startTime⌋ = k ∧ ⌈index fl t tw.endTime⌉ = m ∧
        (t.data.length ≤ m ∧ slice fl t tw = some (false, t) ∨
         m < t.data.length ∧ ∃ d, secToDur fl (fl ((k : ℚ) / t.freq)) = some d ∧
          slice fl t tw = some (true, { t with stime := t.stime + d, data := (t.data.drop k).take (m + 1 - k) })))) := by
  obtain ⟨e0, he, h0, h1, -, -⟩ := endTime_near h hf hl
  refine ⟨_, he, by omega, ?_⟩
  have hown := mk'_eq (s := t.stime) (e := t.stime + e0) (by omega)
  unfold slice
  simp only [he]
  by_cases hc1 : TimeWindow.mk' t.stime (t.stime + e0) = tw
  · exact Or.inl ⟨hc1, by rw [if_pos hc1]⟩
  right
  by_cases hc2 : (TimeWindow.mk' t.stime (t.stime + e0)).contains tw = false
  · exact Or.inl ⟨hc2, by rw [if_neg hc1, if_pos hc2]⟩
  right
  have hc2' : (TimeWindow.mk' t.stime (t.stime + e0)).contains tw = true := by simpa using hc2
  have hin : t.stime ≤ tw.startTime ∧ tw.endTime ≤ t.stime + e0 := by
    rw [hown] at hc2'
    unfold TimeWindow.contains at hc2'
    simpa using hc2'
  refine ⟨hc2', hin.1, hin.2, ?_⟩
  rw [if_neg hc1, if_neg hc2]
  have hf0 : 0 < t.freq := lt_of_lt_of_le (by norm_num) hf.1
  have hnn : ∀ x : Int, t.stime ≤ x → 0 ≤ index fl t x := by
    intro x hx
    unfold index
    apply fl_nonneg h
    apply mul_nonneg _ hf0.le
    have := durToSec_mono h (by omega : 0 ≤ x - t.stime)
    have hz : durToSec fl 0 = 0 := by
      unfold durToSec
      have := fl_zero h
      norm_num [this]
    rwa [hz] at this
  have hmono : index fl t tw.startTime ≤ index fl t tw.endTime := by
    unfold index
    exact h.mono _ _ (mul_le_mul_of_nonneg_right (durToSec_mono h (by omega)) hf0.le)
  have hk0 : 0 ≤ ⌊index fl t tw.startTime⌋ := Int.floor_nonneg.mpr (hnn _ hin.1)
  have hkm : ⌊index fl t tw.startTime⌋ ≤ ⌈index fl t tw.endTime⌉ :=
    (Int.floor_le_floor hmono).trans (Int.floor_le_ceil _)
  obtain ⟨k, hk⟩ := Int.eq_ofNat_of_zero_le hk0
  obtain ⟨m, hm⟩ := Int.eq_ofNat_of_zero_le (hk0.trans hkm)
  refine ⟨k, m, by omega, hk, hm, ?_⟩
  rw [if_neg (by omega)]
  have hn := length_bound hf hl
  have hfl : fl (t.data.length : ℚ) = ((t.data.length : ℤ) : ℚ) := by
    have := fl_int h (n := (t.data.length : ℤ)) (by rw [abs_of_nonneg (by omega)]; omega)
    simpa using this
  rw [hfl]
  by_cases hge : ((⌈index fl t tw.endTime⌉ : ℤ) : ℚ) ≥ ((t.data.length : ℤ) : ℚ)
  · left
    rw [if_pos hge]
    have : (t.data.length : ℤ) ≤ ⌈index fl t tw.endTime⌉ := by exact_mod_cast hge
    exact ⟨by omega, rfl⟩
  · right
    rw [if_neg hge]
    have hlt : ⌈index fl t tw.endTime⌉ < (t.data.length : ℤ) := by
      by_contra hc
      exact hge (by exact_mod_cast (not_lt.mp hc))
    refine ⟨by omega, ?_⟩
    rw [if_pos (by omega)]
    have hkf : ((k : ℤ) : ℚ) / t.freq * 1000000 ≤ 2 ^ 49 := by
      have : ((k : ℤ) : ℚ) ≤ (t.data.length : ℚ) - 1 := by
        have : (k : ℤ) ≤ (t.data.length : ℤ) - 1 := by omega
        have := Int.cast_le (R := ℚ) |>.mpr this
        push_cast at this ⊢
        exact this
      have := div_le_div_of_nonneg_right this hf0.le
      norm_num at hl ⊢
      push_cast at this
      linarith
    obtain ⟨d, hd, -, -, -⟩ := sample_near h hf (k := (k : ℤ)) (by omega) hkf
    refine ⟨d, by simpa using hd, ?_⟩
    rw [hk, hm, hd]
    simp only [Int.toNat_natCast]
    have : ((m : ℤ) + 1 - (k : ℤ)).toNat = m + 1 - k := by omega
    rw [this]

end Verif.FloatTime
