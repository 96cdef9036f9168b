import Verif.Props.WaveformCache
import Mathlib.Tactic.Ring
import Mathlib.Tactic.Linarith
import Mathlib.Tactic.LinearCombination
import Mathlib.Tactic.FinCases

set_option linter.unusedSimpArgs false

/-!
# C41: rotation of components and combination of the horizontal ones
-/

namespace Verif.Waveform
open Verif.Catalog (Phase Event Station)

/-! ## rotation -/

theorem column_eq (tc : Components) (i : Fin 3) :
    ((column tc i).x, (column tc i).y, (column tc i).z) = direction (tc.azimuth i) (tc.dip i) := by
  unfold column Vec3.fromAngles direction
  simp only [Real.cos_neg, Real.sin_neg]
  generalize Geo.degToRad (tc.azimuth i) = a
  generalize Geo.degToRad (tc.dip i) = d
  have h : Real.cos d * Real.sin a * (Real.cos d * Real.sin a) + Real.cos d * Real.cos a * (Real.cos d * Real.cos a) +
      -Real.sin d * -Real.sin d = 1 := by
    linear_combination Real.cos d ^ 2 * Real.sin_sq_add_cos_sq a + Real.sin_sq_add_cos_sq d
  rw [h]
  simp

theorem direction_unit (a d : ℝ) : dot (direction a d) (direction a d) = 1 := by
  unfold dot direction
  simp only
  generalize Geo.degToRad a = a
  generalize Geo.degToRad d = d
  linear_combination Real.cos d ^ 2 * Real.sin_sq_add_cos_sq a + Real.sin_sq_add_cos_sq d

/-- **C41a.** The transversal sample is the part of the recorded ground motion along the horizontal direction
at right angles to `az`, the radial one the part along `az`, and the third the vertical part. -/
theorem rotation_projects (tc : Components) (az h2 h1 v : ℝ) :
    rotateSample tc az .radial h2 h1 v = dot (motion tc v h1 h2) (Real.sin az, Real.cos az, 0) ∧
    rotateSample tc az .transversal h2 h1 v = dot (motion tc v h1 h2) (Real.cos az, -Real.sin az, 0) ∧
    rotateSample tc az .none h2 h1 v = dot (motion tc v h1 h2) (0, 0, 1) := by
  have e0 := column_eq tc 0
  have e1 := column_eq tc 1
  have e2 := column_eq tc 2
  unfold rotateSample motion dot
  simp only [← e0, ← e1, ← e2]
  refine ⟨?_, ?_, ?_⟩ <;> ring

/-- **C41b.** Rotation is an isometry: for every sensor whose components are at right angles, every direction and
all samples, the sum of squares of radial, transversal and vertical sample is that of the three recorded
samples. -/
theorem rotation_isometry (tc : Components) (h : Orthogonal tc) (az h2 h1 v : ℝ) :
    rotateSample tc az .radial h2 h1 v ^ 2 + rotateSample tc az .transversal h2 h1 v ^ 2 +
      rotateSample tc az .none h2 h1 v ^ 2 = h1 ^ 2 + h2 ^ 2 + v ^ 2 := by
  obtain ⟨a, b, c⟩ := rotation_projects tc az h2 h1 v
  rw [a, b, c]
  have u0 := direction_unit (tc.azimuth 0) (tc.dip 0)
  have u1 := direction_unit (tc.azimuth 1) (tc.dip 1)
  have u2 := direction_unit (tc.azimuth 2) (tc.dip 2)
  have o01 := h 0 1 (by decide)
  have o02 := h 0 2 (by decide)
  have o12 := h 1 2 (by decide)
  unfold motion
  generalize direction (tc.azimuth 0) (tc.dip 0) = d0 at *
  generalize direction (tc.azimuth 1) (tc.dip 1) = d1 at *
  generalize direction (tc.azimuth 2) (tc.dip 2) = d2 at *
  unfold dot at *
  simp only
  have hs := Real.sin_sq_add_cos_sq az
  linear_combination v ^ 2 * u0 + h1 ^ 2 * u1 + h2 ^ 2 * u2 + 2 * v * h1 * o01 + 2 * v * h2 * o02 + 2 * h1 * h2 * o12 +
    ((v * d0.1 + h1 * d1.1 + h2 * d2.1) ^ 2 + (v * d0.2.1 + h1 * d1.2.1 + h2 * d2.2.1) ^ 2) * hs

/-- the usual sensor: up, north, east -/
noncomputable def upNorthEast : Components := ⟨![-90, 0, 0], ![0, 0, 90]⟩

theorem degToRad_90 : Geo.degToRad 90 = Real.pi / 2 := by unfold Geo.degToRad; ring
theorem degToRad_neg90 : Geo.degToRad (-90) = -(Real.pi / 2) := by unfold Geo.degToRad; ring
theorem degToRad_zero : Geo.degToRad 0 = 0 := by unfold Geo.degToRad; ring
theorem degToRad_180 : Geo.degToRad 180 = Real.pi := by unfold Geo.degToRad; ring

theorem upNorthEast_directions : direction (upNorthEast.azimuth 0) (upNorthEast.dip 0) = (0, 0, 1) ∧
    direction (upNorthEast.azimuth 1) (upNorthEast.dip 1) = (0, 1, 0) ∧
    direction (upNorthEast.azimuth 2) (upNorthEast.dip 2) = (1, 0, 0) := by
  simp [upNorthEast, direction, degToRad_90, degToRad_neg90, degToRad_zero]

theorem upNorthEast_orthogonal : Orthogonal upNorthEast := by
  obtain ⟨a, b, c⟩ := upNorthEast_directions
  intro i j hij
  fin_cases i <;> fin_cases j <;> simp_all [dot]

/-- For the usual sensor the vertical component does not enter, and radial and transversal samples have the
sum of squares of the two horizontal samples. -/
theorem rotation_horizontal (az e n v : ℝ) :
    rotateSample upNorthEast az .radial e n v = e * Real.sin az + n * Real.cos az ∧
    rotateSample upNorthEast az .transversal e n v = e * Real.cos az - n * Real.sin az ∧
    rotateSample upNorthEast az .radial e n v ^ 2 + rotateSample upNorthEast az .transversal e n v ^ 2 = e ^ 2 + n ^ 2 := by
  obtain ⟨a, b, _⟩ := rotation_projects upNorthEast az e n v
  obtain ⟨d0, d1, d2⟩ := upNorthEast_directions
  have r1 : rotateSample upNorthEast az .radial e n v = e * Real.sin az + n * Real.cos az := by
    rw [a]; unfold motion dot; rw [d0, d1, d2]; simp
  have r2 : rotateSample upNorthEast az .transversal e n v = e * Real.cos az - n * Real.sin az := by
    rw [b]; unfold motion dot; rw [d0, d1, d2]; simp; ring
  refine ⟨r1, r2, ?_⟩
  rw [r1, r2]
  linear_combination (e ^ 2 + n ^ 2) * Real.sin_sq_add_cos_sq az

/-- Components that are not at right angles: with both horizontal components to the north the sum of squares
doubles, so the hypothesis is needed. -/
theorem rotation_needs_orthogonal :
    rotateSample ⟨![-90, 0, 0], ![0, 0, 0]⟩ 0 .radial 1 1 0 ^ 2 = 4 := by
  rw [(rotation_projects _ _ _ _ _).1]
  unfold motion dot direction
  simp [degToRad_zero]
  norm_num

/-! ## time base -/

theorem sampleCount_ok {s e : Int} (h : s ≤ e) {f : ℚ} (hf : 0 < f) :
    ∃ n : ℕ, sampleCount s e f = .ok (n + 1) ∧ (n : Int) = ⌊Trace.durToSec (e - s) * f⌋ := by
  have h0 : (0 : ℚ) ≤ Trace.durToSec (e - s) * f := by
    unfold Trace.durToSec
    have : (0 : ℚ) ≤ ((e - s : Int) : ℚ) := by exact_mod_cast (by omega)
    positivity
  have h1 : 0 ≤ ⌊Trace.durToSec (e - s) * f⌋ := Int.floor_nonneg.2 h0
  refine ⟨⌊Trace.durToSec (e - s) * f⌋.toNat, ?_, by omega⟩
  unfold sampleCount
  simp only
  rw [if_neg (by omega)]
  congr 1
  omega

theorem samplesFrom_some {α : Type} {s : Int} {n k : Nat} {t : Trace α} (h : samplesFrom s n t = some k) :
    k + n ≤ t.data.length ∧ |(k : ℚ) - t.index s| ≤ 1 / 2 := by
  unfold samplesFrom at h
  simp only at h
  split at h
  · cases h
  · rename_i hc
    injection h with h
    have h1 := cround_le_add_half (t.index s)
    have h2 := sub_half_le_cround (t.index s)
    have hk : (k : Int) = cround (t.index s) := by omega
    have hk' : (k : ℚ) = (cround (t.index s) : ℚ) := by exact_mod_cast hk
    refine ⟨by omega, ?_⟩
    rw [hk', abs_le]
    constructor <;> linarith

theorem samplesFrom_ok {α : Type} {s e : Int} {n : Nat} {t : Trace α} (hf : 0 < t.freq) (hf' : t.freq < 1000000)
    (hne : t.data ≠ []) (h1 : t.stime ≤ s) (h2 : s ≤ e) (h3 : e ≤ t.endTime)
    (hn : (n : Int) = ⌊Trace.durToSec (e - s) * t.freq⌋) : ∃ k, samplesFrom s (n + 1) t = some k := by
  have hlen : t.data.length ≠ 0 := by simpa using hne
  have ha : (0 : ℚ) ≤ t.index s := by
    unfold Trace.index Trace.durToSec
    have : (0 : ℚ) ≤ ((s - t.stime : Int) : ℚ) := by exact_mod_cast (by omega)
    positivity
  have hr0 := cround_nonneg ha
  have hr := cround_le_add_half (t.index s)
  have hfl := Int.floor_le (Trace.durToSec (e - s) * t.freq)
  rw [← hn] at hfl
  have hend : t.endTime = t.stime + Trace.secToDur (((t.data.length : ℚ) - 1) / t.freq) := by
    unfold Trace.endTime; rw [if_neg hlen]
  have hq : ((e - t.stime : Int) : ℚ) ≤ ((t.data.length : ℚ) - 1) / t.freq * 1000000 + 1 / 2 := by
    have := cround_le_add_half (((t.data.length : ℚ) - 1) / t.freq * 1000000)
    have h4 : e - t.stime ≤ cround (((t.data.length : ℚ) - 1) / t.freq * 1000000) := by
      unfold Trace.secToDur at hend; omega
    have h4' : ((e - t.stime : Int) : ℚ) ≤ (cround (((t.data.length : ℚ) - 1) / t.freq * 1000000) : ℚ) := by
      exact_mod_cast h4
    linarith
  have hsum : t.index s + Trace.durToSec (e - s) * t.freq < (t.data.length : ℚ) - 1 / 2 := by
    have e1 : t.index s + Trace.durToSec (e - s) * t.freq = ((e - t.stime : Int) : ℚ) / 1000000 * t.freq := by
      unfold Trace.index Trace.durToSec
      push_cast
      ring
    rw [e1]
    have h5 : ((e - t.stime : Int) : ℚ) / 1000000 * t.freq ≤
        (((t.data.length : ℚ) - 1) / t.freq * 1000000 + 1 / 2) / 1000000 * t.freq := by gcongr
    have h6 : (((t.data.length : ℚ) - 1) / t.freq * 1000000 + 1 / 2) / 1000000 * t.freq =
        (t.data.length : ℚ) - 1 + t.freq / 2000000 := by field_simp; ring
    rw [h6] at h5
    linarith
  have hle : cround (t.index s) + (n + 1) ≤ (t.data.length : Int) := by
    have : ((cround (t.index s) + n : Int) : ℚ) < ((t.data.length : Int) : ℚ) := by push_cast; push_cast at hfl; linarith
    have : cround (t.index s) + n < (t.data.length : Int) := by exact_mod_cast this
    omega
  refine ⟨(cround (t.index s)).toNat, ?_⟩
  unfold samplesFrom
  simp only
  rw [if_neg]
  push_cast
  omega

/-- sample `i` of the part of `t` that starts at time `s`: the sample nearest to `s` is the first one -/
def Aligned {α : Type} (t : Trace α) (s : Int) (k : Nat) : Prop := |(k : ℚ) - t.index s| ≤ 1 / 2

/-- **C41c.** What a successful combination of the horizontal components returns: it starts at the common start of
the two traces, has the common sampling frequency and as many samples as fit until the common end, and
sample `i` is the Euclidean norm of the samples `i` steps after the ones nearest to the common start. -/
theorem transform_l2_output (h1 h2 out : Trace ℝ) (h : transformL2 h1 h2 = .ok (some out)) :
    out.stime = max h1.stime h2.stime ∧ out.freq = h1.freq ∧ out.freq = h2.freq ∧
    (out.data.length : Int) = ⌊Trace.durToSec (min h1.endTime h2.endTime - out.stime) * out.freq⌋ + 1 ∧
    ∃ k1 k2, Aligned h1 out.stime k1 ∧ Aligned h2 out.stime k2 ∧
      k1 + out.data.length ≤ h1.data.length ∧ k2 + out.data.length ≤ h2.data.length ∧
      ∀ i < out.data.length, out.data[i]? = some (Real.sqrt (h1.data.getD (k1 + i) 0 ^ 2 + h2.data.getD (k2 + i) 0 ^ 2)) := by
  unfold transformL2 at h
  by_cases hf : h1.freq ≠ h2.freq
  · rw [if_pos hf] at h; cases h
  rw [if_neg hf] at h
  have hf : h1.freq = h2.freq := by simpa using hf
  simp only at h
  generalize hs : max h1.stime h2.stime = s at *
  generalize he : min h1.endTime h2.endTime = e at *
  unfold sampleCount at h
  simp only at h
  by_cases hub : ⌊Trace.durToSec (e - s) * h1.freq⌋ + 1 < 0
  · rw [if_pos hub] at h; cases h
  rw [if_neg hub] at h
  simp only [Outcome.bind_ok] at h
  by_cases hz : (⌊Trace.durToSec (e - s) * h1.freq⌋ + 1).toNat ≤ 0
  · rw [if_pos hz] at h; cases h
  rw [if_neg hz] at h
  generalize hn : (⌊Trace.durToSec (e - s) * h1.freq⌋ + 1).toNat = n at *
  cases c1 : samplesFrom s n h1 with
  | none => rw [c1] at h; simp at h
  | some k1 =>
    cases c2 : samplesFrom s n h2 with
    | none => rw [c1, c2] at h; simp at h
    | some k2 =>
      rw [c1, c2] at h
      simp only [Outcome.ok.injEq, Option.some.injEq] at h
      subst h
      simp only [List.length_map, List.length_range]
      obtain ⟨a1, b1⟩ := samplesFrom_some c1
      obtain ⟨a2, b2⟩ := samplesFrom_some c2
      refine ⟨trivial, trivial, hf, by omega, k1, k2, b1, b2, a1, a2, ?_⟩
      intro i hi
      simp [hi]

/-- **C41d.** What a successful rotation returns.  The samples are right: they are rotated samples nearest to
the common start, and so on until the common end.  But the start time is that of the first horizontal
trace, not the common one. -/
theorem transform_rt_output_partial (tc : Components) (az : ℝ) (v h1 h2 out : Trace ℝ) (trans : Transform)
    (h : transformRT tc az v h1 h2 trans = .ok (some out)) :
    out.stime = h1.stime ∧ out.freq = h1.freq ∧ out.freq = h2.freq ∧ out.freq = v.freq ∧
    ∃ s : Int, s = max (max h1.stime h2.stime) v.stime ∧
    (out.data.length : Int) = ⌊Trace.durToSec (min (min h1.endTime h2.endTime) v.endTime - s) * out.freq⌋ + 1 ∧
    ∃ k1 k2 kv, Aligned h1 s k1 ∧ Aligned h2 s k2 ∧ Aligned v s kv ∧
      k1 + out.data.length ≤ h1.data.length ∧ k2 + out.data.length ≤ h2.data.length ∧ kv + out.data.length ≤ v.data.length ∧
      ∀ i < out.data.length, out.data[i]? =
        some (rotateSample tc az trans (h2.data.getD (k2 + i) 0) (h1.data.getD (k1 + i) 0) (v.data.getD (kv + i) 0)) := by
  unfold transformRT at h
  by_cases hf : h1.freq ≠ h2.freq ∨ h1.freq ≠ v.freq
  · rw [if_pos hf] at h; cases h
  rw [if_neg hf] at h
  have hf : h1.freq = h2.freq ∧ h1.freq = v.freq := by simpa using hf
  simp only at h
  generalize hs : max (max h1.stime h2.stime) v.stime = s at *
  generalize he : min (min h1.endTime h2.endTime) v.endTime = e at *
  unfold sampleCount at h
  simp only at h
  by_cases hub : ⌊Trace.durToSec (e - s) * h1.freq⌋ + 1 < 0
  · rw [if_pos hub] at h; cases h
  rw [if_neg hub] at h
  simp only [Outcome.bind_ok] at h
  by_cases hz : (⌊Trace.durToSec (e - s) * h1.freq⌋ + 1).toNat ≤ 0
  · rw [if_pos hz] at h; cases h
  rw [if_neg hz] at h
  generalize hn : (⌊Trace.durToSec (e - s) * h1.freq⌋ + 1).toNat = n at *
  cases c1 : samplesFrom s n h1 with
  | none => rw [c1] at h; simp at h
  | some k1 =>
    cases c2 : samplesFrom s n h2 with
    | none => rw [c1, c2] at h; simp at h
    | some k2 =>
      cases c3 : samplesFrom s n v with
      | none => rw [c1, c2, c3] at h; simp at h
      | some kv =>
        rw [c1, c2, c3] at h
        simp only [Outcome.ok.injEq, Option.some.injEq] at h
        subst h
        simp only [List.length_map, List.length_range]
        obtain ⟨a1, b1⟩ := samplesFrom_some c1
        obtain ⟨a2, b2⟩ := samplesFrom_some c2
        obtain ⟨a3, b3⟩ := samplesFrom_some c3
        refine ⟨trivial, trivial, hf.1, hf.2, s, rfl, by omega, k1, k2, kv, b1, b2, b3, a1, a2, a3, ?_⟩
        intro i hi
        simp [hi]

/-- **C41e.** Both transforms succeed whenever the traces have the same sampling frequency (below 1 MHz),
are not empty and overlap. -/
theorem transforms_succeed (tc : Components) (az : ℝ) (v h1 h2 : Trace ℝ) (trans : Transform)
    (hf : 0 < h1.freq) (hf' : h1.freq < 1000000) (h12 : h1.freq = h2.freq) (h1v : h1.freq = v.freq)
    (hne : h1.data ≠ [] ∧ h2.data ≠ [] ∧ v.data ≠ [])
    (hov : max (max h1.stime h2.stime) v.stime ≤ min (min h1.endTime h2.endTime) v.endTime) :
    (∃ out, transformL2 h1 h2 = .ok (some out)) ∧ ∃ out, transformRT tc az v h1 h2 trans = .ok (some out) := by
  constructor
  · unfold transformL2
    rw [if_neg (by simpa using h12)]
    simp only
    obtain ⟨n, hn, hn'⟩ := sampleCount_ok (s := max h1.stime h2.stime) (e := min h1.endTime h2.endTime) (by omega) hf
    rw [hn]
    simp only [Outcome.bind_ok]
    rw [if_neg (by omega)]
    obtain ⟨k1, hk1⟩ := samplesFrom_ok (t := h1) (s := max h1.stime h2.stime) (e := min h1.endTime h2.endTime) hf hf' hne.1
      (by omega) (by omega) (by omega) hn'
    obtain ⟨k2, hk2⟩ := samplesFrom_ok (t := h2) (s := max h1.stime h2.stime) (e := min h1.endTime h2.endTime) (h12 ▸ hf)
      (h12 ▸ hf') hne.2.1 (by omega) (by omega) (by omega) (h12 ▸ hn')
    rw [hk1, hk2]
    exact ⟨_, rfl⟩
  · unfold transformRT
    rw [if_neg (by push Not; exact ⟨h12, h1v⟩)]
    simp only
    obtain ⟨n, hn, hn'⟩ := sampleCount_ok (s := max (max h1.stime h2.stime) v.stime)
      (e := min (min h1.endTime h2.endTime) v.endTime) (by omega) hf
    rw [hn]
    simp only [Outcome.bind_ok]
    rw [if_neg (by omega)]
    obtain ⟨k1, hk1⟩ := samplesFrom_ok (t := h1) (s := max (max h1.stime h2.stime) v.stime)
      (e := min (min h1.endTime h2.endTime) v.endTime) hf hf' hne.1
      (by omega) (by omega) (by omega) hn'
    obtain ⟨k2, hk2⟩ := samplesFrom_ok (t := h2) (s := max (max h1.stime h2.stime) v.stime)
      (e := min (min h1.endTime h2.endTime) v.endTime) (h12 ▸ hf)
      (h12 ▸ hf') hne.2.1 (by omega) (by omega) (by omega) (h12 ▸ hn')
    obtain ⟨kv, hkv⟩ := samplesFrom_ok (t := v) (s := max (max h1.stime h2.stime) v.stime)
      (e := min (min h1.endTime h2.endTime) v.endTime) (h1v ▸ hf)
      (h1v ▸ hf') hne.2.2 (by omega) (by omega) (by omega) (h1v ▸ hn')
    rw [hk1, hk2, hkv]
    exact ⟨_, rfl⟩

/-- three samples a second, the second horizontal trace starts one second later -/
example : let h1 : Trace ℝ := ⟨0, 1, [1, 2, 3]⟩
    let h2 : Trace ℝ := ⟨1000000, 1, [4, 5, 6]⟩
    0 < h1.freq ∧ h1.freq < 1000000 ∧ h1.freq = h2.freq ∧ h1.data ≠ [] ∧ h2.data ≠ [] ∧
    max h1.stime h2.stime ≤ min h1.endTime h2.endTime := by
  refine ⟨by norm_num, by norm_num, rfl, by simp, by simp, ?_⟩
  simp only [Trace.endTime, List.length_cons, List.length_nil]
  decide +kernel

/-- **C41 as stated is false**: when the first horizontal trace starts before the common window, the rotated
trace is labelled with the time at which that trace starts, although its samples are those of the common
window, i.e. it is shifted to an earlier time by the difference. -/
theorem transform_rt_start_time_wrong (tc : Components) (az : ℝ) (v h1 h2 out : Trace ℝ) (trans : Transform)
    (h : transformRT tc az v h1 h2 trans = .ok (some out)) (hlt : h1.stime < h2.stime) :
    out.stime < max (max h1.stime h2.stime) v.stime := by
  rw [(transform_rt_output_partial tc az v h1 h2 out trans h).1]
  omega

example (tc : Components) (az : ℝ) : ∃ out, transformRT tc az ⟨0, 1, [7, 8, 9]⟩ ⟨0, 1, [1, 2, 3]⟩ ⟨1000000, 1, [4, 5, 6]⟩ .radial =
    .ok (some out) ∧ out.stime = 0 := by
  obtain ⟨_, out, h⟩ := transforms_succeed tc az ⟨0, 1, [7, 8, 9]⟩ ⟨0, 1, [1, 2, 3]⟩ ⟨1000000, 1, [4, 5, 6]⟩ .radial
    (by norm_num) (by norm_num) rfl rfl ⟨by simp, by simp, by simp⟩
    (by simp only [Trace.endTime, List.length_cons, List.length_nil]; decide +kernel)
  exact ⟨out, h, (transform_rt_output_partial _ _ _ _ _ _ _ h).1⟩

/-- Traces that lie further apart than one sample are undefined behaviour: the negative number of samples is
converted to an unsigned integer before the check for overlap. -/
theorem transform_l2_disjoint_ub (h1 h2 : Trace ℝ) (hf : h1.freq = h2.freq)
    (h : Trace.durToSec (min h1.endTime h2.endTime - max h1.stime h2.stime) * h1.freq < -1) :
    transformL2 h1 h2 = .ub := by
  unfold transformL2
  rw [if_neg (by simpa using hf)]
  simp only
  unfold sampleCount
  simp only
  rw [if_pos]
  · rfl
  · have := Int.floor_le (Trace.durToSec (min h1.endTime h2.endTime - max h1.stime h2.stime) * h1.freq)
    have h3 : (⌊Trace.durToSec (min h1.endTime h2.endTime - max h1.stime h2.stime) * h1.freq⌋ : ℚ) < ((-1 : Int) : ℚ) := by
      push_cast; linarith
    have : ⌊Trace.durToSec (min h1.endTime h2.endTime - max h1.stime h2.stime) * h1.freq⌋ < -1 := by exact_mod_cast h3
    omega

example : Trace.durToSec (min (Trace.endTime (⟨0, 1, [1, 2]⟩ : Trace Nat)) (Trace.endTime (⟨9000000, 1, [1]⟩ : Trace Nat)) -
    max 0 9000000) * 1 < -1 := by decide +kernel

/-! ## the direction of rotation, and the memory cache once more -/

theorem stationAzimuth_south {evLat staLat lon : ℝ} (h : evLat < staLat) (h1 : 1e-9 ≤ staLat - evLat)
    (h2 : staLat - evLat < 180) : stationAzimuth evLat lon staLat lon = Real.pi + Real.pi := by
  unfold stationAzimuth Geo.computeAzimuth
  simp only [sub_self, degToRad_zero, Real.sin_zero, zero_mul, Real.cos_zero, mul_one]
  rw [if_neg (by rw [abs_of_pos (by linarith)]; push Not; intro hc; linarith)]
  rw [degToRad_180]
  congr 1
  have e : Real.cos (Geo.degToRad staLat) * Real.sin (Geo.degToRad evLat) -
      Real.sin (Geo.degToRad staLat) * Real.cos (Geo.degToRad evLat) = -Real.sin (Geo.degToRad (staLat - evLat)) := by
    have : Geo.degToRad (staLat - evLat) = Geo.degToRad staLat - Geo.degToRad evLat := by unfold Geo.degToRad; ring
    rw [this, Real.sin_sub]; ring
  rw [e]
  have hpos : 0 < Real.sin (Geo.degToRad (staLat - evLat)) := by
    apply Real.sin_pos_of_pos_of_lt_pi
    · unfold Geo.degToRad; have := Real.pi_pos; have : 0 < staLat - evLat := by linarith
      positivity
    · unfold Geo.degToRad
      have := Real.pi_pos
      rw [div_lt_iff₀ (by norm_num)]
      gcongr
  unfold Geo.atan2
  have : (⟨-Real.sin (Geo.degToRad (staLat - evLat)), 0⟩ : ℂ) = ((-Real.sin (Geo.degToRad (staLat - evLat)) : ℝ) : ℂ) := by
    apply Complex.ext
    · rw [Complex.ofReal_re]
    · rw [Complex.ofReal_im]
  rw [this, Complex.arg_ofReal_of_neg (by linarith)]

theorem stationAzimuth_north {evLat staLat lon : ℝ} (h : staLat < evLat) (h1 : 1e-9 ≤ evLat - staLat)
    (h2 : evLat - staLat < 180) : stationAzimuth evLat lon staLat lon = Real.pi := by
  unfold stationAzimuth Geo.computeAzimuth
  simp only [sub_self, degToRad_zero, Real.sin_zero, zero_mul, Real.cos_zero, mul_one]
  rw [if_neg (by rw [abs_of_neg (by linarith)]; push Not; intro hc; linarith)]
  rw [degToRad_180]
  have e : Real.cos (Geo.degToRad staLat) * Real.sin (Geo.degToRad evLat) -
      Real.sin (Geo.degToRad staLat) * Real.cos (Geo.degToRad evLat) = Real.sin (Geo.degToRad (evLat - staLat)) := by
    have : Geo.degToRad (evLat - staLat) = Geo.degToRad evLat - Geo.degToRad staLat := by unfold Geo.degToRad; ring
    rw [this, Real.sin_sub]; ring
  rw [e]
  have hpos : 0 < Real.sin (Geo.degToRad (evLat - staLat)) := by
    apply Real.sin_pos_of_pos_of_lt_pi
    · unfold Geo.degToRad; have := Real.pi_pos; have : 0 < evLat - staLat := by linarith
      positivity
    · unfold Geo.degToRad
      have := Real.pi_pos
      rw [div_lt_iff₀ (by norm_num)]
      gcongr
  unfold Geo.atan2
  have : (⟨Real.sin (Geo.degToRad (evLat - staLat)), 0⟩ : ℂ) = ((Real.sin (Geo.degToRad (evLat - staLat)) : ℝ) : ℂ) := by
    apply Complex.ext
    · rw [Complex.ofReal_re]
    · rw [Complex.ofReal_im]
  rw [this, Complex.arg_ofReal_of_nonneg hpos.le]
  ring

/-- For an event south of the station and the usual sensor, the radial sample is the north sample and the
transversal one the east sample: radial points away from the event. -/
theorem rotation_away_from_event {evLat staLat lon : ℝ} (h : evLat < staLat) (h1 : 1e-9 ≤ staLat - evLat)
    (h2 : staLat - evLat < 180) (e n v : ℝ) :
    rotateSample upNorthEast (stationAzimuth evLat lon staLat lon) .radial e n v = n ∧
    rotateSample upNorthEast (stationAzimuth evLat lon staLat lon) .transversal e n v = e := by
  rw [stationAzimuth_south h h1 h2]
  obtain ⟨a, b, _⟩ := rotation_horizontal (Real.pi + Real.pi) e n v
  rw [a, b]
  simp [← two_mul]

example : (46 : ℝ) < 47 ∧ (1e-9 : ℝ) ≤ 47 - 46 ∧ (47 : ℝ) - 46 < 180 := by norm_num

namespace Example

theorem process_radial (lat : ℝ) : ∃ out, process env (request "HHR" "" lat .radial) = .ok (some out) ∧
    out.data[0]? = some (rotateSample upNorthEast (stationAzimuth lat 8 47 8) .radial (-1) (-1) (-1)) := by
  have hl : ∀ ch, loadAndProcess env second (phase "HHR") ch "" 0 = .ok (some ⟨0, 1, [-1, 1]⟩) :=
    fun ch => (load_env "HHR" "" ch).trans (by simp)
  obtain ⟨_, out, h⟩ := transforms_succeed upNorthEast (stationAzimuth lat 8 47 8) ⟨0, 1, [-1, 1]⟩ ⟨0, 1, [-1, 1]⟩ ⟨0, 1, [-1, 1]⟩
    .radial (by norm_num) (by norm_num) rfl rfl ⟨by simp, by simp, by simp⟩
    (by simp only [Trace.endTime, List.length_cons, List.length_nil]; decide +kernel)
  refine ⟨out, ?_, ?_⟩
  · unfold process
    simp only [request, env, event, station]
    change (do
      let v ← loadAndProcess env second (phase "HHR") "HHX" "" 0
      let h1 ← loadAndProcess env second (phase "HHR") "HHX" "" 0
      let h2 ← loadAndProcess env second (phase "HHR") "HHX" "" 0
      match v, h1, h2 with
        | some v, some h1, some h2 => transformRT upNorthEast (stationAzimuth lat 8 47 8) v h1 h2 .radial
        | _, _, _ => Outcome.ok none) = _
    rw [hl]
    simp only [Outcome.bind_ok]
    exact h
  · obtain ⟨_, hf, _, _, s, hs, hn, k1, k2, kv, b1, b2, b3, a1, a2, a3, hi⟩ := transform_rt_output_partial _ _ _ _ _ _ _ h
    have hs0 : s = 0 := by rw [hs]; rfl
    have hend : Trace.endTime (⟨0, 1, [-1, 1]⟩ : Trace ℝ) = 1000000 := by
      simp only [Trace.endTime, List.length_cons, List.length_nil]; decide +kernel
    have hlen : out.data.length = 2 := by
      rw [hf, hs0] at hn
      simp only [hend, min_self, sub_zero, Trace.durToSec] at hn
      norm_num at hn
      omega
    have hk : k1 = 0 ∧ k2 = 0 ∧ kv = 0 := by simp only [List.length_cons, List.length_nil] at a1 a2 a3; omega
    obtain ⟨rfl, rfl, rfl⟩ := hk
    rw [hi 0 (by omega)]
    simp

/-- **C37 as stated is false also for rotated components**: the event is not part of the key.  After the radial
component was requested for an event south of the station, the request for an event north of it gets the
same trace, of which every sample has the wrong sign. -/
theorem memcache_ignores_event :
    (request "HHR" "" 46 .radial).id = (request "HHR" "" 48 .radial).id ∧
    ∃ south north : Trace ℝ, process env (request "HHR" "" 46 .radial) = .ok (some south) ∧
      process env (request "HHR" "" 48 .radial) = .ok (some north) ∧ south.data[0]? = some (-1 : ℝ) ∧ north.data[0]? = some (1 : ℝ) := by
  refine ⟨rfl, ?_⟩
  obtain ⟨s, hs, hs'⟩ := process_radial 46
  obtain ⟨n, hn, hn'⟩ := process_radial 48
  refine ⟨s, n, hs, hn, ?_, ?_⟩
  · rw [hs', (rotation_away_from_event (by norm_num) (by norm_num) (by norm_num) _ _ _).1]
  · rw [hn', stationAzimuth_north (by norm_num) (by norm_num) (by norm_num), (rotation_horizontal _ _ _ _).1]
    simp

end Example

end Verif.Waveform
