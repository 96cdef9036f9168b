import Verif.Model.Transform
import Verif.Proofs.Geo
import Mathlib.Tactic.FieldSimp
import Mathlib.Algebra.Order.Floor.Ring

/-!
# Lemmas for C44 and C45
-/

set_option linter.unusedSectionVars false
set_option linter.unusedSimpArgs false

namespace Verif.Geo
open Real

/-- the two angles (degrees) differ by whole turns -/
def SameAngle (a b : ℝ) : Prop := ∃ k : ℤ, a = b + 360 * k

theorem SameAngle.refl (a : ℝ) : SameAngle a a := ⟨0, by simp⟩
theorem SameAngle.symm {a b : ℝ} (h : SameAngle a b) : SameAngle b a := by
  obtain ⟨k, rfl⟩ := h; exact ⟨-k, by push_cast; ring⟩
theorem SameAngle.trans {a b c : ℝ} (h : SameAngle a b) (h' : SameAngle b c) : SameAngle a c := by
  obtain ⟨k, rfl⟩ := h; obtain ⟨l, rfl⟩ := h'; exact ⟨k + l, by push_cast; ring⟩
theorem SameAngle.add_left {a b : ℝ} (h : SameAngle a b) (c : ℝ) : SameAngle (c + a) (c + b) := by
  obtain ⟨k, rfl⟩ := h; exact ⟨k, by ring⟩

/-- angles within the same turn that differ by whole turns are equal -/
theorem SameAngle.eq {a b lo : ℝ} (h : SameAngle a b) (ha : lo ≤ a) (ha' : a < lo + 360) (hb : lo ≤ b) (hb' : b < lo + 360) :
    a = b := by
  obtain ⟨k, hk⟩ := h
  have h1 : (k : ℝ) < 1 := by linarith
  have h2 : (-1 : ℝ) < k := by linarith
  have : k = 0 := by
    have h1' : k < 1 := by exact_mod_cast h1
    have h2' : -1 < k := by exact_mod_cast h2
    omega
  subst this
  simpa using hk

theorem fmod_spec (x : ℝ) {y : ℝ} (hy : 0 < y) :
    (∃ k : ℤ, fmod x y = x - y * k) ∧ -y < fmod x y ∧ fmod x y < y ∧ (0 ≤ x → 0 ≤ fmod x y) := by
  refine ⟨⟨trunc (x / y), rfl⟩, ?_⟩
  have hx : x = y * (x / y) := by field_simp
  have e : fmod x y = y * (x / y - trunc (x / y)) := by
    unfold fmod; rw [mul_sub, ← hx]
  rw [e]
  unfold trunc
  by_cases h : 0 ≤ x / y
  · rw [if_pos h]
    have h1 := Int.floor_le (x / y)
    have h2 := Int.lt_floor_add_one (x / y)
    refine ⟨by nlinarith, by nlinarith, fun _ => mul_nonneg hy.le (by linarith)⟩
  · rw [if_neg h]
    have h1 := Int.le_ceil (x / y)
    have h2 := Int.ceil_lt_add_one (x / y)
    refine ⟨by nlinarith, by nlinarith, fun hx0 => absurd (div_nonneg hx0 hy.le) h⟩

theorem fmod_twice (x : ℝ) : 0 ≤ fmod (fmod x 360 + 360) 360 ∧ fmod (fmod x 360 + 360) 360 < 360 ∧
    SameAngle (fmod (fmod x 360 + 360) 360) x := by
  have h360 : (0 : ℝ) < 360 := by norm_num
  obtain ⟨⟨k, hk⟩, h1, h2, -⟩ := fmod_spec x h360
  obtain ⟨⟨l, hl⟩, h3, h4, h5⟩ := fmod_spec (fmod x 360 + 360) h360
  refine ⟨h5 (by linarith), h4, ⟨1 - k - l, ?_⟩⟩
  rw [hl, hk]; push_cast; ring

theorem normalizeLon_spec (lon : ℝ) :
    -180 ≤ normalizeLon lon ∧ normalizeLon lon < 180 ∧ SameAngle (normalizeLon lon) lon := by
  obtain ⟨h1, h2, k, hk⟩ := fmod_twice (lon + 180)
  unfold normalizeLon
  exact ⟨by linarith, by linarith, k, by rw [hk]; ring⟩

theorem normalizeLon_congr {a b : ℝ} (h : SameAngle a b) : normalizeLon a = normalizeLon b := by
  obtain ⟨h1, h2, h3⟩ := normalizeLon_spec a
  obtain ⟨k1, k2, k3⟩ := normalizeLon_spec b
  exact ((h3.trans h).trans k3.symm).eq h1 (by linarith) k1 (by linarith)

theorem normalizeLon_id {a : ℝ} (h1 : -180 ≤ a) (h2 : a < 180) : normalizeLon a = a := by
  obtain ⟨k1, k2, k3⟩ := normalizeLon_spec a
  exact k3.eq k1 (by linarith) h1 (by linarith)

theorem Frame.unit {orgLat orgLong rot : ℝ} {f : Frame} (h : Frame.make orgLat orgLong rot = .ok f) :
    f.cosang ^ 2 + f.sinang ^ 2 = 1 ∧ f.orgLat = orgLat ∧ f.orgLong = orgLong ∧ f.rot = rot ∧
    -90 ≤ orgLat ∧ orgLat ≤ 90 ∧ -180 ≤ orgLong ∧ orgLong ≤ 180 ∧ -360 ≤ rot ∧ rot ≤ 360 := by
  unfold Frame.make at h
  split at h
  · cases h
  · rename_i h1
    split at h
    · cases h
    · rename_i h2
      split at h
      · cases h
      · rename_i h3
        push Not at h1 h2 h3
        cases h
        exact ⟨cos_sq_add_sin_sq _, rfl, rfl, rfl, h1.2, h1.1, h2.2, h2.1, h3.2, h3.1⟩

theorem rotate_inverse {f : Frame} (h : f.cosang ^ 2 + f.sinang ^ 2 = 1) (v : ℝ × ℝ) : f.inverseRotate (f.rotate v) = v := by
  unfold Frame.rotate Frame.inverseRotate
  ext
  · simp only; linear_combination v.1 * h
  · simp only; linear_combination v.2 * h

theorem inverse_rotate {f : Frame} (h : f.cosang ^ 2 + f.sinang ^ 2 = 1) (v : ℝ × ℝ) : f.rotate (f.inverseRotate v) = v := by
  unfold Frame.rotate Frame.inverseRotate
  ext
  · simp only; linear_combination v.1 * h
  · simp only; linear_combination v.2 * h

theorem c111_pos : 0 < c111 := by unfold c111; have := pi_pos; positivity

theorem cos_lat_pos {lat : ℝ} (h1 : -90 < lat) (h2 : lat < 90) : 0 < cos (degToRad lat) := by
  apply cos_pos_of_mem_Ioo
  unfold degToRad
  constructor
  · have := mul_lt_mul_of_pos_left h1 pi_pos; linarith
  · have := mul_lt_mul_of_pos_left h2 pi_pos; linarith

theorem degToRad_strict {x y : ℝ} (h : x < y) : degToRad x < degToRad y := by
  unfold degToRad
  have := mul_lt_mul_of_pos_left h pi_pos
  linarith

theorem sdcScale_pos {orgLat : ℝ} (h1 : -90 < orgLat) (h2 : orgLat < 89) :
    0 < (sdcScale orgLat).1 ∧ 0 < (sdcScale orgLat).2 := by
  have hdr : 0 < drlt := by unfold drlt; norm_num
  have hr : ∀ x, 0 < erad * (1 - sin x ^ 2 * flattening) := by
    intro x
    have hs : sin x ^ 2 ≤ 1 := sin_sq_le_one x
    have hs0 := sq_nonneg (sin x)
    unfold erad flattening
    apply mul_pos (by norm_num)
    nlinarith
  have htan : tan (degToRad orgLat) < tan (degToRad (orgLat + 1)) := by
    apply tan_lt_tan_of_lt_of_lt_pi_div_two
    · unfold degToRad; have := mul_lt_mul_of_pos_left h1 pi_pos; linarith
    · unfold degToRad; have := mul_lt_mul_of_pos_left h2 pi_pos; linarith
    · exact degToRad_strict (by linarith)
  have hdel : arctan (drlt * tan (degToRad orgLat)) < arctan (drlt * tan (degToRad (orgLat + 1))) :=
    arctan_strictMono (mul_lt_mul_of_pos_left htan hdr)
  have hcos := cos_arctan_pos (drlt * tan (degToRad orgLat))
  have hc1 : cos (degToRad 1) < 1 := by
    have := cos_lt_cos_of_nonneg_of_le_pi_div_two (x := 0) (y := degToRad 1) le_rfl
      (by unfold degToRad; linarith [pi_pos]) (by unfold degToRad; linarith [pi_pos])
    rwa [cos_zero] at this
  unfold sdcScale
  simp only
  constructor
  · exact mul_pos (hr _) (by linarith)
  · apply div_pos (mul_pos (hr _) _) hcos
    rw [arccos_pos]
    have := mul_pos (sub_pos.2 hc1) (pow_pos hcos 2)
    linarith

end Verif.Geo
