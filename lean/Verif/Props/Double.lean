import Verif.Proofs.Double

/-!
# The rounding used in the counterexamples of C121 and C122 is that of IEEE 754
-/

namespace Verif.Double
open Verif.DoubleSpec

theorem nearestEven_nearest (q : ℚ) (j : ℤ) : |(nearestEven q : ℚ) - q| ≤ |(j : ℚ) - q| := by
  by_cases h : j = nearestEven q
  · rw [h]
  have h1 := nearestEven_le q
  have h2 := le_nearestEven q
  have h3 : |(nearestEven q : ℚ) - q| ≤ 1 / 2 := by rw [abs_le]; constructor <;> linarith
  refine h3.trans ?_
  rcases lt_or_gt_of_ne h with h | h
  · have : (j : ℚ) + 1 ≤ nearestEven q := by exact_mod_cast h
    rw [abs_of_nonpos (by linarith)]; linarith
  · have : (nearestEven q : ℚ) + 1 ≤ j := by exact_mod_cast h
    rw [abs_of_nonneg (by linarith)]; linarith

theorem nearestEven_tie (q : ℚ) (j : ℤ) (hj : j ≠ nearestEven q) (h : |(j : ℚ) - q| = |(nearestEven q : ℚ) - q|) :
    nearestEven q % 2 = 0 := by
  have h1 := nearestEven_le q
  have h2 := le_nearestEven q
  have h3 : |(nearestEven q : ℚ) - q| ≤ 1 / 2 := by rw [abs_le]; constructor <;> linarith
  have hhalf : |(nearestEven q : ℚ) - q| = 1 / 2 := by
    apply le_antisymm h3
    rw [← h]
    rcases lt_or_gt_of_ne hj with hj | hj
    · have : (j : ℚ) + 1 ≤ nearestEven q := by exact_mod_cast hj
      rw [abs_of_nonpos (by linarith)]; linarith
    · have : (nearestEven q : ℚ) + 1 ≤ j := by exact_mod_cast hj
      rw [abs_of_nonneg (by linarith)]; linarith
  have f1 := Int.floor_le q
  have f2 := Int.lt_floor_add_one q
  unfold nearestEven at hhalf ⊢
  simp only at hhalf ⊢
  split_ifs at hhalf ⊢ with g1 g2 g3
  · rw [abs_of_nonpos (by linarith)] at hhalf; exfalso; linarith
  · push_cast at hhalf
    rw [abs_of_nonneg (by linarith)] at hhalf; exfalso; linarith
  · exact g3
  · omega

/-- multiples of the last bit, and the doubles below them -/
theorem double_cases {x : ℚ} (hx : 0 < x) {y : ℚ} (hy : IsDouble y) :
    (∃ j : ℤ, y = j * 2 ^ lastBit x) ∨ (y < 2 ^ 52 * 2 ^ lastBit x ∧ 2 ^ 52 * 2 ^ lastBit x ≤ x) := by
  obtain ⟨m, e, hm, he, rfl⟩ := hy
  by_cases hle : lastBit x ≤ e
  · obtain ⟨n, hn⟩ := pow_multiple hle
    left
    exact ⟨m * n, by rw [hn]; push_cast; ring⟩
  · right
    have hL : lastBit x = Int.log 2 |x| - 52 := by unfold lastBit at hle ⊢; omega
    have hb := (log_bounds hx.ne').1
    rw [abs_of_pos hx] at hb hL
    have e1 : (2 : ℚ) ^ 52 * 2 ^ lastBit x = 2 ^ Int.log 2 x := by
      rw [hL, ← zpow_natCast, ← zpow_add₀ (by norm_num)]; congr 1; push_cast; ring
    refine ⟨?_, e1 ▸ hb⟩
    have h1 : (m : ℚ) < 2 ^ 53 := by exact_mod_cast (abs_lt.1 hm).2
    have hpos : (0 : ℚ) < 2 ^ e := by positivity
    have h2 : (2 : ℚ) ^ (e + 1) ≤ 2 ^ lastBit x := zpow_le_zpow_right₀ (by norm_num) (by omega)
    rw [zpow_add_one₀ (by norm_num)] at h2
    calc (m : ℚ) * 2 ^ e < 2 ^ 53 * 2 ^ e := mul_lt_mul_of_pos_right h1 hpos
      _ = 2 ^ 52 * (2 ^ e * 2) := by ring
      _ ≤ 2 ^ 52 * 2 ^ lastBit x := mul_le_mul_of_nonneg_left h2 (by positivity)

theorem nearest_pos {x : ℚ} (hx : 0 < x) :
    IsDouble (round64 x) ∧ (∀ y, IsDouble y → |round64 x - x| ≤ |y - x|) ∧
      ∀ y, IsDouble y → y ≠ round64 x → |y - x| = |round64 x - x| → EvenDouble (round64 x) := by
  have hr : round64 x = nearestEven (x / 2 ^ lastBit x) * 2 ^ lastBit x := by unfold round64; rw [if_pos hx.le]
  have hP : (0 : ℚ) < 2 ^ lastBit x := by positivity
  have hL : -1074 ≤ lastBit x := le_max_right _ _
  obtain ⟨q, hq⟩ : ∃ q, q = x / 2 ^ lastBit x := ⟨_, rfl⟩
  have hxq : x = q * 2 ^ lastBit x := by rw [hq]; field_simp
  rw [← hq] at hr
  have hq0 : 0 ≤ q := by rw [hq]; positivity
  have hsc : ∀ a : ℚ, |a * 2 ^ lastBit x - x| = |a - q| * 2 ^ lastBit x := by
    intro a
    have : a * 2 ^ lastBit x - x = (a - q) * 2 ^ lastBit x := by
      have h1 := hxq
      have h2 : (a - q) * 2 ^ lastBit x = a * 2 ^ lastBit x - q * 2 ^ lastBit x := by ring
      rw [h2, ← h1]
    rw [this, abs_mul, abs_of_pos hP]
  have hn0 : 0 ≤ nearestEven q := by
    have := nearestEven_mono hq0
    rwa [nearestEven_zero] at this
  -- at most 53 bits
  have hq53 : q ≤ 2 ^ 53 := by
    have hb := (log_bounds hx.ne').2
    rw [abs_of_pos hx] at hb
    have h1 : Int.log 2 x + 1 ≤ 53 + lastBit x := by
      have := le_max_left (Int.log 2 |x| - 52) (-1074)
      rw [abs_of_pos hx] at this
      unfold lastBit
      rw [abs_of_pos hx]; omega
    have h2 : (2 : ℚ) ^ (Int.log 2 x + 1) ≤ 2 ^ 53 * 2 ^ lastBit x := by
      have : (2 : ℚ) ^ 53 * 2 ^ lastBit x = 2 ^ (53 + lastBit x) := by
        rw [zpow_add₀ (by norm_num)]; norm_num
      rw [this]
      exact zpow_le_zpow_right₀ (by norm_num) h1
    rw [hq, div_le_iff₀ hP]
    linarith
  have hn53 : nearestEven q ≤ 2 ^ 53 := by
    have := nearestEven_mono hq53
    rw [show (2 : ℚ) ^ 53 = ((2 ^ 53 : ℤ) : ℚ) by norm_num, nearestEven_int] at this
    exact this
  have h52 : 2 ^ 52 ≤ nearestEven q ∨ lastBit x = -1074 := by
    by_cases hsub : lastBit x = -1074
    · exact .inr hsub
    · left
      have hL' : lastBit x = Int.log 2 |x| - 52 := by unfold lastBit at hsub ⊢; omega
      have hb := (log_bounds hx.ne').1
      rw [abs_of_pos hx] at hb hL'
      have e1 : (2 : ℚ) ^ 52 * 2 ^ lastBit x = 2 ^ Int.log 2 x := by
        rw [hL', ← zpow_natCast, ← zpow_add₀ (by norm_num)]; congr 1; push_cast; ring
      have : (2 : ℚ) ^ 52 ≤ q := by rw [hq, le_div_iff₀ hP, e1]; exact hb
      have := nearestEven_mono this
      rw [show (2 : ℚ) ^ 52 = ((2 ^ 52 : ℤ) : ℚ) by norm_num, nearestEven_int] at this
      exact this
  refine ⟨?_, ?_, ?_⟩
  · rcases hn53.eq_or_lt with h | h
    · refine ⟨2 ^ 52, lastBit x + 1, by norm_num, by omega, ?_⟩
      rw [hr, h, zpow_add_one₀ (by norm_num)]; push_cast; ring
    · exact ⟨nearestEven q, lastBit x, by rw [abs_of_nonneg hn0]; exact h, hL, hr⟩
  · intro y hy
    rw [hr]
    rcases double_cases hx hy with ⟨j, rfl⟩ | ⟨h1, h2⟩
    · rw [hsc, hsc]
      exact mul_le_mul_of_nonneg_right (nearestEven_nearest q j) hP.le
    · have h3 := mul_le_mul_of_nonneg_right (nearestEven_nearest q (2 ^ 52)) hP.le
      rw [← hsc, ← hsc] at h3
      rw [show (((2 : ℤ) ^ 52 : ℤ) : ℚ) = 2 ^ 52 by norm_num] at h3
      rw [abs_of_nonpos (show (2 : ℚ) ^ 52 * 2 ^ lastBit x - x ≤ 0 by linarith)] at h3
      rw [abs_of_nonpos (show y - x ≤ 0 by linarith)]
      linarith
  · intro y hy hne htie
    rcases double_cases hx hy with ⟨j, rfl⟩ | ⟨h1, h2⟩
    · rw [hr] at hne htie
      rw [hsc, hsc] at htie
      have htie' := mul_right_cancel₀ hP.ne' htie
      have hjn : j ≠ nearestEven q := fun h => hne (by rw [h])
      have heven := nearestEven_tie q j hjn htie'
      rcases hn53.eq_or_lt with h | h
      · refine ⟨2 ^ 52, lastBit x + 1, by norm_num, by omega, ?_, .inl (by norm_num), by norm_num⟩
        rw [hr, h, zpow_add_one₀ (by norm_num)]; push_cast; ring
      · exact ⟨nearestEven q, lastBit x, by rw [abs_of_nonneg hn0]; exact h, hL, hr, by rwa [abs_of_nonneg hn0], heven⟩
    · exfalso
      have h3 := mul_le_mul_of_nonneg_right (nearestEven_nearest q (2 ^ 52)) hP.le
      rw [← hsc, ← hsc, ← hr, ← htie] at h3
      rw [show (((2 : ℤ) ^ 52 : ℤ) : ℚ) = 2 ^ 52 by norm_num] at h3
      rw [abs_of_nonpos (show (2 : ℚ) ^ 52 * 2 ^ lastBit x - x ≤ 0 by linarith), abs_of_nonpos (show y - x ≤ 0 by linarith)] at h3
      linarith

theorem isDouble_neg {y : ℚ} (h : IsDouble y) : IsDouble (-y) := by
  obtain ⟨m, e, h1, h2, rfl⟩ := h
  exact ⟨-m, e, by rwa [abs_neg], h2, by push_cast; ring⟩

theorem evenDouble_neg {y : ℚ} (h : EvenDouble y) : EvenDouble (-y) := by
  obtain ⟨m, e, h1, h2, rfl, h3, h4⟩ := h
  exact ⟨-m, e, by rwa [abs_neg], h2, by push_cast; ring, by rwa [abs_neg], by omega⟩

/-- **C121e.** `round64` gives a double, none is nearer, and if another one is as near it is the one whose last bit is zero:
the rounding of IEEE 754. -/
theorem round64_nearest (x : ℚ) :
    IsDouble (round64 x) ∧ (∀ y, IsDouble y → |round64 x - x| ≤ |y - x|) ∧
      ∀ y, IsDouble y → y ≠ round64 x → |y - x| = |round64 x - x| → EvenDouble (round64 x) := by
  rcases lt_trichotomy x 0 with h | rfl | h
  · obtain ⟨h1, h2, h3⟩ := nearest_pos (neg_pos.2 h)
    rw [round64_neg] at h1 h2 h3
    have hflip : ∀ a : ℚ, |-a - -x| = |a - x| := by intro a; rw [← abs_neg]; congr 1; ring
    refine ⟨by simpa using isDouble_neg h1, fun y hy => ?_, fun y hy hne ht => ?_⟩
    · have := h2 (-y) (isDouble_neg hy)
      rwa [hflip, hflip] at this
    · have := h3 (-y) (isDouble_neg hy) (fun h => hne (by linarith)) (by rw [hflip, hflip]; exact ht)
      simpa using evenDouble_neg this
  · have h0 : round64 0 = 0 := by unfold round64; simp [nearestEven_zero]
    rw [h0]
    refine ⟨⟨0, 0, by norm_num, by norm_num, by norm_num⟩, fun y _ => by simp, fun y _ hne ht => ?_⟩
    simp at ht
    exact absurd ht hne
  · exact nearest_pos h

/-- one tenth is not a double; half of the last bit is rounded to even in both directions -/
example : round64 (1 / 10) = 3602879701896397 / 36028797018963968 ∧ round64 (2 ^ 53 + 1) = 2 ^ 53 ∧
    round64 (2 ^ 53 + 3) = 2 ^ 53 + 4 ∧ round64 (-(2 ^ 53 + 3)) = -(2 ^ 53 + 4) ∧ round64 (1 / 2 ^ 1075) = 0 := by decide +kernel

end Verif.Double
