import Verif.Spec.Double
import Verif.Model.Double
import Mathlib.Algebra.Order.Field.Power
import Mathlib.Tactic.Linarith
import Mathlib.Tactic.Ring
import Mathlib.Tactic.FieldSimp
import Mathlib.Tactic.Positivity
import Mathlib.Tactic.NormNum

/-!
# Rounding to double precision is what is relied on
-/

namespace Verif.Double
open Verif.DoubleSpec

theorem nearestEven_le (x : ℚ) : (nearestEven x : ℚ) ≤ x + 1 / 2 := by
  have h := Int.floor_le x
  unfold nearestEven
  simp only
  split_ifs <;> push_cast <;> linarith

theorem le_nearestEven (x : ℚ) : x - 1 / 2 ≤ (nearestEven x : ℚ) := by
  have h := Int.lt_floor_add_one x
  unfold nearestEven
  simp only
  split_ifs <;> push_cast <;> linarith

theorem nearestEven_int (n : ℤ) : nearestEven (n : ℚ) = n := by
  unfold nearestEven
  simp

theorem nearestEven_mono {x y : ℚ} (h : x ≤ y) : nearestEven x ≤ nearestEven y := by
  have hf : ⌊x⌋ ≤ ⌊y⌋ := Int.floor_le_floor h
  rcases hf.eq_or_lt with hf | hf
  · unfold nearestEven
    simp only [hf]
    split_ifs <;> first | omega | (exfalso; linarith)
  · have h1 : nearestEven x ≤ ⌊x⌋ + 1 := by
      unfold nearestEven
      simp only
      split_ifs <;> omega
    have h2 : ⌊y⌋ ≤ nearestEven y := by
      unfold nearestEven
      simp only
      split_ifs <;> omega
    omega

theorem nearestEven_zero : nearestEven 0 = 0 := by simpa using nearestEven_int 0

theorem lastBit_neg (x : ℚ) : lastBit (-x) = lastBit x := by unfold lastBit; rw [abs_neg]

theorem round64_neg (x : ℚ) : round64 (-x) = -round64 x := by
  unfold round64
  rw [lastBit_neg]
  rcases lt_trichotomy x 0 with h | h | h
  · rw [if_pos (by linarith), if_neg (by linarith)]; simp
  · subst h; simp [nearestEven_zero]
  · rw [if_neg (by linarith), if_pos (by linarith)]; simp

/-- a multiple of the last bit is kept -/
theorem round64_exact {x : ℚ} (h : ∃ n : ℤ, x = n * 2 ^ lastBit x) : round64 x = x := by
  obtain ⟨n, hn⟩ := h
  have hp : (2 : ℚ) ^ lastBit x ≠ 0 := by positivity
  have h1 : x / 2 ^ lastBit x = n := by rw [div_eq_iff hp]; exact hn
  have h2 : -x / 2 ^ lastBit x = ((-n : ℤ) : ℚ) := by rw [neg_div, h1]; push_cast; rfl
  unfold round64
  split_ifs
  · rw [h1, nearestEven_int]; exact hn.symm
  · rw [h2, nearestEven_int]; push_cast; linarith

theorem round64_error (x : ℚ) : |round64 x - x| ≤ 2 ^ (lastBit x - 1) := by
  have hp : (0 : ℚ) < 2 ^ lastBit x := by positivity
  have hh : (2 : ℚ) ^ (lastBit x - 1) = 2 ^ lastBit x / 2 := by rw [zpow_sub₀ (by norm_num)]; simp
  rw [hh]
  have key : ∀ y : ℚ, |nearestEven (y / 2 ^ lastBit x) * 2 ^ lastBit x - y| ≤ 2 ^ lastBit x / 2 := by
    intro y
    have h1 := nearestEven_le (y / 2 ^ lastBit x)
    have h2 := le_nearestEven (y / 2 ^ lastBit x)
    have h3 : y = y / 2 ^ lastBit x * 2 ^ lastBit x := by field_simp
    rw [abs_le]
    constructor <;> nlinarith
  unfold round64
  split_ifs
  · exact key x
  · have := key (-x)
    rw [← abs_neg]
    convert this using 2
    ring

/-- `2^k` is a multiple of `2^j` -/
theorem pow_multiple {j k : ℤ} (h : j ≤ k) : ∃ n : ℤ, (2 : ℚ) ^ k = n * 2 ^ j :=
  ⟨2 ^ (k - j).toNat, by
    push_cast
    rw [← zpow_natCast, ← zpow_add₀ (by norm_num)]
    congr 1
    omega⟩

theorem log_pow (e : ℤ) : Int.log 2 |(2 : ℚ) ^ e| = e := by
  rw [abs_of_pos (by positivity)]
  exact_mod_cast Int.log_zpow (R := ℚ) (b := 2) (by norm_num) e

theorem log_bounds {x : ℚ} (hx : x ≠ 0) : (2 : ℚ) ^ Int.log 2 |x| ≤ |x| ∧ |x| < 2 ^ (Int.log 2 |x| + 1) := by
  have hp : 0 < |x| := abs_pos.mpr hx
  constructor
  · exact_mod_cast Int.zpow_log_le_self (b := 2) (by norm_num) hp
  · exact_mod_cast Int.lt_zpow_succ_log_self (b := 2) (by norm_num) |x|

theorem log_lt {x : ℚ} (hx : x ≠ 0) {e : ℤ} (h : |x| < 2 ^ e) : Int.log 2 |x| < e := by
  have h1 := (log_bounds hx).1
  by_contra hc
  have : (2 : ℚ) ^ e ≤ 2 ^ Int.log 2 |x| := zpow_le_zpow_right₀ (by norm_num) (by omega)
  linarith

theorem round64_near (e : ℤ) (x : ℚ) (he : -1021 ≤ e) (hx : |x| ≤ 2 ^ e) : |round64 x - x| ≤ 2 ^ (e - 54) := by
  rcases hx.eq_or_lt with hx | hx
  · rw [round64_exact]
    · simp; positivity
    · have hl : lastBit x ≤ e := by
        unfold lastBit
        rw [hx]
        have := log_pow e
        rw [abs_of_pos (by positivity)] at this
        rw [this]
        omega
      obtain ⟨n, hn⟩ := pow_multiple hl
      rcases abs_eq (by positivity : (0 : ℚ) ≤ 2 ^ e) |>.mp hx with h | h
      · exact ⟨n, by rw [← hn, h]⟩
      · exact ⟨-n, by push_cast; rw [neg_mul, ← hn, h]⟩
  · by_cases h0 : x = 0
    · subst h0
      rw [round64_exact ⟨0, by simp⟩]
      simp; positivity
    · refine (round64_error x).trans (zpow_le_zpow_right₀ (by norm_num) ?_)
      have := log_lt h0 hx
      unfold lastBit
      omega

theorem round64_whole (n : ℤ) (hn : |n| ≤ 2 ^ 53) : round64 n = n := by
  by_cases h0 : n = 0
  · subst h0; exact round64_exact ⟨0, by simp⟩
  have h0' : (n : ℚ) ≠ 0 := by exact_mod_cast h0
  apply round64_exact
  have ha : |(n : ℚ)| ≤ 2 ^ (53 : ℤ) := by
    rw [← Int.cast_abs]
    have : ((|n| : ℤ) : ℚ) ≤ ((2 ^ 53 : ℤ) : ℚ) := by exact_mod_cast hn
    have h2 : ((2 : ℚ) ^ (53 : ℤ)) = ((2 ^ 53 : ℤ) : ℚ) := by norm_num
    rw [h2]; exact this
  rcases ha.eq_or_lt with h | h
  · have hl : lastBit (n : ℚ) ≤ 53 := by
      unfold lastBit
      rw [h]
      have := log_pow 53
      rw [abs_of_pos (by positivity)] at this
      rw [this]
      omega
    obtain ⟨m, hm⟩ := pow_multiple hl
    rcases abs_eq (by positivity : (0 : ℚ) ≤ 2 ^ (53 : ℤ)) |>.mp h with h | h
    · exact ⟨m, by rw [← hm, h]⟩
    · exact ⟨-m, by push_cast; rw [neg_mul, ← hm, h]⟩
  · have hl : lastBit (n : ℚ) ≤ 0 := by
      have := log_lt h0' h
      unfold lastBit
      omega
    obtain ⟨m, hm⟩ := pow_multiple hl
    refine ⟨n * m, ?_⟩
    push_cast
    rw [mul_assoc, ← hm]
    simp

theorem round64_nonneg_mono {x y : ℚ} (hx : 0 ≤ x) (h : x ≤ y) : round64 x ≤ round64 y := by
  have hy : 0 ≤ y := hx.trans h
  have hpos : ∀ z : ℚ, 0 ≤ z → round64 z = nearestEven (z / 2 ^ lastBit z) * 2 ^ lastBit z := fun z hz => by
    unfold round64; rw [if_pos hz]
  by_cases heq : lastBit x = lastBit y
  · rw [hpos x hx, hpos y hy, heq]
    apply mul_le_mul_of_nonneg_right _ (by positivity)
    exact_mod_cast nearestEven_mono (div_le_div_of_nonneg_right h (by positivity))
  · rcases hx.eq_or_lt with h0 | hx0
    · rw [← h0, round64_exact (x := 0) ⟨0, by simp⟩, hpos y hy]
      have : (nearestEven 0 : ℤ) ≤ nearestEven (y / 2 ^ lastBit y) := nearestEven_mono (by positivity)
      rw [nearestEven_zero] at this
      have h1 : (0 : ℚ) ≤ (nearestEven (y / 2 ^ lastBit y) : ℚ) := by exact_mod_cast this
      positivity
    · have hy0 : 0 < y := lt_of_lt_of_le hx0 h
      have hbx := log_bounds hx0.ne'
      have hby := log_bounds hy0.ne'
      rw [abs_of_pos hx0] at hbx
      rw [abs_of_pos hy0] at hby
      have hll : Int.log 2 x ≤ Int.log 2 y := by
        by_contra hc
        have : (2 : ℚ) ^ (Int.log 2 y + 1) ≤ 2 ^ Int.log 2 x := zpow_le_zpow_right₀ (by norm_num) (by omega)
        linarith
      have hdef : ∀ z : ℚ, 0 < z → lastBit z = max (Int.log 2 z - 52) (-1074) := fun z hz => by
        unfold lastBit; rw [abs_of_pos hz]
      have hdx := hdef x hx0
      have hdy := hdef y hy0
      -- the power of two between them is a double
      have hM1 : lastBit x ≤ Int.log 2 y := by omega
      have hM2 : lastBit y ≤ Int.log 2 y := by omega
      obtain ⟨m, hm⟩ := pow_multiple hM1
      obtain ⟨n, hn⟩ := pow_multiple hM2
      have hxM : x ≤ 2 ^ Int.log 2 y := by
        have : (2 : ℚ) ^ (Int.log 2 x + 1) ≤ 2 ^ Int.log 2 y := zpow_le_zpow_right₀ (by norm_num) (by omega)
        linarith
      have e1 : round64 x ≤ 2 ^ Int.log 2 y := by
        rw [hpos x hx, hm]
        apply mul_le_mul_of_nonneg_right _ (by positivity)
        have : nearestEven (x / 2 ^ lastBit x) ≤ nearestEven (m : ℚ) := by
          apply nearestEven_mono
          rw [div_le_iff₀ (by positivity), ← hm]
          exact hxM
        rw [nearestEven_int] at this
        exact_mod_cast this
      have e2 : (2 : ℚ) ^ Int.log 2 y ≤ round64 y := by
        rw [hpos y hy]
        conv_lhs => rw [hn]
        apply mul_le_mul_of_nonneg_right _ (by positivity)
        have : nearestEven (n : ℚ) ≤ nearestEven (y / 2 ^ lastBit y) := by
          apply nearestEven_mono
          rw [le_div_iff₀ (by positivity), ← hn]
          exact hby.1
        rw [nearestEven_int] at this
        exact_mod_cast this
      linarith

theorem round64_nonneg {x : ℚ} (hx : 0 ≤ x) : 0 ≤ round64 x := by
  have := round64_nonneg_mono le_rfl hx
  rwa [round64_exact (x := 0) ⟨0, by simp⟩] at this

theorem round64_mono (x y : ℚ) (h : x ≤ y) : round64 x ≤ round64 y := by
  by_cases hx : 0 ≤ x
  · exact round64_nonneg_mono hx h
  · by_cases hy : 0 ≤ y
    · have h1 := round64_nonneg hy
      have h2 := round64_nonneg (x := -x) (by linarith)
      rw [round64_neg] at h2
      linarith
    · have := round64_nonneg_mono (x := -y) (y := -x) (by linarith) (by linarith)
      rw [round64_neg, round64_neg] at this
      linarith

theorem round64_doubles : Doubles round64 :=
  ⟨fun e x h _ hx => round64_near e x h hx, round64_whole, round64_mono⟩

end Verif.Double
