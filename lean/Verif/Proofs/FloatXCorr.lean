import Verif.Spec.FloatXCorr
import Verif.Model.FloatXCorr
import Verif.Proofs.Double
import Verif.Props.XCorr

/-!
# Error bounds for the cross-correlation in double precision
-/

set_option linter.unusedSimpArgs false

namespace Verif.FloatXCorr
open Verif Verif.DoubleSpec Verif.FloatXCorrSpec Finset
open Verif.XCorr (read)

/-- rounding errors relative to a bound of the result -/
theorem near_bound {fl : ℚ → ℚ} (h : Doubles fl) {x B : ℚ} (lo : 2 ^ (-1022 : ℤ) ≤ B) (hi : B < 2 ^ (1023 : ℤ)) (hx : |x| ≤ B) :
    |fl x - x| ≤ 1 / 2 ^ 53 * B := by
  have hB : 0 < B := lt_of_lt_of_le (by positivity) lo
  have h1 : ((2 : ℕ) : ℚ) ^ Int.log 2 B ≤ B := Int.zpow_log_le_self (by norm_num) hB
  have h2 : B < ((2 : ℕ) : ℚ) ^ (Int.log 2 B + 1) := Int.lt_zpow_succ_log_self (by norm_num) B
  push_cast at h1 h2
  have e1 : -1022 ≤ Int.log 2 B := by
    have : (2 : ℚ) ^ (-1022 : ℤ) < 2 ^ (Int.log 2 B + 1) := lt_of_le_of_lt lo h2
    have := (zpow_lt_zpow_iff_right₀ (by norm_num : (1 : ℚ) < 2)).1 this
    omega
  have e2 : Int.log 2 B < 1023 := by
    have : (2 : ℚ) ^ Int.log 2 B < 2 ^ (1023 : ℤ) := lt_of_le_of_lt h1 hi
    exact (zpow_lt_zpow_iff_right₀ (by norm_num : (1 : ℚ) < 2)).1 this
  have h3 := h.near (Int.log 2 B + 1) x (by omega) (by omega) (hx.trans h2.le)
  refine h3.trans ?_
  have e3 : (2 : ℚ) ^ (Int.log 2 B + 1 - 54) = 1 / 2 ^ 53 * 2 ^ Int.log 2 B := by
    rw [show Int.log 2 B + 1 - 54 = -53 + Int.log 2 B by ring, zpow_add₀ (by norm_num)]
    norm_num
  rw [e3]
  exact mul_le_mul_of_nonneg_left h1 (by norm_num)

/-- the sizes of the numbers that occur: `n` samples of at most `A`, and at most `T` updates of the sums -/
structure Ctx (fl : ℚ → ℚ) (n T : ℕ) (A u : ℚ) : Prop where
  near : ∀ x B : ℚ, (A ≤ B ∨ A ^ 2 ≤ B ∨ 1 ≤ B) → (B ≤ 2 * (n * A) ∨ B ≤ 7 * (n * A) ^ 2 ∨ B ≤ 2) → |x| ≤ B → |fl x - x| ≤ u * B
  pos : 1 ≤ n
  posA : 0 < A
  posu : 0 ≤ u
  small : 14 * (T * u) ≤ 1
  le : n ≤ T

section
variable {fl : ℚ → ℚ} {n T : ℕ} {A u : ℚ}

theorem Ctx.one_le (h : Ctx fl n T A u) : (1 : ℚ) ≤ n := by exact_mod_cast h.pos
theorem Ctx.A_le (h : Ctx fl n T A u) : A ≤ n * A := le_mul_of_one_le_left h.posA.le h.one_le
theorem Ctx.A2_le (h : Ctx fl n T A u) : A ^ 2 ≤ n * A ^ 2 := le_mul_of_one_le_left (sq_nonneg _) h.one_le
theorem Ctx.Q_le (h : Ctx fl n T A u) : n * A ^ 2 ≤ (n * A) ^ 2 := by
  have := le_mul_of_one_le_left (mul_nonneg (by linarith [h.one_le] : (0 : ℚ) ≤ n) (sq_nonneg A)) h.one_le
  calc n * A ^ 2 ≤ n * (n * A ^ 2) := this
    _ = (n * A) ^ 2 := by ring
theorem Ctx.u_le (h : Ctx fl n T A u) : 14 * u ≤ 1 := by
  have h1 : (1 : ℚ) ≤ T := by exact_mod_cast h.pos.trans h.le
  have := mul_le_mul_of_nonneg_right h1 h.posu
  have := h.small
  linarith

/-- one rounded addition -/
theorem acc {fl : ℚ → ℚ} {u s s' t t' e τ M : ℚ} (hs : |s' - s| ≤ e) (ht : |t' - t| ≤ τ) (hM : |s + t| ≤ M) (he : e + τ ≤ M)
    (hn : ∀ x, |x| ≤ 2 * M → |fl x - x| ≤ u * (2 * M)) : |fl (s' + t') - (s + t)| ≤ e + τ + u * (2 * M) := by
  have h1 : |s' + t' - (s + t)| ≤ e + τ := by
    rw [show s' + t' - (s + t) = (s' - s) + (t' - t) by ring]
    exact (abs_add_le _ _).trans (add_le_add hs ht)
  have h2 : |s' + t'| ≤ 2 * M := by
    have := abs_add_le (s' + t' - (s + t)) (s + t)
    rw [sub_add_cancel] at this
    linarith
  have h3 := hn _ h2
  have := abs_add_le (fl (s' + t') - (s' + t')) (s' + t' - (s + t))
  rw [sub_add_sub_cancel] at this
  linarith

theorem sum_bound {f : ℕ → ℚ} {c : ℚ} (i : ℕ) (h : ∀ j < i, |f j| ≤ c) : |∑ j ∈ range i, f j| ≤ i * c := by
  refine (Finset.abs_sum_le_sum_abs _ _).trans ?_
  have := Finset.sum_le_sum (s := range i) (f := fun j => |f j|) (g := fun _ => c) (fun j hj => h j (Finset.mem_range.1 hj))
  simpa using this

theorem sq_bound {x A : ℚ} (hx : |x| ≤ A) : |x * x| ≤ A ^ 2 := by
  rw [abs_mul, sq]; exact mul_self_le_mul_self (abs_nonneg _) hx

theorem mul_bound {x y A : ℚ} (hx : |x| ≤ A) (hy : |y| ≤ A) : |x * y| ≤ A ^ 2 := by
  rw [abs_mul, sq]; exact mul_le_mul hx hy (abs_nonneg _) ((abs_nonneg _).trans hx)

/-- a sample is added to a sum -/
theorem Ctx.addSample (h : Ctx fl n T A u) {s s' x : ℚ} {i : ℕ} (hi : i + 1 ≤ T) (hs : |s' - s| ≤ i * (4 * (n * A) * u))
    (hM : |s + x| ≤ n * A) : |fl (s' + x) - (s + x)| ≤ ((i + 1 : ℕ) : ℚ) * (4 * (n * A) * u) := by
  have hP : 0 < n * A := lt_of_lt_of_le h.posA h.A_le
  have hiT : (i : ℚ) * u ≤ T * u := mul_le_mul_of_nonneg_right (by exact_mod_cast (by omega : i ≤ T)) h.posu
  have hs' := h.small
  have h0 : (i : ℚ) * (4 * (n * A) * u) ≤ n * A := by
    calc (i : ℚ) * (4 * (n * A) * u) = n * A * (4 * (i * u)) := by ring
      _ ≤ n * A * 1 := mul_le_mul_of_nonneg_left (by linarith) hP.le
      _ = n * A := mul_one _
  have := acc (fl := fl) (u := u) hs (t := x) (t' := x) (τ := 0) (by simp) hM (by linarith)
    (fun y hy => h.near y _ (.inl (by linarith [h.A_le])) (.inl le_rfl) hy)
  refine this.trans ?_
  have := mul_nonneg hP.le h.posu
  push_cast
  linarith

/-- a rounded product is added to a sum -/
theorem Ctx.addProduct (h : Ctx fl n T A u) {s s' x y : ℚ} {i : ℕ} (hi : i + 1 ≤ T) (hs : |s' - s| ≤ i * (7 * (n * A ^ 2) * u))
    (hx : |x| ≤ A) (hy : |y| ≤ A) (hM : |s + x * y| ≤ n * A ^ 2) :
    |fl (s' + fl (x * y)) - (s + x * y)| ≤ ((i + 1 : ℕ) : ℚ) * (7 * (n * A ^ 2) * u) := by
  have hA2 : 0 < A ^ 2 := pow_pos h.posA 2
  have hQ : 0 < n * A ^ 2 := lt_of_lt_of_le hA2 h.A2_le
  have hiT : ((i + 1 : ℕ) : ℚ) * u ≤ T * u := mul_le_mul_of_nonneg_right (by exact_mod_cast hi) h.posu
  have hs' := h.small
  have hQu := mul_le_mul_of_nonneg_right h.A2_le h.posu
  have hW := h.Q_le
  have ht := h.near (x * y) (A ^ 2) (.inr (.inl le_rfl)) (.inr (.inl (by linarith [h.A2_le]))) (mul_bound hx hy)
  have h0 : (i : ℚ) * (7 * (n * A ^ 2) * u) + u * A ^ 2 ≤ n * A ^ 2 := by
    have : ((i + 1 : ℕ) : ℚ) * (7 * (n * A ^ 2) * u) ≤ n * A ^ 2 := by
      calc ((i + 1 : ℕ) : ℚ) * (7 * (n * A ^ 2) * u) = n * A ^ 2 * (7 * (((i + 1 : ℕ) : ℚ) * u)) := by ring
        _ ≤ n * A ^ 2 * 1 := mul_le_mul_of_nonneg_left (by linarith) hQ.le
        _ = n * A ^ 2 := mul_one _
    have hz := mul_nonneg hQ.le h.posu
    push_cast at this
    linarith
  have := acc (fl := fl) (u := u) hs ht hM h0
    (fun y hy => h.near y _ (.inr (.inl (by linarith [h.A2_le]))) (.inr (.inl (by linarith))) hy)
  refine this.trans ?_
  have hz := mul_nonneg hQ.le h.posu
  push_cast
  linarith

/-- a sample enters the window and another one leaves it -/
theorem Ctx.slide (h : Ctx fl n T A u) {s s' new last : ℚ} {i : ℕ} (hi : i + 1 ≤ T) (hs : |s' - s| ≤ i * (4 * (n * A) * u))
    (hn : |new| ≤ A) (hl : |last| ≤ A) (hM : |s + (new - last)| ≤ n * A) :
    |fl (s' + fl (new - last)) - (s + (new - last))| ≤ ((i + 1 : ℕ) : ℚ) * (4 * (n * A) * u) := by
  have hP : 0 < n * A := lt_of_lt_of_le h.posA h.A_le
  have hiT : ((i + 1 : ℕ) : ℚ) * u ≤ T * u := mul_le_mul_of_nonneg_right (by exact_mod_cast hi) h.posu
  have hs' := h.small
  have hPu := mul_le_mul_of_nonneg_right h.A_le h.posu
  have hz := mul_nonneg hP.le h.posu
  have ht := h.near (new - last) (2 * A) (.inl (by linarith [h.posA])) (.inl (by linarith [h.A_le]))
    ((abs_sub _ _).trans (by linarith))
  have h0 : (i : ℚ) * (4 * (n * A) * u) + u * (2 * A) ≤ n * A := by
    have : ((i + 1 : ℕ) : ℚ) * (4 * (n * A) * u) ≤ n * A := by
      calc ((i + 1 : ℕ) : ℚ) * (4 * (n * A) * u) = n * A * (4 * (((i + 1 : ℕ) : ℚ) * u)) := by ring
        _ ≤ n * A * 1 := mul_le_mul_of_nonneg_left (by linarith) hP.le
        _ = n * A := mul_one _
    push_cast at this
    linarith
  have := acc (fl := fl) (u := u) hs ht hM h0 (fun y hy => h.near y _ (.inl (by linarith [h.A_le])) (.inl le_rfl) hy)
  refine this.trans ?_
  push_cast
  linarith

/-- the same for the sum of the squares -/
theorem Ctx.slideSquares (h : Ctx fl n T A u) {s s' new last : ℚ} {i : ℕ} (hi : i + 1 ≤ T) (hs : |s' - s| ≤ i * (7 * (n * A ^ 2) * u))
    (hn : |new| ≤ A) (hl : |last| ≤ A) (hM : |s + (new * new - last * last)| ≤ n * A ^ 2) :
    |fl (s' + fl (fl (new * new) - fl (last * last))) - (s + (new * new - last * last))| ≤
      ((i + 1 : ℕ) : ℚ) * (7 * (n * A ^ 2) * u) := by
  have hA2 : 0 < A ^ 2 := pow_pos h.posA 2
  have hQ : 0 < n * A ^ 2 := lt_of_lt_of_le hA2 h.A2_le
  have hiT : ((i + 1 : ℕ) : ℚ) * u ≤ T * u := mul_le_mul_of_nonneg_right (by exact_mod_cast hi) h.posu
  have hs' := h.small
  have hQu := mul_le_mul_of_nonneg_right h.A2_le h.posu
  have hW := h.Q_le
  have hz := mul_nonneg hQ.le h.posu
  have hu : u * A ^ 2 ≤ A ^ 2 / 14 := by
    have := mul_le_mul_of_nonneg_right h.u_le hA2.le
    linarith
  have t1 := h.near (new * new) (A ^ 2) (.inr (.inl le_rfl)) (.inr (.inl (by linarith [h.A2_le]))) (sq_bound hn)
  have t2 := h.near (last * last) (A ^ 2) (.inr (.inl le_rfl)) (.inr (.inl (by linarith [h.A2_le]))) (sq_bound hl)
  have t3 : |fl (new * new) - fl (last * last) - (new * new - last * last)| ≤ 2 * (u * A ^ 2) := by
    rw [show fl (new * new) - fl (last * last) - (new * new - last * last) =
      (fl (new * new) - new * new) - (fl (last * last) - last * last) by ring]
    exact (abs_sub _ _).trans (by linarith)
  have t4 : |fl (new * new) - fl (last * last)| ≤ 3 * A ^ 2 := by
    have e1 := abs_add_le (fl (new * new) - fl (last * last) - (new * new - last * last)) (new * new - last * last)
    rw [sub_add_cancel] at e1
    have e2 := abs_sub (new * new) (last * last)
    have e3 := sq_bound hn
    have e4 := sq_bound hl
    linarith
  have t5 := h.near _ (3 * A ^ 2) (.inr (.inl (by linarith))) (.inr (.inl (by linarith [h.A2_le]))) t4
  have ht : |fl (fl (new * new) - fl (last * last)) - (new * new - last * last)| ≤ 5 * (u * A ^ 2) := by
    have e1 := abs_add_le (fl (fl (new * new) - fl (last * last)) - (fl (new * new) - fl (last * last)))
      (fl (new * new) - fl (last * last) - (new * new - last * last))
    rw [sub_add_sub_cancel] at e1
    linarith
  have h0 : (i : ℚ) * (7 * (n * A ^ 2) * u) + 5 * (u * A ^ 2) ≤ n * A ^ 2 := by
    have : ((i + 1 : ℕ) : ℚ) * (7 * (n * A ^ 2) * u) ≤ n * A ^ 2 := by
      calc ((i + 1 : ℕ) : ℚ) * (7 * (n * A ^ 2) * u) = n * A ^ 2 * (7 * (((i + 1 : ℕ) : ℚ) * u)) := by ring
        _ ≤ n * A ^ 2 * 1 := mul_le_mul_of_nonneg_left (by linarith) hQ.le
        _ = n * A ^ 2 := mul_one _
    push_cast at this
    linarith
  have := acc (fl := fl) (u := u) hs ht hM h0
    (fun y hy => h.near y _ (.inr (.inl (by linarith [h.A2_le]))) (.inr (.inl (by linarith))) hy)
  refine this.trans ?_
  push_cast
  linarith

/-- `n a - b c` -/
theorem Ctx.combine (h : Ctx fl n T A u) {a a' b b' c c' : ℚ} (ha : |a' - a| ≤ T * (7 * (n * A ^ 2) * u))
    (hb : |b' - b| ≤ T * (4 * (n * A) * u)) (hc : |c' - c| ≤ T * (4 * (n * A) * u)) (la : |a| ≤ n * A ^ 2) (lb : |b| ≤ n * A)
    (lc : |c| ≤ n * A) : |fl (fl (n * a') - fl (b' * c')) - (n * a - b * c)| ≤ 32 * T * (n * A) ^ 2 * u := by
  have hA2 : 0 < A ^ 2 := pow_pos h.posA 2
  have hQ : 0 < n * A ^ 2 := lt_of_lt_of_le hA2 h.A2_le
  have hP : 0 < n * A := lt_of_lt_of_le h.posA h.A_le
  have hn0 : (0 : ℚ) < n := lt_of_lt_of_le one_pos h.one_le
  have hT1 : (1 : ℚ) ≤ T := by exact_mod_cast h.pos.trans h.le
  have hsm := h.small
  have hW0 : 0 < (n * A) ^ 2 := pow_pos hP 2
  have eW : (n : ℚ) * (n * A ^ 2) = (n * A) ^ 2 := by ring
  have ha1 : T * (7 * (n * A ^ 2) * u) ≤ n * A ^ 2 := by
    calc T * (7 * (n * A ^ 2) * u) = n * A ^ 2 * (7 * (T * u)) := by ring
      _ ≤ n * A ^ 2 * 1 := mul_le_mul_of_nonneg_left (by linarith) hQ.le
      _ = n * A ^ 2 := mul_one _
  have hb1 : T * (4 * (n * A) * u) ≤ n * A := by
    calc T * (4 * (n * A) * u) = n * A * (4 * (T * u)) := by ring
      _ ≤ n * A * 1 := mul_le_mul_of_nonneg_left (by linarith) hP.le
      _ = n * A := mul_one _
  have tri : ∀ {x y e M : ℚ}, |x - y| ≤ e → |y| ≤ M → e ≤ M → |x| ≤ 2 * M := by
    intro x y e M h1 h2 h3
    have := abs_add_le (x - y) y
    rw [sub_add_cancel] at this
    linarith
  have la' := tri ha la ha1
  have lb' := tri hb lb hb1
  have lc' := tri hc lc hb1
  generalize hWd : (n * A) ^ 2 = W at *
  have hWA : A ^ 2 ≤ W := by rw [← hWd]; exact h.A2_le.trans h.Q_le
  have n1 : |n * a' - n * a| ≤ 7 * (T * (W * u)) := by
    rw [← mul_sub, abs_mul, abs_of_pos hn0]
    calc n * |a' - a| ≤ n * (T * (7 * (n * A ^ 2) * u)) := mul_le_mul_of_nonneg_left ha hn0.le
      _ = 7 * (T * (n * (n * A ^ 2) * u)) := by ring
      _ = 7 * (T * (W * u)) := by rw [eW]
  have n2 : |n * a'| ≤ 2 * W := by
    rw [abs_mul, abs_of_pos hn0, ← eW]
    calc n * |a'| ≤ n * (2 * (n * A ^ 2)) := mul_le_mul_of_nonneg_left la' hn0.le
      _ = 2 * (n * (n * A ^ 2)) := by ring
  have n3 := h.near (n * a') (2 * W) (.inr (.inl (by linarith))) (.inr (.inl (by rw [hWd]; linarith))) n2
  have p1 : |b' * c' - b * c| ≤ 12 * (T * (W * u)) := by
    rw [show b' * c' - b * c = (b' - b) * c' + b * (c' - c) by ring]
    refine (abs_add_le _ _).trans ?_
    rw [abs_mul, abs_mul]
    have q1 := mul_le_mul hb lc' (abs_nonneg _) (le_trans (abs_nonneg _) hb)
    have q2 := mul_le_mul lb hc (abs_nonneg _) hP.le
    calc |b' - b| * |c'| + |b| * |c' - c| ≤ T * (4 * (n * A) * u) * (2 * (n * A)) + n * A * (T * (4 * (n * A) * u)) := add_le_add q1 q2
      _ = 12 * (T * ((n * A) ^ 2 * u)) := by ring
      _ = 12 * (T * (W * u)) := by rw [hWd]
  have p2 : |b' * c'| ≤ 4 * W := by
    rw [abs_mul, ← hWd]
    calc |b'| * |c'| ≤ 2 * (n * A) * (2 * (n * A)) := mul_le_mul lb' lc' (abs_nonneg _) (by positivity)
      _ = 4 * (n * A) ^ 2 := by ring
  have p3 := h.near (b' * c') (4 * W) (.inr (.inl (by linarith))) (.inr (.inl (by rw [hWd]; linarith))) p2
  have hWu : 14 * (W * u) ≤ W := by
    have := mul_le_mul_of_nonneg_left h.u_le hW0.le
    linarith
  have hWu0 := mul_nonneg hW0.le h.posu
  have hTW : W * u ≤ T * (W * u) := le_mul_of_one_le_left hWu0 hT1
  have r1 : |fl (n * a') - fl (b' * c')| ≤ 7 * W := by
    have e1 := abs_sub (fl (n * a')) (fl (b' * c'))
    have e2 := abs_add_le (fl (n * a') - n * a') (n * a')
    have e3 := abs_add_le (fl (b' * c') - b' * c') (b' * c')
    rw [sub_add_cancel] at e2 e3
    linarith
  have r2 := h.near _ (7 * W) (.inr (.inl (by linarith))) (.inr (.inl (by rw [hWd]))) r1
  have e1 := abs_add_le (fl (fl (n * a') - fl (b' * c')) - (fl (n * a') - fl (b' * c')))
    ((fl (n * a') - fl (b' * c')) - (n * a - b * c))
  rw [sub_add_sub_cancel] at e1
  have e2 : |(fl (n * a') - fl (b' * c')) - (n * a - b * c)| ≤ |fl (n * a') - n * a| + |fl (b' * c') - b * c| := by
    rw [show (fl (n * a') - fl (b' * c')) - (n * a - b * c) = (fl (n * a') - n * a) - (fl (b' * c') - b * c) by ring]
    exact abs_sub _ _
  have e3 := abs_add_le (fl (n * a') - n * a') (n * a' - n * a)
  have e4 := abs_add_le (fl (b' * c') - b' * c') (b' * c' - b * c)
  rw [sub_add_sub_cancel] at e3 e4
  linarith

end
end Verif.FloatXCorr
