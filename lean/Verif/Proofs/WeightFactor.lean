import Verif.Proofs.SystemOrder

/-! Helper lemmas for C136: a common factor of the weights. -/

set_option linter.unusedSectionVars false
set_option linter.unusedSimpArgs false

namespace Verif.LeastSquares
open Matrix

variable {m n : Nat} {tiny c : ℝ}

theorem sqrt_factor (hc : 0 < c) (a : ℝ) : √(c ^ 2 * a) = c * √a := by
  rw [Real.sqrt_mul (sq_nonneg c), Real.sqrt_sq hc.le]

theorem dnrm2_factor (hc : 0 < c) (x : Fin n → ℝ) : dnrm2 (real tiny) (fun i => c * x i) = c * dnrm2 (real tiny) x := by
  rw [dnrm2_eq, dnrm2_eq, ← sqrt_factor hc]
  congr 1
  unfold dotProduct
  rw [Finset.mul_sum]
  exact Finset.sum_congr rfl fun i _ => by ring

theorem d2norm_factor (hc : 0 < c) (a b : ℝ) : d2norm (real tiny) (c * a) (c * b) = c * d2norm (real tiny) a b := by
  rw [d2norm_eq, d2norm_eq, ← sqrt_factor hc]
  congr 1
  ring

/-- the vectors when the data is multiplied by a factor -/
noncomputable def Vectors.times (c : ℝ) (s : Vectors m n ℝ) : Vectors m n ℝ := ⟨s.alpha, c * s.beta, s.u, s.v⟩

theorem firstVectors_factor (hc : 0 < c) (P : Products m n ℝ) (b : Fin m → ℝ) :
    firstVectors (real tiny) P (fun i => c * b i) = (firstVectors (real tiny) P b).times c := by
  unfold firstVectors
  simp only [dnrm2_factor hc]
  by_cases h : 0 < dnrm2 (real tiny) b
  · have h' : 0 < c * dnrm2 (real tiny) b := mul_pos hc h
    rw [if_pos h', if_pos h]
    have e : scale (1 / (c * dnrm2 (real tiny) b)) (fun i => c * b i) = scale (1 / dnrm2 (real tiny) b) b := by
      funext i
      unfold scale
      field_simp
    rw [e]
    split <;> rfl
  · have h' : ¬ 0 < c * dnrm2 (real tiny) b := fun hh => h (pos_of_mul_pos_right hh hc.le)
    rw [if_neg h', if_neg h]
    have hb : (fun i => c * b i) = b := by
      rw [(zero_of h).2]; funext i; simp
    rw [hb]
    rfl

/-- `c * x`, kept apart from the other products -/
noncomputable def by' (c x : ℝ) : ℝ := c * x

/-- `x / c`, kept apart from the other quotients -/
noncomputable def per (c x : ℝ) : ℝ := x / c

theorem mul_by (a b : ℝ) : a * by' c b = by' c (a * b) := by unfold by'; ring
theorem by_mul (a b : ℝ) : by' c a * b = by' c (a * b) := by unfold by'; ring
theorem by_add (a b : ℝ) : by' c a + by' c b = by' c (a + b) := by unfold by'; ring
theorem by_sub (a b : ℝ) : by' c a - by' c b = by' c (a - b) := by unfold by'; ring
theorem by_div (a b : ℝ) : by' c a / b = by' c (a / b) := by unfold by'; ring
theorem div_by (a b : ℝ) : a / by' c b = per c (a / b) := by unfold by' per; rw [div_div, mul_comm]
theorem by_per (hc : 0 < c) (a : ℝ) : by' c (per c a) = a := by unfold by' per; field_simp
theorem per_by (hc : 0 < c) (a : ℝ) : per c (by' c a) = a := by unfold by' per; field_simp
theorem per_div (a b : ℝ) : per c a / b = per c (a / b) := by unfold per; ring
theorem by_dnrm2 (hc : 0 < c) (x : Fin n → ℝ) : dnrm2 (real tiny) (fun i => by' c (x i)) = by' c (dnrm2 (real tiny) x) := dnrm2_factor hc x
theorem by_d2norm (hc : 0 < c) (a b : ℝ) : d2norm (real tiny) (by' c a) (by' c b) = by' c (d2norm (real tiny) a b) := d2norm_factor hc a b
theorem by_sqrt (hc : 0 < c) (a : ℝ) : (real tiny).sqrt (by' c (by' c a)) = by' c ((real tiny).sqrt a) := by
  show √(c * (c * a)) = c * √a
  rw [← sqrt_factor hc]; congr 1; ring
theorem by_abs (hc : 0 < c) (a : ℝ) : (real tiny).abs (by' c a) = by' c ((real tiny).abs a) := by
  show |c * a| = c * |a|
  rw [abs_mul, abs_of_pos hc]

namespace Lsmr

/-- the state when the data is multiplied by a factor -/
noncomputable def times (c : ℝ) (s : Lsmr m n ℝ) : Lsmr m n ℝ :=
  { s with x := fun i => by' c (s.x i), zetabar := by' c s.zetabar, betadd := by' c s.betadd, betad := by' c s.betad,
           tautildeold := by' c s.tautildeold, zeta := by' c s.zeta, d := by' c (by' c s.d), normb := by' c s.normb,
           normr := by' c s.normr, normAr := by' c s.normAr, normx := by' c s.normx }

theorem start_times (hc : 0 < c) {P : Products m n ℝ} (hP : ∀ y, P.aprod1 (fun _ => 0) y = y) (big : ℝ) (b : Fin m → ℝ) :
    start (real tiny) P big (fun i => c * b i) =
      { (start (real tiny) P big b).times c with vec := (start (real tiny) P big b).vec.times c } := by
  have e : ∀ b : Fin m → ℝ, scale (-1) (P.aprod1 (fun _ => 0) (scale (-1) b)) = b := by
    intro b
    rw [hP]
    funext i
    simp [scale]
  unfold start
  simp only [e, firstVectors_factor hc]
  simp only [times, Vectors.times, by', Lsmr.mk.injEq, true_and, and_true]
  refine ⟨?_, ?_, ?_, ?_, ?_, ?_, ?_, ?_⟩
  all_goals simp [mul_left_comm]

theorem iterate_times (hc : 0 < c) (P : Products m n ℝ) (o : Settings ℝ) (s : Lsmr m n ℝ) :
    iterate (real tiny) P o (s.times c) = (iterate (real tiny) P o s).times c := by
  unfold iterate
  simp only [times, mul_by, by_mul, by_add, by_sub, by_div, div_by, by_per hc, per_by hc, per_div, by_dnrm2 hc, by_sqrt hc, by_abs hc,
    Lsmr.mk.injEq, true_and, and_true]
  refine ⟨?_, ?_⟩
  · congr 1
  · exact ⟨rfl, rfl⟩

theorem loop_times (hc : 0 < c) (P : Products m n ℝ) (o : Settings ℝ) (fuel : Nat) (s : Lsmr m n ℝ) :
    loop (real tiny) P o fuel (s.times c) = (loop (real tiny) P o fuel s).map (times c) := by
  induction fuel generalizing s with
  | zero => rfl
  | succ fuel ih =>
    unfold loop
    simp only [iterate_times hc]
    rw [show (times c (iterate (real tiny) P o s)).istop = (iterate (real tiny) P o s).istop from rfl]
    split
    · exact ih _
    · rfl

/-- the solution for data multiplied by a factor -/
theorem solve_times (hc : 0 < c) {P : Products m n ℝ} (hP : ∀ y, P.aprod1 (fun _ => 0) y = y) (big : ℝ) (o : Settings ℝ)
    (b : Fin m → ℝ) (fuel : Nat) :
    (solve (real tiny) P big o (fun i => c * b i) fuel).map (fun s => (⟨s.istop, s.itn, s.x⟩ : Run n)) =
      (solve (real tiny) P big o b fuel).map (fun s => ⟨s.istop, s.itn, fun i => c * s.x i⟩) := by
  unfold solve
  simp only [start_times hc hP]
  generalize start (real tiny) P big b = s
  have e : (({ s.times c with vec := s.vec.times c } : Lsmr m n ℝ).normAr == 0) = (s.normAr == 0) := by
    rw [Bool.eq_iff_iff, beq_iff_eq, beq_iff_eq]
    show c * s.normAr = 0 ↔ _
    simp [hc.ne']
  rw [e]
  split
  · rfl
  · cases fuel with
    | zero => rfl
    | succ fuel =>
      have e : loop (real tiny) P o (fuel + 1) { s.times c with vec := s.vec.times c } = loop (real tiny) P o (fuel + 1) (s.times c) := rfl
      rw [e, loop_times hc, Option.map_map]
      rfl

end Lsmr

/-- the system with all its weights multiplied by a factor -/
def weighted (c : ℝ) (dd : DDSystem ℝ) : DDSystem ℝ := { dd with W := fun r => c * dd.W r }

theorem colSq_weighted (dd : DDSystem ℝ) (i : Nat) : (weighted c dd).colSq i = c ^ 2 * dd.colSq i := by
  rw [DDSystem.colSq_eq, DDSystem.colSq_eq, Finset.mul_sum]
  refine Finset.sum_congr rfl fun r _ => ?_
  show ((if dd.ev1 r = some (i / 4) then (dd.partialDerivative r i * (c * dd.W r)) ^ 2 else 0) +
    (if dd.ev2 r = some (i / 4) then (dd.partialDerivative r i * (c * dd.W r)) ^ 2 else 0)) = _
  split <;> split <;> ring

theorem scaler_weighted (hc : 0 < c) (dd : DDSystem ℝ) {i : Nat} (hi : i < dd.numCols) :
    (final (weighted c dd) true).scaler i = (final dd true).scaler i / c := by
  rw [final_scaler (weighted c dd) true hi, final_scaler dd true hi, if_pos rfl, if_pos rfl, colSq_weighted, sqrt_factor hc, mul_comm,
    div_mul_eq_div_div]

theorem term_weighted (hc : 0 < c) (dd : DDSystem ℝ) (x : Fin (final dd true).numCols → ℝ) (g : ℝ) (i : Nat) :
    g * (final (weighted c dd) true).scaler i * array x i = g * (final dd true).scaler i * array x i / c := by
  by_cases hi : i < dd.numCols
  · rw [scaler_weighted hc dd hi]; ring
  · have h0 : array x i = 0 := by
      unfold array
      have : ¬ i < (final dd true).numCols := hi
      rw [dif_neg this]
    rw [h0]; simp

theorem rowSum_weighted (hc : 0 < c) (dd : DDSystem ℝ) (x : Fin (final dd true).numCols → ℝ) (ob : Nat) :
    (final (weighted c dd) true).rowSum (array x) ob = (final dd true).rowSum (array x) ob / c := by
  have t := term_weighted hc dd x
  have e1 : (final (weighted c dd) true).ev1 ob = (final dd true).ev1 ob := rfl
  have e2 : (final (weighted c dd) true).ev2 ob = (final dd true).ev2 ob := rfl
  have e3 : ∀ e, (final (weighted c dd) true).idxG e ob = (final dd true).idxG e ob := fun _ => rfl
  have e4 : (final (weighted c dd) true).G = (final dd true).G := rfl
  unfold DDSystem.rowSum
  simp only [e1, e2, e3, e4]
  cases (final dd true).ev1 ob <;> cases (final dd true).ev2 ob <;> simp only [List.foldl, t] <;> ring

theorem aprod1_weighted (hc : 0 < c) (dd : DDSystem ℝ) (x : Fin (final dd true).numCols → ℝ) (y : Nat → ℝ) :
    (final (weighted c dd) true).aprod1 (array x) y = (final dd true).aprod1 (array x) y := by
  have hstep : (fun (y : Nat → ℝ) ob => if (final (weighted c dd) true).W ob = 0 then y else
        DDSystem.addAt y ob ((final (weighted c dd) true).W ob * (final (weighted c dd) true).rowSum (array x) ob)) =
      fun y ob => if (final dd true).W ob = 0 then y else DDSystem.addAt y ob ((final dd true).W ob * (final dd true).rowSum (array x) ob) := by
    funext y ob
    have hw : (final (weighted c dd) true).W ob = c * (final dd true).W ob := rfl
    rw [hw, rowSum_weighted hc, show c * (final dd true).W ob * ((final dd true).rowSum (array x) ob / c) =
      (final dd true).W ob * (final dd true).rowSum (array x) ob by field_simp]
    by_cases h : (final dd true).W ob = 0
    · rw [if_pos (by rw [h, mul_zero]), if_pos h]
    · rw [if_neg (mul_ne_zero hc.ne' h), if_neg h]
  unfold DDSystem.aprod1
  rw [hstep]
  rfl

theorem addAt_agree {N : Nat} {v v' : Nat → ℝ} (h : ∀ i < N, v i = v' i) (j : Nat) {a a' : ℝ} (ha : j < N → a = a') :
    ∀ i < N, DDSystem.addAt v j a i = DDSystem.addAt v' j a' i := by
  intro i hi
  unfold DDSystem.addAt
  by_cases hj : i = j
  · subst hj; rw [if_pos rfl, if_pos rfl, h i hi, ha hi]
  · rw [if_neg hj, if_neg hj, h i hi]

theorem addEvent_agree {N : Nat} {v v' : Nat → ℝ} (h : ∀ i < N, v i = v' i) (o : Option Nat) {f f' : Nat → Nat → ℝ}
    (hf : ∀ e k, e * 4 + k < N → f e k = f' e k) : ∀ i < N, DDSystem.addEvent o f v i = DDSystem.addEvent o f' v' i := by
  unfold DDSystem.addEvent
  cases o with
  | none => exact h
  | some e =>
    simp only [List.foldl]
    exact addAt_agree (addAt_agree (addAt_agree (addAt_agree h _ (hf e 0)) _ (hf e 1)) _ (hf e 2)) _ (hf e 3)

theorem aprod2_weighted (hc : 0 < c) (dd : DDSystem ℝ) (x y : Nat → ℝ) :
    ∀ i < dd.numCols, (final (weighted c dd) true).aprod2 x y i = (final dd true).aprod2 x y i := by
  have hstep : ∀ (v v' : Nat → ℝ), (∀ i < dd.numCols, v i = v' i) → ∀ ob, ∀ i < dd.numCols,
      (final (weighted c dd) true).aprod2Step y v ob i = (final dd true).aprod2Step y v' ob i := by
    intro v v' h ob
    unfold DDSystem.aprod2Step
    simp only
    have hw : y ob * (final (weighted c dd) true).W ob = c * (y ob * (final dd true).W ob) := by
      show y ob * (c * dd.W ob) = c * (y ob * dd.W ob)
      ring
    rw [hw]
    by_cases h0 : y ob * (final dd true).W ob = 0
    · rw [if_pos (by rw [h0, mul_zero]), if_pos h0]; exact h
    · rw [if_neg (mul_ne_zero hc.ne' h0), if_neg h0]
      have ht : ∀ (g : ℝ) (e k : Nat), e * 4 + k < dd.numCols →
          g * (final (weighted c dd) true).scaler (e * 4 + k) * (c * (y ob * (final dd true).W ob)) =
          g * (final dd true).scaler (e * 4 + k) * (y ob * (final dd true).W ob) := by
        intro g e k hk
        rw [scaler_weighted hc dd hk]
        field_simp
      refine addEvent_agree (addEvent_agree h _ ?_) _ ?_
      · intro e k hk
        exact ht _ e k hk
      · intro e k hk
        exact congrArg Neg.neg (ht _ e k hk)
  unfold DDSystem.aprod2
  show ∀ i < dd.numCols, (List.range dd.numRows).foldl _ x i = (List.range dd.numRows).foldl _ x i
  have : ∀ (l : List Nat) (v v' : Nat → ℝ), (∀ i < dd.numCols, v i = v' i) → ∀ i < dd.numCols,
      l.foldl ((final (weighted c dd) true).aprod2Step y) v i = l.foldl ((final dd true).aprod2Step y) v' i := by
    intro l
    induction l with
    | nil => intro v v' h; exact h
    | cons ob l ih =>
      intro v v' h
      exact ih _ _ (hstep v v' h ob)
  exact this _ x x (fun _ _ => rfl)

theorem products_weighted (hc : 0 < c) (dd : DDSystem ℝ) :
    ddProducts (final (weighted c dd) true) = ddProducts (final dd true) := by
  have e1 : (ddProducts (final (weighted c dd) true)).aprod1 = (ddProducts (final dd true)).aprod1 := by
    funext x y
    exact congrArg (first (final dd true).numRows) (aprod1_weighted hc dd x (array y))
  have e2 : (ddProducts (final (weighted c dd) true)).aprod2 = (ddProducts (final dd true)).aprod2 := by
    funext x y i
    exact aprod2_weighted hc dd (array x) (array y) i.val i.2
  show Products.mk _ _ = Products.mk _ _
  exact congrArg₂ Products.mk e1 e2

/-- no unknowns, no change -/
theorem aprod1_zero (dd : DDSystem ℝ) (y : Fin dd.numRows → ℝ) : (ddProducts dd).aprod1 (fun _ => 0) y = y := by
  have hz : array (fun _ : Fin dd.numCols => (0 : ℝ)) = fun _ => 0 := by
    funext i; unfold array; split <;> rfl
  have hr : ∀ ob, dd.rowSum (fun _ => 0) ob = 0 := by
    intro ob
    unfold DDSystem.rowSum
    cases dd.ev1 ob <;> cases dd.ev2 ob <;> simp [List.foldl]
  have hs : (fun (y : Nat → ℝ) ob => if dd.W ob = 0 then y else DDSystem.addAt y ob (dd.W ob * dd.rowSum (fun _ => 0) ob)) = fun y _ => y := by
    funext y ob
    rw [hr]
    split
    · rfl
    · funext j; unfold DDSystem.addAt; split <;> simp
  show first _ (dd.aprod1 (array fun _ => 0) (array y)) = y
  unfold DDSystem.aprod1
  rw [hz, hs]
  have : ∀ (l : List Nat) (v : Nat → ℝ), l.foldl (fun y _ => y) v = v := by
    intro l; induction l with
    | nil => intro v; rfl
    | cons _ l ih => intro v; exact ih v
  rw [this]
  funext i
  unfold first array
  rw [dif_pos i.2]

theorem solveDD_weighted (hc : 0 < c) (dd : DDSystem ℝ) (its : Nat) (damp : ℝ) :
    solveDD .lsmr (weighted c dd) its damp true = solveDD .lsmr dd its damp true := by
  show deliver .lsmr (final (weighted c dd) true) true
      (runSolver .lsmr (final (weighted c dd) true) (settings (final dd true).numCols its damp)) =
    deliver .lsmr (final dd true) true (runSolver .lsmr (final dd true) (settings (final dd true).numCols its damp))
  generalize settings (final dd true).numCols its damp = o
  have hd : first (final dd true).numRows (final (weighted c dd) true).d = fun i => c * first (final dd true).numRows (final dd true).d i := by
    funext r
    have hr' : r.val < dd.numRows := r.2
    show (final (weighted c dd) true).d r.val = c * (final dd true).d r.val
    rw [final_d (weighted c dd) true hr', final_d dd true hr']
    show c * dd.W r * dd.d r = _
    ring
  have hs := Lsmr.solve_times (tiny := tiny30) hc (aprod1_zero (final dd true)) big100 o (first _ (final dd true).d) (max 1 o.itnlim)
  have hrun : runSolver .lsmr (final (weighted c dd) true) o =
      (runSolver .lsmr (final dd true) o).map (fun r => (⟨r.reason, r.iterations, fun i => c * r.x i⟩ : Run (final dd true).numCols)) := by
    unfold runSolver
    simp only
    rw [Option.map_map]
    refine Eq.trans ?_ hs
    show Option.map _ (Lsmr.solve realFns (ddProducts (final (weighted c dd) true)) big100 o
      (first (final dd true).numRows (final (weighted c dd) true).d) (max 1 o.itnlim)) = _
    rw [hd, products_weighted hc dd]
    rfl
  rw [hrun]
  cases runSolver .lsmr (final dd true) o with
  | none => rfl
  | some r =>
    simp only [Option.map_some, deliver]
    by_cases hrej : rejected .lsmr r.reason = true
    · rw [if_pos hrej, if_pos hrej]
    · rw [if_neg hrej, if_neg hrej]
      congr 2
      funext i
      simp only [if_true]
      unfold DDSystem.l2denormalize
      by_cases hi : i < dd.numCols
      · have h1 : i < (final (weighted c dd) true).numCols := hi
        have h2 : i < (final dd true).numCols := hi
        rw [if_pos h1, if_pos h2, scaler_weighted hc dd hi]
        unfold array
        rw [dif_pos h1, dif_pos h2]
        field_simp
        exact mul_comm _ _
      · have h1 : ¬ i < (final (weighted c dd) true).numCols := hi
        have h2 : ¬ i < (final dd true).numCols := hi
        rw [if_neg h1, if_neg h2]
        unfold array
        rw [dif_neg h1, dif_neg h2]

end Verif.LeastSquares
