import Verif.Model.SolveDD
import Verif.Props.DDSystem
import Verif.Props.LeastSquares

/-!
# C58: what `Solver::solve` returns, in terms of the double-difference system
-/

set_option linter.unusedSimpArgs false
set_option linter.unusedSectionVars false

namespace Verif.LeastSquares
open Matrix

/-! ## Specification -/

/-- **Specification.** The prediction of row `r` for the event changes `m`: the derivatives of the first event
times its changes minus those of the second event. -/
noncomputable def prediction (dd : DDSystem ℝ) (m : Nat → ℝ) (r : Nat) : ℝ :=
  ∑ c ∈ Finset.range dd.numCols, ((if dd.ev1 r = some (c / 4) then dd.partialDerivative r c else 0)
    - (if dd.ev2 r = some (c / 4) then dd.partialDerivative r c else 0)) * m c

/-- **Specification.** The norm of a column of the weighted design matrix. -/
noncomputable def columnNorm (dd : DDSystem ℝ) (c : Nat) : ℝ :=
  Real.sqrt (∑ r ∈ Finset.range dd.numRows, dd.designMatrix r c ^ 2)

/-- **Specification.** The unit in which a change is measured by the damping: with normalisation, the norm of its
column. -/
noncomputable def unit (dd : DDSystem ℝ) (normalize : Bool) (c : Nat) : ℝ := if normalize then columnNorm dd c else 1

/-- **Specification.** What should be minimised: the squares of the weighted misfits of the double differences
plus the squares of the damped changes. -/
noncomputable def objective (dd : DDSystem ℝ) (normalize : Bool) (damp : ℝ) (m : Nat → ℝ) : ℝ :=
  ∑ r ∈ Finset.range dd.numRows, (dd.W r * (dd.d r - prediction dd m r)) ^ 2 +
    damp ^ 2 * ∑ c ∈ Finset.range dd.numCols, (m c * unit dd normalize c) ^ 2

/-- **Specification.** The sum of the squares of the entries of the weighted design matrix, in those units. -/
noncomputable def size (dd : DDSystem ℝ) (normalize : Bool) : ℝ :=
  ∑ r ∈ Finset.range dd.numRows, ∑ c ∈ Finset.range dd.numCols, (dd.designMatrix r c / unit dd normalize c) ^ 2

/-- **Specification.** What normalisation needs: the two events of a row differ, and weighted observations depend
on all parameters of their events. -/
structure Normalizable (dd : DDSystem ℝ) : Prop where
  ne : ∀ r < dd.numRows, ∀ e, dd.ev1 r = some e → dd.ev2 r ≠ some e
  dep : ∀ c < dd.numCols, dd.Used c → dd.DependsOn c

/-! ## The system the solver sees -/

/-- the system of the adapter -/
noncomputable def final (dd : DDSystem ℝ) (normalize : Bool) : DDSystem ℝ :=
  if normalize then dd.adapter.l2normalize else dd.adapter

/-- its matrix -/
noncomputable def matrix (dd : DDSystem ℝ) : Matrix (Fin dd.numRows) (Fin dd.numCols) ℝ := fun r c => dd.scaledMatrix r c

theorem array_sum {n : Nat} (f : Nat → ℝ) (x : Fin n → ℝ) :
    ∑ c ∈ Finset.range n, f c * array x c = ∑ c : Fin n, f c * x c := by
  rw [Finset.sum_range]
  refine Finset.sum_congr rfl (fun c _ => ?_)
  unfold array
  rw [dif_pos c.2]

theorem ddProducts_is (dd : DDSystem ℝ) (hr : dd.EventsInRange) : IsProduct (ddProducts dd) (matrix dd) := by
  refine ⟨fun x y => ?_, fun x y => ?_⟩
  · funext r
    simp only [ddProducts, first, DDSystem.aprod1_is_design_matrix dd hr, if_pos r.2, Pi.add_apply]
    rw [array_sum (fun c => dd.scaledMatrix r c)]
    simp only [array, dif_pos r.2]
    rfl
  · funext c
    simp only [ddProducts, first, DDSystem.aprod2_is_transpose dd, Pi.add_apply]
    rw [array_sum (fun r => dd.scaledMatrix r c)]
    simp only [array, dif_pos c.2]
    rfl

theorem colSq_columnNorm (dd : DDSystem ℝ) (hne : ∀ r < dd.numRows, ∀ e, dd.ev1 r = some e → dd.ev2 r ≠ some e) (c : Nat) :
    Real.sqrt (dd.colSq c) = columnNorm dd c := by
  unfold columnNorm
  rw [DDSystem.colSq_eq]
  congr 1
  refine Finset.sum_congr rfl (fun r hr => ?_)
  have hr := Finset.mem_range.1 hr
  unfold DDSystem.designMatrix
  by_cases h1 : dd.ev1 r = some (c / 4)
  · have h2 := hne r hr _ h1
    simp only [h1, h2, if_true, if_false]; ring
  · by_cases h2 : dd.ev2 r = some (c / 4)
    · simp only [h1, h2, if_true, if_false]; ring
    · simp only [h1, h2, if_false]; ring

theorem final_size (dd : DDSystem ℝ) (nz : Bool) : (final dd nz).numRows = dd.numRows ∧ (final dd nz).numCols = dd.numCols := by
  unfold final; split <;> exact ⟨rfl, rfl⟩

/-- the scaled matrix has the entries in the units -/
theorem final_matrix (dd : DDSystem ℝ) (nz : Bool) (hn : nz = true → Normalizable dd) {r c : Nat} (hc : c < dd.numCols) :
    (final dd nz).scaledMatrix r c = dd.designMatrix r c / unit dd nz c := by
  cases nz with
  | false =>
    have e : (final dd false).scaledMatrix r c = dd.designMatrix r c * 1 := rfl
    rw [e]; simp [unit]
  | true =>
    have e : (final dd true).scaledMatrix r c = dd.designMatrix r c * (if c < dd.numCols then 1 / √(dd.colSq c) else 1) := rfl
    rw [e, if_pos hc, colSq_columnNorm dd (hn rfl).ne]
    simp [unit, div_eq_mul_inv]

theorem final_d (dd : DDSystem ℝ) (nz : Bool) {r : Nat} (hr : r < dd.numRows) : (final dd nz).d r = dd.W r * dd.d r := by
  have e : (final dd nz).d r = if r < dd.numRows then (if dd.W r ≠ 0 then dd.d r * dd.W r else 0) else dd.d r := by
    cases nz <;> rfl
  rw [e, if_pos hr]
  by_cases h : dd.W r = 0
  · simp [h]
  · rw [if_pos h]; ring

/-- the solution in the units of the parameters -/
noncomputable def up (dd : DDSystem ℝ) (nz : Bool) (z : Fin (final dd nz).numCols → ℝ) : Nat → ℝ :=
  if nz then (final dd nz).l2denormalize (array z) else array z

theorem up_eq (dd : DDSystem ℝ) (nz : Bool) (hn : nz = true → Normalizable dd) (z) {c : Nat} (hc : c < dd.numCols) :
    up dd nz z c = array z c / unit dd nz c := by
  cases nz with
  | false => simp [up, unit]
  | true =>
    have e : up dd true z c = if c < dd.numCols then array z c * (if c < dd.numCols then 1 / √(dd.colSq c) else 1) else array z c := rfl
    rw [e, if_pos hc, if_pos hc, colSq_columnNorm dd (hn rfl).ne]
    simp [unit, div_eq_mul_inv]

theorem unit_zero (dd : DDSystem ℝ) (nz : Bool) (hn : nz = true → Normalizable dd) {r c : Nat} (hr : r < dd.numRows)
    (hc : c < dd.numCols) (h : unit dd nz c = 0) : dd.designMatrix r c = 0 := by
  cases nz with
  | false => simp [unit] at h
  | true =>
    have hN := hn rfl
    apply DDSystem.designMatrix_unused dd hr
    intro hu
    have hpos := (DDSystem.colSq_pos_iff dd c).2 (hN.dep c hc hu)
    have e : unit dd true c = columnNorm dd c := rfl
    rw [e, ← colSq_columnNorm dd hN.ne] at h
    have := Real.sqrt_pos.2 hpos
    linarith

theorem weighted_prediction (dd : DDSystem ℝ) (m : Nat → ℝ) (r : Nat) :
    dd.W r * prediction dd m r = ∑ c ∈ Finset.range dd.numCols, dd.designMatrix r c * m c := by
  unfold prediction
  rw [Finset.mul_sum]
  refine Finset.sum_congr rfl (fun c _ => ?_)
  unfold DDSystem.designMatrix; ring

/-- residual of the system the solver sees -/
theorem residual_eq (dd : DDSystem ℝ) (nz : Bool) (hn : nz = true → Normalizable dd) (z) (r : Fin (final dd nz).numRows) :
    (first (final dd nz).numRows (final dd nz).d - matrix (final dd nz) *ᵥ z) r = dd.W r * (dd.d r - prediction dd (up dd nz z) r) := by
  obtain ⟨e1, e2⟩ := final_size dd nz
  have hr : (r : Nat) < dd.numRows := by rw [← e1]; exact r.2
  rw [mul_sub, weighted_prediction, Pi.sub_apply, first, final_d dd nz hr]
  congr 1
  show ∑ c : Fin (final dd nz).numCols, (final dd nz).scaledMatrix r c * z c = _
  rw [← array_sum (fun c => (final dd nz).scaledMatrix r c)]
  refine Finset.sum_congr (congrArg Finset.range e2) (fun c hc => ?_)
  have hc := Finset.mem_range.1 hc
  rw [final_matrix dd nz hn hc, up_eq dd nz hn z hc]
  by_cases hu : unit dd nz c = 0
  · rw [unit_zero dd nz hn hr hc hu]; simp
  · field_simp

theorem normSq_range {n : Nat} (f : Nat → ℝ) (x : Fin n → ℝ) (h : ∀ i : Fin n, x i = f i) :
    Spec.normSq x = ∑ i ∈ Finset.range n, f i ^ 2 := by
  unfold Spec.normSq
  rw [Finset.sum_range]
  exact Finset.sum_congr rfl (fun i _ => by rw [h i])

theorem misfit_residual (dd : DDSystem ℝ) (nz : Bool) (hn : nz = true → Normalizable dd) (damp : ℝ) (z) :
    Spec.misfit (matrix (final dd nz)) (first _ (final dd nz).d) damp z =
      ∑ r ∈ Finset.range dd.numRows, (dd.W r * (dd.d r - prediction dd (up dd nz z) r)) ^ 2 + damp ^ 2 * Spec.normSq z := by
  unfold Spec.misfit
  rw [normSq_range (fun r => dd.W r * (dd.d r - prediction dd (up dd nz z) r)) _ (residual_eq dd nz hn z), (final_size dd nz).1]

/-- the solution returned is at least as good as the one of the solver -/
theorem objective_up (dd : DDSystem ℝ) (nz : Bool) (hn : nz = true → Normalizable dd) (damp : ℝ) (z) :
    objective dd nz damp (up dd nz z) ≤ Spec.misfit (matrix (final dd nz)) (first _ (final dd nz).d) damp z := by
  rw [misfit_residual dd nz hn]
  unfold objective
  refine add_le_add (le_refl _) (mul_le_mul_of_nonneg_left ?_ (sq_nonneg damp))
  have e : Spec.normSq z = ∑ c ∈ Finset.range dd.numCols, array z c ^ 2 := by
    rw [normSq_range (array z) z (fun i => by simp [array])]
    exact congrArg (fun k => ∑ c ∈ Finset.range k, array z c ^ 2) (final_size dd nz).2
  rw [e]
  refine Finset.sum_le_sum (fun c hc => ?_)
  have hc := Finset.mem_range.1 hc
  rw [up_eq dd nz hn z hc]
  by_cases hu : unit dd nz c = 0
  · rw [hu]; simp [sq_nonneg]
  · rw [div_mul_cancel₀ _ hu]

/-- any changes correspond to a vector of the solver -/
theorem objective_down (dd : DDSystem ℝ) (nz : Bool) (hn : nz = true → Normalizable dd) (damp : ℝ) (m : Nat → ℝ) :
    ∃ z, Spec.misfit (matrix (final dd nz)) (first _ (final dd nz).d) damp z = objective dd nz damp m := by
  obtain ⟨e1, e2⟩ := final_size dd nz
  refine ⟨fun c => m c * unit dd nz c, ?_⟩
  rw [misfit_residual dd nz hn]
  unfold objective
  congr 1
  · refine Finset.sum_congr rfl (fun r hr => ?_)
    have hr := Finset.mem_range.1 hr
    rw [mul_sub, mul_sub, weighted_prediction, weighted_prediction]
    congr 2
    refine Finset.sum_congr rfl (fun c hc => ?_)
    have hc := Finset.mem_range.1 hc
    rw [up_eq dd nz hn _ hc]
    by_cases hu : unit dd nz c = 0
    · rw [unit_zero dd nz hn hr hc hu]; simp
    · have e : array (fun c : Fin (final dd nz).numCols => m c * unit dd nz c) c = m c * unit dd nz c := by
        unfold array; rw [dif_pos (by rw [e2]; exact hc)]
      rw [e, mul_div_cancel_right₀ _ hu]
  · rw [normSq_range (fun c => m c * unit dd nz c) _ (fun i => rfl), e2]

theorem frobSq_size (dd : DDSystem ℝ) (nz : Bool) (hn : nz = true → Normalizable dd) :
    Spec.frobSq (matrix (final dd nz)) = size dd nz := by
  obtain ⟨e1, e2⟩ := final_size dd nz
  unfold Spec.frobSq size
  rw [← e1, Finset.sum_range]
  refine Finset.sum_congr rfl (fun r _ => ?_)
  unfold Spec.normSq
  rw [← e2, Finset.sum_range]
  refine Finset.sum_congr rfl (fun c _ => ?_)
  unfold matrix
  rw [final_matrix dd nz hn (by rw [← e2]; exact c.2)]

theorem objective_zero (dd : DDSystem ℝ) (nz : Bool) (hn : nz = true → Normalizable dd) (damp : ℝ) :
    Spec.misfit (matrix (final dd nz)) (first _ (final dd nz).d) damp 0 = objective dd nz damp (fun _ => 0) := by
  rw [misfit_residual dd nz hn]
  unfold objective
  congr 1
  · refine Finset.sum_congr rfl (fun r _ => ?_)
    rw [mul_sub, mul_sub, weighted_prediction, weighted_prediction]
    congr 2
    refine Finset.sum_congr rfl (fun c hc => ?_)
    rw [up_eq dd nz hn _ (Finset.mem_range.1 hc)]
    simp [array]
  · simp [Spec.normSq]

theorem up_zero (dd : DDSystem ℝ) (nz : Bool) : up dd nz 0 = fun _ => 0 := by
  funext c
  unfold up
  split
  · simp [DDSystem.l2denormalize, array]
  · simp [array]

theorem normSq_rhs (dd : DDSystem ℝ) (nz : Bool) (damp : ℝ) :
    Spec.misfit (matrix (final dd nz)) (first _ (final dd nz).d) damp 0 = Spec.normSq (first (final dd nz).numRows (final dd nz).d) := by
  unfold Spec.misfit
  simp [Spec.normSq]

theorem final_range (dd : DDSystem ℝ) (nz : Bool) (hr : dd.EventsInRange) : (final dd nz).EventsInRange := by
  unfold final; split <;> exact hr

theorem nonneg_misfit {m n : Nat} (A : Matrix (Fin m) (Fin n) ℝ) (b : Fin m → ℝ) (d : ℝ) (x) : 0 ≤ Spec.misfit A b d x := by
  unfold Spec.misfit Spec.normSq
  positivity

theorem objective_nonneg (dd : DDSystem ℝ) (nz : Bool) (damp : ℝ) (m) : 0 ≤ objective dd nz damp m := by
  unfold objective
  positivity

theorem solveDD_eq (method : Method) (dd : DDSystem ℝ) (numIterations : Nat) (damp : ℝ) (nz : Bool) :
    solveDD method dd numIterations damp nz =
      match runSolver method (final dd nz) (settings (final dd nz).numCols numIterations damp) with
      | none => .ub
      | some r => if rejected method r.reason then .throws else .ok (r.reason, up dd nz r.x) := by
  have e : solveDD method dd numIterations damp nz = deliver method (final dd nz) nz
      (runSolver method (final dd nz) (settings (final dd nz).numCols numIterations damp)) := by
    cases nz <;> rfl
  rw [e]
  cases runSolver method (final dd nz) (settings (final dd nz).numCols numIterations damp) <;> cases nz <;> rfl

/-- **C58i.** The limit of iterations is the requested number, or half the number of unknowns if none is requested. The
solver ends within it (one iteration is always made), and gives the limit as its reason only when it was reached. -/
theorem solver_limit (method : Method) (dd : DDSystem ℝ) (numIterations : Nat) (damp : ℝ) (limit : Nat)
    (hreq : numIterations ≠ 0 → limit = numIterations) (hdef : numIterations = 0 → limit = dd.numCols / 2) :
    ∃ r, runSolver method dd (settings dd.numCols numIterations damp) = some r ∧ r.iterations ≤ max 1 limit ∧
      (r.reason = (match method with | .lsqr => 5 | .lsmr => 7) → limit ≤ r.iterations) := by
  have hl : (settings dd.numCols numIterations damp).itnlim = limit := by
    unfold settings
    simp only
    split
    · rename_i h; exact (hreq h).symm
    · rename_i h; exact (hdef (by simpa using h)).symm
  cases method with
  | lsqr =>
    obtain ⟨s, h1, h2, -, -, -, h3⟩ := lsqr_ends realFns (ddProducts dd) (settings dd.numCols numIterations damp) (first _ dd.d)
    rw [hl] at h2 h3
    refine ⟨⟨s.istop, s.itn, s.x⟩, ?_, h2, h3⟩
    unfold runSolver
    simp only
    rw [h1 _ (le_refl _)]; rfl
  | lsmr =>
    obtain ⟨s, h1, h2, -, -, -, h3⟩ := lsmr_ends realFns (ddProducts dd) big100 (settings dd.numCols numIterations damp) (first _ dd.d)
    rw [hl] at h2 h3
    refine ⟨⟨s.istop, s.itn, s.x⟩, ?_, h2, h3⟩
    unfold runSolver
    simp only
    rw [h1 _ (le_refl _)]; rfl

/-! ## The result -/

/-- **C58g.** Solving with LSQR, in exact arithmetic: it either gives up (the exception), or returns changes that
are not worse than no change; they are exact when reported so (reason 0), and nearly optimal when the
least-squares criterion is met (reason 3, the one of a damped system); with reason 1 what is left is small. -/
theorem solve_lsqr (dd : DDSystem ℝ) (hr : dd.EventsInRange) (numIterations : Nat) {damp : ℝ} (hd : 0 ≤ damp) (nz : Bool)
    (hn : nz = true → Normalizable dd) :
    solveDD .lsqr dd numIterations damp nz = .throws ∨
    ∃ reason m, solveDD .lsqr dd numIterations damp nz = .ok (reason, m) ∧
      (reason = 0 ∨ reason = 1 ∨ reason = 2 ∨ reason = 3 ∨ reason = 5) ∧
      objective dd nz damp m ≤ objective dd nz damp (fun _ => 0) ∧
      (reason = 0 → (∀ c, m c = 0) ∧ ∀ m', objective dd nz damp m ≤ objective dd nz damp m') ∧
      (reason = 1 → damp * √(objective dd nz damp m) ≤
        1 / 10 ^ 6 * (damp + √(size dd nz + dd.numCols * damp ^ 2)) * √(objective dd nz damp (fun _ => 0))) ∧
      (reason = 2 → damp = 0) ∧
      (reason = 3 → 0 < damp ∧ ∀ m', damp ^ 2 * objective dd nz damp m ≤ damp ^ 2 * objective dd nz damp m' +
        (1 / 10 ^ 6) ^ 2 * (size dd nz + dd.numCols * damp ^ 2) * (√(objective dd nz damp (fun _ => 0)) + tiny30) ^ 2) := by
  have ht : 0 < tiny30 := by unfold tiny30; positivity
  have hP := ddProducts_is _ (final_range dd nz hr)
  have e2 := (final_size dd nz).2
  generalize ho : settings (final dd nz).numCols numIterations damp = o
  have od : o.damp = damp := by rw [← ho]; rfl
  have oa : o.atol = 1 / 10 ^ 6 := by rw [← ho]; rfl
  have ob : o.btol = 1 / 10 ^ 6 := by rw [← ho]; rfl
  obtain ⟨s, h1, h2, h3, h4⟩ := lsqr_result (tiny := tiny30) hP o (by rw [od]; exact hd) (by rw [oa]; positivity) ht
    (first _ (final dd nz).d)
  obtain ⟨s', k1, -⟩ := lsqr_ends (real tiny30) (ddProducts (final dd nz)) o (first _ (final dd nz).d)
  have hs : s' = s := by
    have := h1 (max (final dd nz).numCols (max 1 o.itnlim)) (le_max_left _ _)
    rw [k1 _ (le_max_right _ _)] at this
    exact Option.some.inj this
  subst hs
  have hrun : runSolver .lsqr (final dd nz) o = some ⟨s'.istop, s'.itn, s'.x⟩ := by
    unfold runSolver
    have := k1 _ (le_refl _)
    show Option.map _ (Lsqr.solve (real tiny30) _ o _ _) = _
    rw [this]; rfl
  have hsolve : solveDD .lsqr dd numIterations damp nz =
      if rejected .lsqr s'.istop then .throws else .ok (s'.istop, up dd nz s'.x) := by
    rw [solveDD_eq, ho, hrun]
  by_cases hrej : rejected .lsqr s'.istop = true
  · left; rw [hsolve, if_pos hrej]
  right
  rw [if_neg hrej] at hsolve
  have hne4 : s'.istop ≠ 4 := by
    intro h; apply hrej; rw [h]; rfl
  refine ⟨s'.istop, up dd nz s'.x, hsolve, ?_⟩
  have hup := objective_up dd nz hn damp s'.x
  have hz := objective_zero dd nz hn damp
  rcases h4 with ⟨a1, a2, a3⟩ | ⟨a1, a2, a3⟩
  · rw [a1, a2]
    rw [od] at a3
    refine ⟨.inl rfl, by rw [up_zero], fun _ => ⟨fun c => by rw [up_zero], fun m' => ?_⟩, fun h => absurd h (by omega),
      fun h => absurd h (by omega), fun h => absurd h (by omega)⟩
    obtain ⟨z, hz'⟩ := objective_down dd nz hn damp m'
    rw [← hz', up_zero, ← hz]
    exact a3 z
  · have hb := a3.best 0 (Submodule.zero_mem _)
    rw [od] at hb
    have h0 : objective dd nz damp (up dd nz s'.x) ≤ objective dd nz damp (fun _ => 0) := by
      rw [← hz]; exact le_trans hup hb
    have hAn := a3.Anorm_le
    have hAn : s'.Anorm ≤ √(size dd nz + dd.numCols * damp ^ 2) := by
      rw [od, frobSq_size dd nz hn] at hAn
      have e3 : ((final dd nz).numCols : ℝ) = dd.numCols := by exact_mod_cast e2
      exact le_trans hAn (le_of_eq (congrArg (fun k : ℝ => √(size dd nz + k * damp ^ 2)) e3))
    have hmz : √(Spec.misfit (matrix (final dd nz)) (first _ (final dd nz).d) damp s'.x) ≤ √(objective dd nz damp (fun _ => 0)) := by
      apply Real.sqrt_le_sqrt; rw [← hz]; exact hb
    have hm0 := Real.sqrt_nonneg (Spec.misfit (matrix (final dd nz)) (first _ (final dd nz).d) damp s'.x)
    refine ⟨by omega, h0, fun h => absurd h (by omega), fun h => ?_, fun h => ?_, fun h => ?_⟩
    · have g1 := a3.reason1 h
      rw [od, ob, oa, ← normSq_rhs dd nz damp, hz] at g1
      have g2 : damp * √(Spec.normSq s'.x) ≤ √(objective dd nz damp (fun _ => 0)) := by
        refine le_trans ?_ hmz
        rw [← Real.sqrt_sq hd, ← Real.sqrt_mul (sq_nonneg damp), Real.sqrt_sq hd]
        apply Real.sqrt_le_sqrt
        unfold Spec.misfit
        have : 0 ≤ Spec.normSq (first _ (final dd nz).d - matrix (final dd nz) *ᵥ s'.x) := by unfold Spec.normSq; positivity
        linarith
      have g3 : √(objective dd nz damp (up dd nz s'.x)) ≤ √(Spec.misfit (matrix (final dd nz)) (first _ (final dd nz).d) damp s'.x) :=
        Real.sqrt_le_sqrt hup
      generalize √(objective dd nz damp (fun _ => 0)) = B at *
      generalize √(Spec.misfit (matrix (final dd nz)) (first _ (final dd nz).d) damp s'.x) = M at *
      generalize √(objective dd nz damp (up dd nz s'.x)) = U at *
      generalize √(size dd nz + dd.numCols * damp ^ 2) = S at *
      generalize √(Spec.normSq s'.x) = X at *
      have hB : 0 ≤ B := le_trans hm0 hmz
      have q1 : damp * U ≤ damp * (1 / 10 ^ 6 * B + 1 / 10 ^ 6 * s'.Anorm * X) := mul_le_mul_of_nonneg_left (le_trans g3 g1) hd
      have q2 : s'.Anorm * (damp * X) ≤ s'.Anorm * B := mul_le_mul_of_nonneg_left g2 a3.Anorm_pos.le
      have q3 : s'.Anorm * B ≤ S * B := mul_le_mul_of_nonneg_right hAn hB
      calc damp * U ≤ damp * (1 / 10 ^ 6 * B + 1 / 10 ^ 6 * s'.Anorm * X) := q1
        _ = 1 / 10 ^ 6 * (damp * B) + 1 / 10 ^ 6 * (s'.Anorm * (damp * X)) := by ring
        _ ≤ 1 / 10 ^ 6 * (damp * B) + 1 / 10 ^ 6 * (S * B) := by linarith
        _ = 1 / 10 ^ 6 * (damp + S) * B := by ring
    · have := a3.reason2 h; rwa [od] at this
    · have hdp := a3.reason3 h
      rw [od] at hdp
      refine ⟨hdp, fun m' => ?_⟩
      have g1 := a3.reason23 (.inr h)
      have g2 := a3.rnorm
      rw [od, oa] at g1
      rw [od] at g2
      obtain ⟨z, hz'⟩ := objective_down dd nz hn damp m'
      -- near to any other point
      have g3 := (gradient_bounds_error (A := matrix (final dd nz)) (b := first _ (final dd nz).d) damp s'.x).2.1 hdp z
      rw [hz'] at g3
      have hdp2 : 0 < damp ^ 2 := by positivity
      have g4 : damp ^ 2 * objective dd nz damp (up dd nz s'.x) ≤ damp ^ 2 * objective dd nz damp m' +
          Spec.normSq (Spec.descent (matrix (final dd nz)) (first _ (final dd nz).d) damp s'.x) := by
        have := mul_le_mul_of_nonneg_left (le_trans hup g3) hdp2.le
        rwa [mul_add, mul_div_cancel₀ _ hdp2.ne'] at this
      have hgn : 0 ≤ Spec.normSq (Spec.descent (matrix (final dd nz)) (first _ (final dd nz).d) damp s'.x) := by
        unfold Spec.normSq; positivity
      refine le_trans g4 (add_le_add (le_refl _) ?_)
      rw [g2] at g1
      have hsz : 0 ≤ size dd nz + dd.numCols * damp ^ 2 := by
        unfold size; positivity
      have g5 : √(Spec.normSq (Spec.descent (matrix (final dd nz)) (first _ (final dd nz).d) damp s'.x)) ≤
          1 / 10 ^ 6 * (√(size dd nz + dd.numCols * damp ^ 2) * (√(objective dd nz damp (fun _ => 0)) + tiny30)) := by
        refine le_trans g1 (mul_le_mul_of_nonneg_left ?_ (by positivity))
        refine mul_le_mul hAn (by linarith) (by linarith) (Real.sqrt_nonneg _)
      have g6 := pow_le_pow_left₀ (Real.sqrt_nonneg _) g5 2
      rw [Real.sq_sqrt hgn, mul_pow, mul_pow, Real.sq_sqrt hsz] at g6
      linarith

/-- **C58h.** The same for LSMR; its least-squares criterion has reason 2. -/
theorem solve_lsmr (dd : DDSystem ℝ) (hr : dd.EventsInRange) (numIterations : Nat) {damp : ℝ} (hd : 0 ≤ damp) (nz : Bool)
    (hn : nz = true → Normalizable dd) :
    solveDD .lsmr dd numIterations damp nz = .throws ∨
    ∃ reason m, solveDD .lsmr dd numIterations damp nz = .ok (reason, m) ∧
      (reason = 0 ∨ reason = 1 ∨ reason = 2 ∨ reason = 7) ∧
      (reason = 0 → (∀ c, m c = 0) ∧ ∀ m', objective dd nz damp m ≤ objective dd nz damp m') ∧
      (reason = 1 → (damp - 1 / 10 ^ 6 * √(size dd nz)) * √(objective dd nz damp m) ≤
        1 / 10 ^ 6 * damp * √(objective dd nz damp (fun _ => 0))) ∧
      (reason = 2 → ∀ m', (damp ^ 2 - (1 / 10 ^ 6) ^ 2 * size dd nz) * objective dd nz damp m ≤
        damp ^ 2 * objective dd nz damp m') := by
  have hP := ddProducts_is _ (final_range dd nz hr)
  have e2 := (final_size dd nz).2
  generalize ho : settings (final dd nz).numCols numIterations damp = o
  have od : o.damp = damp := by rw [← ho]; rfl
  have oa : o.atol = 1 / 10 ^ 6 := by rw [← ho]; rfl
  have ob : o.btol = 1 / 10 ^ 6 := by rw [← ho]; rfl
  obtain ⟨s, h1, h2, h3, h4⟩ := lsmr_result (tiny := tiny30) (big := big100) hP o (by rw [oa]; positivity) (by rw [ob]; positivity)
    (by unfold big100; positivity) (first _ (final dd nz).d)
  obtain ⟨s', k1, -⟩ := lsmr_ends (real tiny30) (ddProducts (final dd nz)) big100 o (first _ (final dd nz).d)
  have hs : s' = s := by
    have := h1 (max (final dd nz).numCols (max 1 o.itnlim)) (le_max_left _ _)
    rw [k1 _ (le_max_right _ _)] at this
    exact Option.some.inj this
  subst hs
  have hrun : runSolver .lsmr (final dd nz) o = some ⟨s'.istop, s'.itn, s'.x⟩ := by
    unfold runSolver
    have := k1 _ (le_refl _)
    show Option.map _ (Lsmr.solve (real tiny30) _ big100 o _ _) = _
    rw [this]; rfl
  have hsolve : solveDD .lsmr dd numIterations damp nz =
      if rejected .lsmr s'.istop then .throws else .ok (s'.istop, up dd nz s'.x) := by
    rw [solveDD_eq, ho, hrun]
  by_cases hrej : rejected .lsmr s'.istop = true
  · left; rw [hsolve, if_pos hrej]
  right
  rw [if_neg hrej] at hsolve
  have hne3 : s'.istop ≠ 3 := by
    intro h; apply hrej; rw [h]; rfl
  refine ⟨s'.istop, up dd nz s'.x, hsolve, ?_⟩
  have hup := objective_up dd nz hn damp s'.x
  have hz := objective_zero dd nz hn damp
  have hU := objective_nonneg dd nz damp (up dd nz s'.x)
  rcases h4 with ⟨a1, a2, a3⟩ | a3
  · rw [a1, a2]
    rw [od] at a3
    refine ⟨.inl rfl, fun _ => ⟨fun c => by rw [up_zero], fun m' => ?_⟩, fun h => absurd h (by omega),
      fun h => absurd h (by omega)⟩
    obtain ⟨z, hz'⟩ := objective_down dd nz hn damp m'
    rw [← hz', up_zero, ← hz]
    exact a3 z
  · have hrs := a3.reasons
    have hAn := a3.normA_le
    rw [frobSq_size dd nz hn] at hAn
    refine ⟨by omega, fun h => absurd h (by omega), fun h => ?_, fun h m' => ?_⟩
    · have g1 := a3.reason1 h
      rw [od, ob, oa, ← normSq_rhs dd nz damp, hz] at g1
      have g2 : damp * √(Spec.normSq s'.x) ≤ √(Spec.misfit (matrix (final dd nz)) (first _ (final dd nz).d) damp s'.x) := by
        rw [← Real.sqrt_sq hd, ← Real.sqrt_mul (sq_nonneg damp), Real.sqrt_sq hd]
        apply Real.sqrt_le_sqrt
        unfold Spec.misfit
        have : 0 ≤ Spec.normSq (first _ (final dd nz).d - matrix (final dd nz) *ᵥ s'.x) := by unfold Spec.normSq; positivity
        linarith
      have g3 : √(objective dd nz damp (up dd nz s'.x)) ≤ √(Spec.misfit (matrix (final dd nz)) (first _ (final dd nz).d) damp s'.x) :=
        Real.sqrt_le_sqrt hup
      have hB := Real.sqrt_nonneg (objective dd nz damp (fun _ => 0))
      have hU0 := Real.sqrt_nonneg (objective dd nz damp (up dd nz s'.x))
      generalize √(objective dd nz damp (fun _ => 0)) = B at *
      generalize √(Spec.misfit (matrix (final dd nz)) (first _ (final dd nz).d) damp s'.x) = M at *
      generalize √(objective dd nz damp (up dd nz s'.x)) = U at *
      generalize √(size dd nz) = S at *
      generalize √(Spec.normSq s'.x) = X at *
      have hM : 0 ≤ M := le_trans hU0 g3
      have q1 : damp * M ≤ damp * (1 / 10 ^ 6 * B + 1 / 10 ^ 6 * s'.normA * X) := mul_le_mul_of_nonneg_left g1 hd
      have q2 : s'.normA * (damp * X) ≤ s'.normA * M := mul_le_mul_of_nonneg_left g2 a3.normA_pos.le
      have q3 : s'.normA * M ≤ S * M := mul_le_mul_of_nonneg_right hAn hM
      have q4 : damp * (1 / 10 ^ 6 * B + 1 / 10 ^ 6 * s'.normA * X) = 1 / 10 ^ 6 * damp * B + 1 / 10 ^ 6 * (s'.normA * (damp * X)) := by ring
      have q5 : (damp - 1 / 10 ^ 6 * S) * M ≤ 1 / 10 ^ 6 * damp * B := by
        have : (damp - 1 / 10 ^ 6 * S) * M = damp * M - 1 / 10 ^ 6 * (S * M) := by ring
        rw [this]; linarith
      rcases le_total 0 (damp - 1 / 10 ^ 6 * S) with c | c
      · exact le_trans (mul_le_mul_of_nonneg_left g3 c) q5
      · refine le_trans (mul_nonpos_of_nonpos_of_nonneg c hU0) ?_
        positivity
    · have g1 := a3.reason2 h
      rw [od, oa] at g1
      obtain ⟨z, hz'⟩ := objective_down dd nz hn damp m'
      have hO := objective_nonneg dd nz damp m'
      rcases hd.eq_or_lt with hd0 | hdp
      · rw [← hd0]
        have hsz : 0 ≤ size dd nz := by unfold size; positivity
        have : (0 ^ 2 - (1 / 10 ^ 6) ^ 2 * size dd nz) ≤ 0 := by nlinarith
        rw [hd0]
        have h5 := mul_nonpos_of_nonpos_of_nonneg this hU
        simp only [ne_eq, OfNat.ofNat_ne_zero, not_false_eq_true, zero_pow, zero_mul, ← hd0] at h5 ⊢
        exact h5
      have g3 := (gradient_bounds_error (A := matrix (final dd nz)) (b := first _ (final dd nz).d) damp s'.x).2.1 hdp z
      rw [hz'] at g3
      have hM0 := nonneg_misfit (matrix (final dd nz)) (first _ (final dd nz).d) damp s'.x
      have hgn : 0 ≤ Spec.normSq (Spec.descent (matrix (final dd nz)) (first _ (final dd nz).d) damp s'.x) := by
        unfold Spec.normSq; positivity
      have hsz : 0 ≤ size dd nz := by unfold size; positivity
      have hdp2 : 0 < damp ^ 2 := by positivity
      have g4 := mul_le_mul_of_nonneg_left g3 hdp2.le
      rw [mul_add, mul_div_cancel₀ _ hdp2.ne'] at g4
      have g5 : √(Spec.normSq (Spec.descent (matrix (final dd nz)) (first _ (final dd nz).d) damp s'.x)) ≤
          1 / 10 ^ 6 * (√(size dd nz) * √(Spec.misfit (matrix (final dd nz)) (first _ (final dd nz).d) damp s'.x)) :=
        le_trans g1 (mul_le_mul_of_nonneg_left (mul_le_mul_of_nonneg_right hAn (Real.sqrt_nonneg _)) (by positivity))
      have g6 := pow_le_pow_left₀ (Real.sqrt_nonneg _) g5 2
      rw [Real.sq_sqrt hgn, mul_pow, mul_pow, Real.sq_sqrt hsz, Real.sq_sqrt hM0] at g6
      generalize Spec.misfit (matrix (final dd nz)) (first _ (final dd nz).d) damp s'.x = M at *
      have q5 : (damp ^ 2 - (1 / 10 ^ 6) ^ 2 * size dd nz) * M ≤ damp ^ 2 * objective dd nz damp m' := by
        have : (damp ^ 2 - (1 / 10 ^ 6) ^ 2 * size dd nz) * M = damp ^ 2 * M - (1 / 10 ^ 6) ^ 2 * (size dd nz * M) := by ring
        rw [this]; linarith
      rcases le_total 0 (damp ^ 2 - (1 / 10 ^ 6) ^ 2 * size dd nz) with c | c
      · exact le_trans (mul_le_mul_of_nonneg_left hup c) q5
      · exact le_trans (mul_nonpos_of_nonpos_of_nonneg c hU) (by positivity)

/-! ## The hypotheses can be met -/

namespace Example

/-- two events observed at one station, with a constraint on the first -/
noncomputable def system : DDSystem ℝ where
  nObs := 1
  nEvts := 2
  nPhStas := 1
  nTT := 1
  W := fun _ => 1
  G := fun i k => if i = 0 then (k : ℝ) + 1 else -(k : ℝ) - 1
  d := fun r => if r = 0 then 1 else 2
  scaler := fun _ => 1
  ev1 := fun _ => some 0
  ev2 := fun r => if r = 0 then some 1 else none
  phSta := fun _ => 0

theorem system_range : system.EventsInRange := by
  intro ob hob e h
  simp only [system, Option.some.injEq] at h
  rcases h with h | h
  · subst h; simp [system]
  · split at h
    · cases h; simp [system]
    · cases h

theorem system_normalizable : Normalizable system := by
  refine ⟨?_, ?_⟩
  · intro r hr e h1 h2
    simp only [system, Option.some.injEq] at h1 h2
    split at h2
    · cases h2; omega
    · cases h2
  · rintro c hc ⟨r, hr, hW, he⟩
    refine ⟨r, hr, hW, he, ?_⟩
    have e : system.partialDerivative r c = if c / 4 = 0 then ((c % 4 : Nat) : ℝ) + 1 else -((c % 4 : Nat) : ℝ) - 1 := by
      show (if c / 4 * 1 + 0 = 0 then _ else _) = _
      simp
    rw [e]
    have h0 : (0 : ℝ) ≤ ((c % 4 : Nat) : ℝ) := Nat.cast_nonneg _
    split <;> intro h <;> linarith

/-- eight unknowns: without a requested number the limit is four -/
example (method : Method) : ∃ r, runSolver method system (LeastSquares.settings system.numCols 0 (1 / 10)) = some r ∧ r.iterations ≤ 4 := by
  obtain ⟨r, h1, h2, -⟩ := solver_limit method system 0 (1 / 10) 4 (fun h => absurd rfl h) (fun _ => rfl)
  exact ⟨r, h1, h2⟩

/-- the theorem applies to it -/
example : solveDD .lsqr system 0 (1 / 10) true = .throws ∨ ∃ reason m, solveDD .lsqr system 0 (1 / 10) true = .ok (reason, m) ∧
    objective system true (1 / 10) m ≤ objective system true (1 / 10) (fun _ => 0) := by
  rcases solve_lsqr system system_range 0 (damp := 1 / 10) (by norm_num) true (fun _ => system_normalizable) with h | ⟨r, m, h, -, h2, -⟩
  · exact .inl h
  · exact .inr ⟨r, m, h, h2⟩

end Example
end Verif.LeastSquares
