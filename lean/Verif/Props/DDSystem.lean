import Verif.Model.DDSystem
import Mathlib.Algebra.BigOperators.Group.Finset.Basic
import Mathlib.Algebra.BigOperators.Ring.Finset
import Mathlib.Algebra.BigOperators.Intervals
import Mathlib.Tactic.Ring
import Mathlib.Tactic.Linarith
import Mathlib.Tactic.FieldSimp
import Mathlib.Tactic.SplitIfs

/-!
# C16, C17, C18: the operator handed to the least-squares solver
-/

set_option linter.unusedSimpArgs false
set_option linter.unusedSectionVars false

namespace Verif.DDSystem
open Finset

variable {K : Type} [Field K] [LinearOrder K]

/-- **Specification.** Every event index used by a row is an event of the system. -/
def EventsInRange (dd : DDSystem K) : Prop :=
  ∀ ob < dd.numRows, ∀ e, dd.ev1 ob = some e ∨ dd.ev2 ob = some e → e < dd.nEvts

/-- **Specification.** The derivative of the observation of row `r` by parameter `c % 4` of event
`c / 4` (the table `G` has one line per event and station-phase). -/
def partialDerivative (dd : DDSystem K) (r c : Nat) : K :=
  dd.G (c / 4 * dd.nPhStas + dd.phSta r) (c % 4)

/-- **Specification.** The weighted double-difference design matrix: `w · ∂` in the columns of the
first event, `−w · ∂` in the columns of the second one, fixed events (`none`) have no columns. -/
def designMatrix (dd : DDSystem K) (r c : Nat) : K :=
  dd.W r * ((if dd.ev1 r = some (c / 4) then dd.partialDerivative r c else 0)
          - (if dd.ev2 r = some (c / 4) then dd.partialDerivative r c else 0))

/-- **Specification.** The design matrix with its columns scaled. -/
def scaledMatrix (dd : DDSystem K) (r c : Nat) : K := dd.designMatrix r c * dd.scaler c

/-! helper lemmas -/

theorem sum_event {n e : Nat} (he : e < n) (f : Nat → K) :
    ∑ c ∈ range (n * 4), (if e = c / 4 then f c else 0) =
      f (e * 4) + f (e * 4 + 1) + f (e * 4 + 2) + f (e * 4 + 3) := by
  have h : ∀ c ∈ range (n * 4), (if e = c / 4 then f c else 0) =
      (if c = e * 4 then f c else 0) + (if c = e * 4 + 1 then f c else 0) +
      (if c = e * 4 + 2 then f c else 0) + (if c = e * 4 + 3 then f c else 0) := by
    intro c _
    by_cases hc : e = c / 4
    · rw [if_pos hc]
      obtain h | h | h | h : c = e * 4 ∨ c = e * 4 + 1 ∨ c = e * 4 + 2 ∨ c = e * 4 + 3 := by omega
      all_goals subst h; simp
    · rw [if_neg hc, if_neg (by omega), if_neg (by omega), if_neg (by omega), if_neg (by omega)]
      simp
  rw [Finset.sum_congr rfl h]
  simp only [Finset.sum_add_distrib, Finset.sum_ite_eq', mem_range]
  rw [if_pos (by omega), if_pos (by omega), if_pos (by omega), if_pos (by omega)]

theorem rowSum_eq (dd : DDSystem K) (x : Nat → K) {ob : Nat} (hr : dd.EventsInRange)
    (hob : ob < dd.numRows) :
    dd.W ob * dd.rowSum x ob = ∑ c ∈ range dd.numCols, dd.scaledMatrix ob c * x c := by
  have key : ∀ o : Option Nat, (∀ e, o = some e → e < dd.nEvts) →
      ∑ c ∈ range dd.numCols, (if o = some (c / 4) then dd.partialDerivative ob c else 0) *
        dd.scaler c * x c =
      match o with
      | none => 0
      | some e => dd.G (dd.idxG e ob) 0 * dd.scaler (e * 4 + 0) * x (e * 4 + 0) +
          dd.G (dd.idxG e ob) 1 * dd.scaler (e * 4 + 1) * x (e * 4 + 1) +
          dd.G (dd.idxG e ob) 2 * dd.scaler (e * 4 + 2) * x (e * 4 + 2) +
          dd.G (dd.idxG e ob) 3 * dd.scaler (e * 4 + 3) * x (e * 4 + 3) := by
    intro o ho
    cases o with
    | none => simp
    | some e =>
      have := sum_event (ho e rfl) (fun c => dd.partialDerivative ob c * dd.scaler c * x c)
      simp only [Option.some.injEq, ite_mul, zero_mul]
      rw [numCols, this]
      have m1 : (e * 4 + 1) / 4 = e := by omega
      have m2 : (e * 4 + 2) / 4 = e := by omega
      have m3 : (e * 4 + 3) / 4 = e := by omega
      have m0 : e * 4 / 4 = e := by omega
      have r1 : (e * 4 + 1) % 4 = 1 := by omega
      have r2 : (e * 4 + 2) % 4 = 2 := by omega
      have r3 : (e * 4 + 3) % 4 = 3 := by omega
      have r0 : e * 4 % 4 = 0 := by omega
      simp only [partialDerivative, idxG, m0, m1, m2, m3, r0, r1, r2, r3, add_zero]
  have hsplit : ∑ c ∈ range dd.numCols, dd.scaledMatrix ob c * x c =
      dd.W ob * ((∑ c ∈ range dd.numCols, (if dd.ev1 ob = some (c / 4) then dd.partialDerivative ob c else 0) *
        dd.scaler c * x c) -
        ∑ c ∈ range dd.numCols, (if dd.ev2 ob = some (c / 4) then dd.partialDerivative ob c else 0) *
        dd.scaler c * x c) := by
    rw [← Finset.sum_sub_distrib, Finset.mul_sum]
    apply Finset.sum_congr rfl
    intro c _
    simp only [scaledMatrix, designMatrix]
    ring
  rw [hsplit, key _ (fun e h => hr ob hob e (.inl h)), key _ (fun e h => hr ob hob e (.inr h))]
  congr 1
  unfold rowSum
  cases dd.ev1 ob <;> cases dd.ev2 ob <;> simp only [List.foldl_cons, List.foldl_nil] <;> ring

theorem foldl_addAt (n : Nat) (P : Nat → Prop) [DecidablePred P] (f : Nat → K) (y : Nat → K) (r : Nat) :
    (List.range n).foldl (fun y ob => if P ob then y else addAt y ob (f ob)) y r =
      if r < n ∧ ¬ P r then y r + f r else y r := by
  induction n with
  | zero => simp
  | succ n ih =>
    rw [List.range_succ, List.foldl_append, List.foldl_cons, List.foldl_nil]
    by_cases hP : P n
    · rw [if_pos hP, ih]
      by_cases hrn : r = n
      · subst hrn; simp [hP]
      · have : (r < n + 1) ↔ (r < n) := by omega
        simp only [this]
    · rw [if_neg hP]
      generalize List.foldl (fun y ob => if P ob then y else addAt y ob (f ob)) y (List.range n) = g at *
      unfold addAt
      by_cases hrn : r = n
      · subst hrn; simp [hP, ih]
      · rw [if_neg hrn, ih]
        have : (r < n + 1) ↔ (r < n) := by omega
        simp only [this]

/-- **C17a.** The first product adds to row `r` of `y` the inner product of row `r` of the (scaled)
double-difference design matrix with `x`, and touches nothing else. -/
theorem aprod1_is_design_matrix (dd : DDSystem K) (hr : dd.EventsInRange) (x y : Nat → K) (r : Nat) :
    dd.aprod1 x y r =
      if r < dd.numRows then y r + ∑ c ∈ range dd.numCols, dd.scaledMatrix r c * x c else y r := by
  unfold aprod1
  rw [foldl_addAt]
  by_cases h : r < dd.numRows
  · by_cases hW : dd.W r = 0
    · rw [if_neg (by tauto), if_pos h]
      have : ∑ c ∈ range dd.numCols, dd.scaledMatrix r c * x c = 0 := by
        apply Finset.sum_eq_zero
        intro c _
        simp [scaledMatrix, designMatrix, hW]
      rw [this, add_zero]
    · rw [if_pos ⟨h, hW⟩, if_pos h, rowSum_eq dd x hr h]
  · rw [if_neg (by tauto), if_neg h]

theorem addEvent_eq (o : Option Nat) (f : Nat → Nat → K) (v : Nat → K) (c : Nat) :
    addEvent o f v c = v c + (if o = some (c / 4) then f (c / 4) (c % 4) else 0) := by
  cases o with
  | none => simp [addEvent]
  | some e =>
    simp only [addEvent, List.foldl_cons, List.foldl_nil, addAt, Option.some.injEq]
    by_cases h : e = c / 4
    · rw [if_pos h]
      obtain h' | h' | h' | h' : c = e * 4 ∨ c = e * 4 + 1 ∨ c = e * 4 + 2 ∨ c = e * 4 + 3 := by omega
      · have : c % 4 = 0 := by omega
        rw [this, ← h]; simp [h']
      · have : c % 4 = 1 := by omega
        rw [this, ← h]; simp [h']
      · have : c % 4 = 2 := by omega
        rw [this, ← h]; simp [h']
      · have : c % 4 = 3 := by omega
        rw [this, ← h]; simp [h']
    · rw [if_neg h, if_neg (by omega), if_neg (by omega), if_neg (by omega), if_neg (by omega), add_zero]

theorem aprod2Step_eq (dd : DDSystem K) (x y : Nat → K) (ob c : Nat) :
    dd.aprod2Step y x ob c = x c + dd.scaledMatrix ob c * y ob := by
  have hc : c / 4 * 4 + c % 4 = c := by omega
  unfold aprod2Step
  by_cases h : y ob * dd.W ob = 0
  · simp only [h, if_true]
    have : dd.scaledMatrix ob c * y ob = 0 := by
      unfold scaledMatrix designMatrix
      linear_combination ((if dd.ev1 ob = some (c / 4) then dd.partialDerivative ob c else 0)
          - (if dd.ev2 ob = some (c / 4) then dd.partialDerivative ob c else 0)) * dd.scaler c * h
    rw [this, add_zero]
  · simp only [h, if_false]
    rw [addEvent_eq, addEvent_eq, hc]
    unfold scaledMatrix designMatrix partialDerivative idxG
    split <;> split <;> ring

/-- **C17b.** The second product adds to column `c` of `x` the inner product of column `c` of the
same matrix with `y`. -/
theorem aprod2_is_transpose (dd : DDSystem K) (x y : Nat → K) (c : Nat) :
    dd.aprod2 x y c = x c + ∑ r ∈ range dd.numRows, dd.scaledMatrix r c * y r := by
  unfold aprod2
  suffices h : ∀ n, (List.range n).foldl (dd.aprod2Step y) x c =
      x c + ∑ r ∈ range n, dd.scaledMatrix r c * y r from h _
  intro n
  induction n with
  | zero => simp
  | succ n ih =>
    rw [List.range_succ, List.foldl_append, List.foldl_cons, List.foldl_nil, aprod2Step_eq, ih,
      Finset.sum_range_succ]
    ring

/-- **C16.** The two products are adjoint: `⟨A x, y⟩ = ⟨x, Aᵀ y⟩`, for every system and every `x`,
`y`. -/
theorem aprod_adjoint (dd : DDSystem K) (hr : dd.EventsInRange) (x y : Nat → K) :
    ∑ r ∈ range dd.numRows, dd.aprod1 x (fun _ => 0) r * y r =
      ∑ c ∈ range dd.numCols, x c * dd.aprod2 (fun _ => 0) y c := by
  have h1 : ∀ r ∈ range dd.numRows, dd.aprod1 x (fun _ => 0) r * y r =
      ∑ c ∈ range dd.numCols, dd.scaledMatrix r c * x c * y r := by
    intro r hr'
    rw [aprod1_is_design_matrix dd hr, if_pos (mem_range.1 hr'), zero_add, Finset.sum_mul]
  have h2 : ∀ c ∈ range dd.numCols, x c * dd.aprod2 (fun _ => 0) y c =
      ∑ r ∈ range dd.numRows, dd.scaledMatrix r c * x c * y r := by
    intro c _
    rw [aprod2_is_transpose, zero_add, Finset.mul_sum]
    exact Finset.sum_congr rfl (fun r _ => by ring)
  rw [Finset.sum_congr rfl h1, Finset.sum_congr rfl h2, Finset.sum_comm]

/-- **C16b.** The products are accepted exactly for vectors of the size of the system. -/
theorem aprod_sizes (dd : DDSystem K) (m n : Nat) (x y : Nat → K) :
    (dd.Aprod1 m n x y = if m = dd.numRows ∧ n = dd.numCols then .ok (dd.aprod1 x y) else .throws) ∧
    (dd.Aprod2 m n x y = if m = dd.numRows ∧ n = dd.numCols then .ok (dd.aprod2 x y) else .throws) := by
  unfold Aprod1 Aprod2
  by_cases h : m = dd.numRows ∧ n = dd.numCols
  · rw [if_neg (by tauto), if_pos h, if_neg (by tauto), if_pos h]; exact ⟨rfl, rfl⟩
  · rw [if_pos (by tauto), if_neg h, if_pos (by tauto), if_neg h]; exact ⟨rfl, rfl⟩

/-- **C17c.** What the solver minimises is the weighted sum of squared double-difference misfits:
for every row the difference between prediction and datum, times the weight of the row. -/
theorem adapter_weighted_misfit (dd : DDSystem K) (hr : dd.EventsInRange) (m : Nat → K) {r : Nat}
    (h : r < dd.numRows) :
    dd.adapter.aprod1 m (fun _ => 0) r - dd.adapter.d r =
      dd.W r * ((∑ c ∈ range dd.numCols,
        ((if dd.ev1 r = some (c / 4) then dd.partialDerivative r c else 0)
          - (if dd.ev2 r = some (c / 4) then dd.partialDerivative r c else 0)) * m c) - dd.d r) := by
  have hr' : dd.adapter.EventsInRange := hr
  have hrow : dd.adapter.numRows = dd.numRows := rfl
  rw [aprod1_is_design_matrix _ hr', if_pos (by rw [hrow]; exact h), zero_add, mul_sub, Finset.mul_sum]
  congr 1
  · apply Finset.sum_congr rfl
    intro c _
    simp only [scaledMatrix, designMatrix, adapter, partialDerivative]
    by_cases h1 : dd.ev1 r = some (c / 4) <;> by_cases h2 : dd.ev2 r = some (c / 4) <;>
      simp only [h1, h2, if_true, if_false] <;> ring
  · simp only [adapter, if_pos h]
    by_cases hW : dd.W r = 0
    · simp [hW]
    · rw [if_pos hW]; ring

/-! ## Normalisation -/

/-- **Specification.** Sum of squared misfits of `m` for the right-hand side `b`. -/
noncomputable def misfit (dd : DDSystem ℝ) (b m : Nat → ℝ) : ℝ :=
  ∑ r ∈ range dd.numRows, (dd.aprod1 m (fun _ => 0) r - b r) ^ 2

/-- **Specification.** `m` is a least-squares solution. -/
def IsLeastSquares (dd : DDSystem ℝ) (b m : Nat → ℝ) : Prop := ∀ m', dd.misfit b m ≤ dd.misfit b m'

/-- **Specification.** Parameter `c` belongs to a free event with an observation of non-zero
weight. -/
def Used (dd : DDSystem K) (c : Nat) : Prop :=
  ∃ r < dd.numRows, dd.W r ≠ 0 ∧ (dd.ev1 r = some (c / 4) ∨ dd.ev2 r = some (c / 4))

/-- **Specification.** Some weighted observation depends on parameter `c`. -/
def DependsOn (dd : DDSystem K) (c : Nat) : Prop :=
  ∃ r < dd.numRows, dd.W r ≠ 0 ∧ (dd.ev1 r = some (c / 4) ∨ dd.ev2 r = some (c / 4)) ∧
    dd.partialDerivative r c ≠ 0

theorem colSq_eq (dd : DDSystem K) (c : Nat) :
    dd.colSq c = ∑ r ∈ range dd.numRows,
      ((if dd.ev1 r = some (c / 4) then (dd.partialDerivative r c * dd.W r) ^ 2 else 0) +
       (if dd.ev2 r = some (c / 4) then (dd.partialDerivative r c * dd.W r) ^ 2 else 0)) := by
  unfold colSq
  suffices h : ∀ n, (List.range n).foldl dd.colSqStep (fun _ => 0) c = ∑ r ∈ range n,
      ((if dd.ev1 r = some (c / 4) then (dd.partialDerivative r c * dd.W r) ^ 2 else 0) +
       (if dd.ev2 r = some (c / 4) then (dd.partialDerivative r c * dd.W r) ^ 2 else 0)) from h _
  intro n
  induction n with
  | zero => simp
  | succ n ih =>
    rw [List.range_succ, List.foldl_append, List.foldl_cons, List.foldl_nil, Finset.sum_range_succ]
    generalize List.foldl dd.colSqStep (fun _ => 0) (List.range n) = g at *
    unfold colSqStep
    by_cases hW : dd.W n = 0
    · rw [if_pos hW, ih]; simp [hW]
    · rw [if_neg hW, addEvent_eq, addEvent_eq, ih]
      unfold partialDerivative idxG
      split <;> split <;> ring

variable [IsStrictOrderedRing K]

theorem colSq_nonneg (dd : DDSystem K) (c : Nat) : 0 ≤ dd.colSq c := by
  rw [colSq_eq]
  apply Finset.sum_nonneg
  intro r _
  apply add_nonneg <;> split <;> positivity

/-- the sum of squares of a column is positive exactly when some weighted observation depends on it -/
theorem colSq_pos_iff (dd : DDSystem K) (c : Nat) : 0 < dd.colSq c ↔ dd.DependsOn c := by
  constructor
  · intro h
    by_contra hn
    have : dd.colSq c = 0 := by
      rw [colSq_eq]
      apply Finset.sum_eq_zero
      intro r hr
      have hr := mem_range.1 hr
      have hz : ∀ o : Option Nat, (o = dd.ev1 r ∨ o = dd.ev2 r) →
          (if o = some (c / 4) then (dd.partialDerivative r c * dd.W r) ^ 2 else 0) = 0 := by
        intro o ho
        by_cases he : o = some (c / 4)
        · rw [if_pos he]
          by_contra hne
          apply hn
          refine ⟨r, hr, ?_, ?_, ?_⟩
          · intro hW; apply hne; simp [hW]
          · rcases ho with rfl | rfl
            · exact .inl he
            · exact .inr he
          · intro hp; apply hne; simp [hp]
        · rw [if_neg he]
      rw [hz _ (.inl rfl), hz _ (.inr rfl), add_zero]
    linarith
  · rintro ⟨r, hr, hW, he, hp⟩
    rw [colSq_eq]
    have hpos : 0 < (dd.partialDerivative r c * dd.W r) ^ 2 := by positivity
    apply Finset.sum_pos'
    · intro r _
      apply add_nonneg <;> split <;> positivity
    · refine ⟨r, mem_range.2 hr, ?_⟩
      rcases he with he | he
      · rw [if_pos he]; split <;> linarith
      · rw [if_pos he]; split <;> linarith

theorem designMatrix_unused (dd : DDSystem ℝ) {r c : Nat} (hr : r < dd.numRows)
    (h : ¬ dd.Used c) : dd.designMatrix r c = 0 := by
  unfold designMatrix
  by_cases hW : dd.W r = 0
  · simp [hW]
  · have h1 : dd.ev1 r ≠ some (c / 4) := fun he => h ⟨r, hr, hW, .inl he⟩
    have h2 : dd.ev2 r ≠ some (c / 4) := fun he => h ⟨r, hr, hW, .inr he⟩
    simp [h1, h2]

/-- **C18a.** The scaling factor of every parameter on which a weighted observation depends is
positive. -/
theorem normalisation_positive (dd : DDSystem ℝ) {c : Nat} (hc : c < dd.numCols)
    (h : dd.DependsOn c) : 0 < dd.l2normalize.scaler c := by
  have := (colSq_pos_iff dd c).2 h
  simp only [l2normalize, if_pos hc]
  positivity

/-- the scaled product is the unscaled product of the rescaled vector -/
theorem aprod1_scaled (dd : DDSystem ℝ) (hr : dd.EventsInRange) (hs : ∀ c, dd.scaler c = 1)
    (z : Nat → ℝ) (r : Nat) :
    dd.l2normalize.aprod1 z (fun _ => 0) r = dd.aprod1 (dd.l2normalize.l2denormalize z) (fun _ => 0) r := by
  have hr' : dd.l2normalize.EventsInRange := hr
  have hrow : dd.l2normalize.numRows = dd.numRows := rfl
  have hcol : dd.l2normalize.numCols = dd.numCols := rfl
  rw [aprod1_is_design_matrix _ hr', aprod1_is_design_matrix _ hr, hrow, hcol]
  congr 2
  apply Finset.sum_congr rfl
  intro c hc
  have hc := mem_range.1 hc
  simp only [scaledMatrix, l2denormalize, hcol, if_pos hc, hs]
  have : dd.l2normalize.designMatrix r c = dd.designMatrix r c := rfl
  rw [this]; ring

/-- **C18b.** Normalising does not change the solution: rescaling a least-squares solution of the
normalised system gives a least-squares solution of the original one, and every least-squares
solution of the original one is obtained so (in the parameters that matter).  The hypothesis is that
weighted observations depend on all four parameters of the events they belong to; without it see
`normalisation_nan`. -/
theorem normalisation_same_solutions_partial (dd : DDSystem ℝ) (hr : dd.EventsInRange)
    (hs : ∀ c, dd.scaler c = 1) (hdep : ∀ c < dd.numCols, dd.Used c → dd.DependsOn c) (b : Nat → ℝ) :
    (∀ z, dd.l2normalize.IsLeastSquares b z → dd.IsLeastSquares b (dd.l2normalize.l2denormalize z)) ∧
    (∀ m, dd.IsLeastSquares b m → ∃ z, dd.l2normalize.IsLeastSquares b z ∧
      ∀ c < dd.numCols, dd.Used c → dd.l2normalize.l2denormalize z c = m c) := by
  have hcol : dd.l2normalize.numCols = dd.numCols := rfl
  have hmis : ∀ z, dd.l2normalize.misfit b z = dd.misfit b (dd.l2normalize.l2denormalize z) := by
    intro z
    unfold misfit
    apply Finset.sum_congr rfl
    intro r _
    rw [aprod1_scaled dd hr hs]
  have hsc : ∀ c < dd.numCols, dd.l2normalize.scaler c = 1 / √(dd.colSq c) := by
    intro c hc
    simp only [l2normalize, if_pos hc]
  -- the inverse of the rescaling
  have hinv : ∀ m : Nat → ℝ, ∃ z, (∀ c < dd.numCols, dd.Used c → dd.l2normalize.l2denormalize z c = m c) ∧
      dd.misfit b (dd.l2normalize.l2denormalize z) = dd.misfit b m := by
    intro m
    refine ⟨fun c => m c * √(dd.colSq c), ?_, ?_⟩
    · intro c hc hu
      have := (colSq_pos_iff dd c).2 (hdep c hc hu)
      have hsq : √(dd.colSq c) ≠ 0 := by positivity
      rw [l2denormalize, hcol, if_pos hc, hsc c hc]
      field_simp
    · unfold misfit
      apply Finset.sum_congr rfl
      intro r hr'
      have hr' := mem_range.1 hr'
      rw [aprod1_is_design_matrix _ hr, aprod1_is_design_matrix _ hr]
      congr 2
      rw [if_pos hr', if_pos hr']
      congr 1
      apply Finset.sum_congr rfl
      intro c hc
      have hc := mem_range.1 hc
      by_cases hu : dd.Used c
      · have := (colSq_pos_iff dd c).2 (hdep c hc hu)
        have hsq : √(dd.colSq c) ≠ 0 := by positivity
        rw [l2denormalize, hcol, if_pos hc, hsc c hc]
        field_simp
      · simp [scaledMatrix, designMatrix_unused dd hr' hu]
  constructor
  · intro z hz m'
    obtain ⟨z', _, he⟩ := hinv m'
    rw [← he, ← hmis, ← hmis]
    exact hz z'
  · intro m hm
    obtain ⟨z, h1, he⟩ := hinv m
    refine ⟨z, ?_, h1⟩
    intro z'
    rw [hmis, hmis, he]
    exact hm _

/-- **C18c.** After normalisation the columns on which observations depend have norm one (for
observations of two different events, as all are). -/
theorem normalisation_unit_columns (dd : DDSystem ℝ)
    (hne : ∀ r < dd.numRows, ∀ e, dd.ev1 r = some e → dd.ev2 r ≠ some e)
    {c : Nat} (hc : c < dd.numCols) (h : dd.DependsOn c) :
    ∑ r ∈ range dd.numRows, (dd.l2normalize.scaledMatrix r c) ^ 2 = 1 := by
  have hpos := (colSq_pos_iff dd c).2 h
  have h1 : ∀ r ∈ range dd.numRows, (dd.l2normalize.scaledMatrix r c) ^ 2 =
      ((if dd.ev1 r = some (c / 4) then (dd.partialDerivative r c * dd.W r) ^ 2 else 0) +
       (if dd.ev2 r = some (c / 4) then (dd.partialDerivative r c * dd.W r) ^ 2 else 0)) *
        (1 / √(dd.colSq c)) ^ 2 := by
    intro r hr
    have hr := mem_range.1 hr
    have : dd.l2normalize.scaledMatrix r c = dd.designMatrix r c * (1 / √(dd.colSq c)) := by
      simp only [scaledMatrix, l2normalize, if_pos hc]; rfl
    rw [this, mul_pow]
    congr 1
    unfold designMatrix
    by_cases he1 : dd.ev1 r = some (c / 4)
    · have he2 := hne r hr _ he1
      rw [if_pos he1, if_neg he2, if_pos he1, if_neg he2]; ring
    · rw [if_neg he1, if_neg he1]
      split <;> ring
  rw [Finset.sum_congr rfl h1, ← Finset.sum_mul, ← colSq_eq, div_pow, Real.sq_sqrt hpos.le]
  field_simp

theorem Fl.add_nan_left (a : Fl ℝ) : Fl.add Fl.nan a = Fl.nan := rfl
theorem Fl.add_nan_right (a : Fl ℝ) : Fl.add a Fl.nan = Fl.nan := by cases a <;> rfl
theorem Fl.sub_nan_left (a : Fl ℝ) : Fl.sub Fl.nan a = Fl.nan := rfl
theorem Fl.sub_nan_right (a : Fl ℝ) : Fl.sub a Fl.nan = Fl.nan := by
  unfold Fl.sub Fl.neg; exact Fl.add_nan_right a

theorem foldl_nan {f : Fl ℝ → Nat → Fl ℝ} (hl : ∀ k, f .nan k = .nan) (l : List Nat) :
    l.foldl f .nan = .nan := by
  induction l with
  | nil => rfl
  | cons a l ih => rw [List.foldl_cons, hl, ih]

theorem foldl_reaches_nan {f : Fl ℝ → Nat → Fl ℝ} (hl : ∀ k, f .nan k = .nan) {l : List Nat} {k : Nat}
    (hk : k ∈ l) (hn : ∀ s, f s k = .nan) (s : Fl ℝ) : l.foldl f s = .nan := by
  induction l generalizing s with
  | nil => cases hk
  | cons a l ih =>
    rw [List.foldl_cons]
    rcases List.mem_cons.1 hk with rfl | h
    · rw [hn, foldl_nan hl]
    · exact ih h _

/-- **Negation.** If all weighted observations of a free event have a zero derivative for one of its
parameters, the scaling factor is infinite and every row of that event — hence the whole solution —
becomes NaN, for every vector. -/
theorem normalisation_nan (dd : DDSystem ℝ) (r c : Nat) (hr : r < dd.numRows) (hW : dd.W r ≠ 0)
    (he : dd.ev1 r = some (c / 4) ∨ dd.ev2 r = some (c / 4)) (hz : ¬ dd.DependsOn c) (x : Nat → ℝ) :
    dd.scalerFl c = .inf false ∧ dd.rowSumFl x r = .nan := by
  have hzero : dd.colSq c = 0 := by
    have h1 := colSq_nonneg dd c
    have h2 := mt (colSq_pos_iff dd c).1 hz
    linarith
  have hsc : dd.scalerFl c = .inf false := by
    unfold scalerFl
    rw [hzero]; simp [Fl.div]
  have hG : dd.G (dd.idxG (c / 4) r) (c % 4) = 0 := by
    by_contra h
    exact hz ⟨r, hr, hW, he, h⟩
  have hcc : c / 4 * 4 + c % 4 = c := by omega
  have hterm : ((Fl.num (dd.G (dd.idxG (c / 4) r) (c % 4))).mul (dd.scalerFl (c / 4 * 4 + c % 4))).mul
      (Fl.num (x (c / 4 * 4 + c % 4))) = .nan := by
    rw [hG, hcc, hsc]
    simp [Fl.mul]
  have hmem : c % 4 ∈ [0, 1, 2, 3] := by
    have : c % 4 < 4 := Nat.mod_lt _ (by omega)
    simp; omega
  refine ⟨hsc, ?_⟩
  unfold rowSumFl
  rcases he with he | he
  · simp only [he]
    have h1 : List.foldl (fun s k => s.add (((Fl.num (dd.G (dd.idxG (c / 4) r) k)).mul
        (dd.scalerFl (c / 4 * 4 + k))).mul (Fl.num (x (c / 4 * 4 + k))))) (Fl.num 0) [0, 1, 2, 3] = .nan :=
      foldl_reaches_nan (fun _ => rfl) hmem (fun s => by rw [hterm, Fl.add_nan_right]) _
    rw [h1]
    cases dd.ev2 r with
    | none => rfl
    | some e => exact foldl_nan (fun k => rfl) _
  · simp only [he]
    exact foldl_reaches_nan (fun _ => rfl) hmem (fun s => by rw [hterm, Fl.sub_nan_right]) _

/-! ## A concrete system: two free events, one fixed event, two stations -/

/-- events 0, 1 free; rows: 0–1 at station 0, 0–fixed at station 1 -/
def sample : DDSystem ℚ where
  nObs := 2
  nEvts := 2
  nPhStas := 2
  nTT := 0
  W := fun r => if r = 0 then 1 else 2
  G := fun i k => if k = 3 then 1 else (i + 1 : ℚ) / (k + 1)
  d := fun r => r + 1
  scaler := fun _ => 1
  ev1 := fun _ => some 0
  ev2 := fun r => if r = 0 then some 1 else none
  phSta := fun r => r

/-- the hypothesis of the operator theorems holds for it and the product is not trivial -/
example : sample.EventsInRange ∧ sample.aprod1 (fun c => c) (fun _ => 10) 0 = -85/3 + 10 ∧
    sample.aprod2 (fun _ => 0) (fun r => r + 1) 0 = 9 := by
  refine ⟨?_, by decide +kernel, by decide +kernel⟩
  intro ob hob e he
  have : ob < 2 := hob
  obtain rfl | rfl : ob = 0 ∨ ob = 1 := by omega
  all_goals (simp [sample] at he ⊢; omega)

/-- the same system over the reals satisfies the hypotheses of the normalisation theorems -/
example : ∃ dd : DDSystem ℝ, dd.EventsInRange ∧ (∀ c, dd.scaler c = 1) ∧ dd.numCols = 8 ∧
    ∀ c < dd.numCols, dd.Used c → dd.DependsOn c := by
  refine ⟨{ nObs := 1, nEvts := 2, nPhStas := 1, nTT := 0, W := fun _ => 1, G := fun _ _ => 1,
            d := fun _ => 1, scaler := fun _ => 1, ev1 := fun _ => some 0, ev2 := fun _ => some 1,
            phSta := fun _ => 0 }, ?_, fun _ => rfl, rfl, ?_⟩
  · intro ob _ e he
    simp at he ⊢; omega
  · rintro c _ ⟨r, hr, hW, he⟩
    exact ⟨r, hr, hW, he, one_ne_zero⟩

end Verif.DDSystem
