import Verif.Proofs.FloatLift
import Verif.Proofs.FloatSolve
import Verif.Props.SolveDD
import Verif.Model.RealSolver
set_option linter.unusedSimpArgs false
set_option linter.unusedSectionVars false

/-!
# The system of numbers, and of floating-point values that are numbers (helpers of C119 and C120)
-/

namespace Verif.FloatSolve
open Verif.LeastSquares

/-- an array of numbers -/
def N (f : Nat → ℝ) : Nat → Fl ℝ := fun i => .num (f i)

/-- the system with scaling factors that may not be numbers -/
def withScaler (a : DDSystem ℝ) (sc : Nat → Fl ℝ) : DDSystem (Fl ℝ) := { toFl a with scaler := sc }

/-- the scaling factors in use are numbers -/
def ScalerOk (a : DDSystem ℝ) (sc : Nat → Fl ℝ) : Prop :=
  ∀ r < a.numRows, a.W r ≠ 0 → ∀ e, a.ev1 r = some e ∨ a.ev2 r = some e → ∀ k < 4, sc (e * 4 + k) = .num (a.scaler (e * 4 + k))

variable {a : DDSystem ℝ} {sc : Nat → Fl ℝ}

theorem num_beq0 (x : ℝ) : (Fl.num x == (0 : Fl ℝ)) = decide (x = 0) := by
  rw [num_zero, num_eq]
  by_cases h : x = 0 <;> simp [h]

theorem N_rowSum (h : ScalerOk a sc) {r : Nat} (hr : r < a.numRows) (hW : a.W r ≠ 0) (x : Nat → ℝ) :
    rowSum (withScaler a sc) (N x) r = .num (a.rowSum x r) := by
  unfold rowSum DDSystem.rowSum
  have h1 : (withScaler a sc).ev1 = a.ev1 := rfl
  have h2 : (withScaler a sc).ev2 = a.ev2 := rfl
  have h3 : ∀ e k, (withScaler a sc).G (idxG (withScaler a sc) e r) k = .num (a.G (a.idxG e r) k) := fun _ _ => rfl
  have h4 : (withScaler a sc).scaler = sc := rfl
  have h5 : ∀ c, N x c = .num (x c) := fun _ => rfl
  simp only [h1, h2, h3, h4, h5, num_zero]
  have hs := h r hr hW
  cases e1 : a.ev1 r with
  | none =>
    cases e2 : a.ev2 r with
    | none => rfl
    | some e =>
      have g := hs e (.inr e2)
      simp only [List.foldl_cons, List.foldl_nil, g 0 (by omega), g 1 (by omega), g 2 (by omega), g 3 (by omega), num_mul, num_sub]
  | some f =>
    have g1 := hs f (.inl e1)
    cases e2 : a.ev2 r with
    | none => simp only [List.foldl_cons, List.foldl_nil, g1 0 (by omega), g1 1 (by omega), g1 2 (by omega), g1 3 (by omega), num_mul, num_add]
    | some e =>
      have g := hs e (.inr e2)
      simp only [List.foldl_cons, List.foldl_nil, g 0 (by omega), g 1 (by omega), g 2 (by omega), g 3 (by omega), g1 0 (by omega),
        g1 1 (by omega), g1 2 (by omega), g1 3 (by omega), num_mul, num_sub, num_add]

theorem N_addAt (v : Nat → ℝ) (i : Nat) (b : ℝ) : addAt (N v) i (.num b) = N (DDSystem.addAt v i b) := by
  funext j
  unfold addAt DDSystem.addAt N
  by_cases h : j = i
  · simp only [if_pos h, num_add]
  · simp only [if_neg h]

theorem N_aprod1 (h : ScalerOk a sc) (x y : Nat → ℝ) : aprod1 (withScaler a sc) (N x) (N y) = N (a.aprod1 x y) := by
  unfold aprod1 DDSystem.aprod1
  have hn : numRows (withScaler a sc) = a.numRows := rfl
  have hW : ∀ r, (withScaler a sc).W r = .num (a.W r) := fun _ => rfl
  rw [hn]
  have key : ∀ l : List Nat, (∀ r ∈ l, r < a.numRows) → ∀ y, l.foldl (fun y ob =>
      if (withScaler a sc).W ob == 0 then y else addAt y ob ((withScaler a sc).W ob * rowSum (withScaler a sc) (N x) ob)) (N y) =
      N (l.foldl (fun y ob => if a.W ob = 0 then y else DDSystem.addAt y ob (a.W ob * a.rowSum x ob)) y) := by
    intro l
    induction l with
    | nil => intro _ y; rfl
    | cons r l ih =>
      intro hl y
      simp only [List.foldl_cons]
      rw [← ih (fun r hr => hl r (List.mem_cons_of_mem _ hr))]
      congr 1
      simp only [hW, num_beq0, decide_eq_true_eq]
      by_cases hw : a.W r = 0
      · rw [if_pos hw, if_pos hw]
      · rw [if_neg hw, if_neg hw, N_rowSum h (hl r (List.mem_cons_self ..)) hw, num_mul, N_addAt]
  exact key _ (fun r hr => List.mem_range.1 hr) y

theorem N_addEvent (o : Option Nat) {f : Nat → Nat → Fl ℝ} {g : Nat → Nat → ℝ} (h : ∀ e, o = some e → ∀ k < 4, f e k = .num (g e k))
    (v : Nat → ℝ) : addEvent o f (N v) = N (DDSystem.addEvent o g v) := by
  cases o with
  | none => rfl
  | some e =>
    have hf := h e rfl
    simp only [addEvent, DDSystem.addEvent, List.foldl_cons, List.foldl_nil, hf 0 (by omega), hf 1 (by omega), hf 2 (by omega), hf 3 (by omega),
      N_addAt]

theorem N_aprod2 (h : ScalerOk a sc) (x y : Nat → ℝ) : aprod2 (withScaler a sc) (N x) (N y) = N (a.aprod2 x y) := by
  unfold aprod2 DDSystem.aprod2
  have hn : numRows (withScaler a sc) = a.numRows := rfl
  rw [hn]
  have key : ∀ l : List Nat, (∀ r ∈ l, r < a.numRows) → ∀ x, l.foldl (aprod2Step (withScaler a sc) (N y)) (N x) =
      N (l.foldl (a.aprod2Step y) x) := by
    intro l
    induction l with
    | nil => intro _ y; rfl
    | cons r l ih =>
      intro hl x
      simp only [List.foldl_cons]
      rw [← ih (fun r hr => hl r (List.mem_cons_of_mem _ hr))]
      congr 1
      have hw : N y r * (withScaler a sc).W r = .num (y r * a.W r) := num_mul _ _
      unfold aprod2Step DDSystem.aprod2Step
      simp only [hw, num_beq0, decide_eq_true_eq]
      by_cases h0 : y r * a.W r = 0
      · rw [if_pos h0, if_pos h0]
      · rw [if_neg h0, if_neg h0]
        have hs := h r (hl r (List.mem_cons_self ..)) (right_ne_zero_of_mul h0)
        have h3 : ∀ e k, (withScaler a sc).G (idxG (withScaler a sc) e r) k = .num (a.G (a.idxG e r) k) := fun _ _ => rfl
        have h4 : (withScaler a sc).scaler = sc := rfl
        rw [N_addEvent (g := fun e k => a.G (a.idxG e r) k * a.scaler (e * 4 + k) * (y r * a.W r)),
          N_addEvent (g := fun e k => -(a.G (a.idxG e r) k * a.scaler (e * 4 + k) * (y r * a.W r)))]
        · rfl
        · intro e he k hk
          simp only [h3, h4, hs e (.inr he) k hk, num_mul, num_neg]
        · intro e he k hk
          simp only [h3, h4, hs e (.inl he) k hk, num_mul]
  exact key _ (fun r hr => List.mem_range.1 hr) x

theorem array_nums {n : Nat} (x : Fin n → ℝ) : array (nums x) = N (array x) := by
  funext i
  unfold array N nums
  by_cases h : i < n
  · simp only [dif_pos h]
  · simp only [dif_neg h]; rfl

theorem same_products (h : ScalerOk a sc) : SameProducts (ddProducts a) (products (withScaler a sc)) := by
  refine ⟨fun x y => ?_, fun x y => ?_⟩
  · show first _ (aprod1 (withScaler a sc) (array (nums x)) (array (nums y))) = _
    rw [array_nums, array_nums, N_aprod1 h]
    rfl
  · show first _ (aprod2 (withScaler a sc) (array (nums x)) (array (nums y))) = _
    rw [array_nums, array_nums, N_aprod2 h]
    rfl

theorem N_colSq (a : DDSystem ℝ) : colSq (toFl a) = N a.colSq := by
  unfold colSq DDSystem.colSq
  have hn : numRows (toFl a) = a.numRows := rfl
  rw [hn]
  have key : ∀ l : List Nat, ∀ x, l.foldl (colSqStep (toFl a)) (N x) = N (l.foldl a.colSqStep x) := by
    intro l
    induction l with
    | nil => intro _; rfl
    | cons r l ih =>
      intro x
      simp only [List.foldl_cons]
      rw [← ih]
      congr 1
      have hW : (toFl a).W r = .num (a.W r) := rfl
      unfold colSqStep DDSystem.colSqStep
      simp only [hW, num_beq0, decide_eq_true_eq]
      by_cases h0 : a.W r = 0
      · rw [if_pos h0, if_pos h0]
      · rw [if_neg h0, if_neg h0]
        rw [N_addEvent (g := fun e k => (a.G (a.idxG e r) k * a.W r) * (a.G (a.idxG e r) k * a.W r)),
          N_addEvent (g := fun e k => (a.G (a.idxG e r) k * a.W r) * (a.G (a.idxG e r) k * a.W r))]
        · rfl
        · intro e he k hk; rfl
        · intro e he k hk; rfl
  exact key _ (fun _ => 0)

theorem N_adapter (dd : DDSystem ℝ) : adapter (toFl dd) = toFl dd.adapter := by
  unfold adapter DDSystem.adapter toFl
  congr 1
  funext i
  have hn : numRows (toFl dd) = dd.numRows := rfl
  show (if i < dd.numRows then (if Fl.num (dd.W i) == 0 then 0 else Fl.num (dd.d i) * Fl.num (dd.W i)) else Fl.num (dd.d i)) = _
  simp only [num_beq0, decide_eq_true_eq, num_mul]
  by_cases h : i < dd.numRows
  · rw [if_pos h, if_pos h]
    by_cases hw : dd.W i = 0
    · rw [if_pos hw, if_neg (by simpa using hw)]; rfl
    · rw [if_neg hw, if_pos hw]
  · rw [if_neg h, if_neg h]

/-- the scaling factors of the solver -/
noncomputable def theScaler (dd : DDSystem ℝ) (normalize : Bool) (c : Nat) : Fl ℝ :=
  if normalize then (if c < dd.numCols then 1 / flFns.sqrt (.num (dd.colSq c)) else 1) else 1

theorem scaled_toFl (dd : DDSystem ℝ) (normalize : Bool) :
    scaled flFns (toFl dd) normalize = withScaler (final dd normalize) (theScaler dd normalize) := by
  unfold scaled final
  rw [N_adapter]
  cases normalize with
  | false => rfl
  | true =>
    simp only [if_true]
    unfold l2normalize withScaler
    rw [N_colSq]
    rfl

theorem fl_scaler {x : ℝ} (hx : 0 ≤ x) : (1 : Fl ℝ) / flFns.sqrt (.num x) = if x = 0 then .inf false else .num (1 / √x) := by
  rw [num_sqrt hx, num_one]
  by_cases h : x = 0
  · subst h
    rw [if_pos rfl]
    show (if realFns.sqrt 0 = 0 then (if (1 : ℝ) = 0 then Fl.nan else .inf (decide ((1 : ℝ) < 0))) else _) = _
    rw [if_pos (show realFns.sqrt 0 = 0 from Real.sqrt_zero), if_neg one_ne_zero]
    simp
  · rw [if_neg h, num_div]
    · rfl
    · exact (Real.sqrt_pos.2 (lt_of_le_of_ne hx (Ne.symm h))).ne'

theorem scaler_ok {dd : DDSystem ℝ} {normalize : Bool} (h : ¬ (normalize = true ∧ Relocate.degenerate dd)) :
    ScalerOk (final dd normalize) (theScaler dd normalize) := by
  intro r hr hW e he k hk
  unfold theScaler final
  cases normalize with
  | false => rfl
  | true =>
    simp only [if_true]
    have h0 : dd.colSq (e * 4 + k) ≠ 0 := fun hc => h ⟨rfl, r, hr, hW, e, k, hk, he, hc⟩
    rw [fl_scaler (dd.colSq_nonneg _), if_neg h0]
    unfold DDSystem.l2normalize
    simp only
    have hn : dd.adapter.numCols = dd.numCols := rfl
    rw [hn]
    split <;> rfl

theorem num_run (h : ScalerOk a sc) {o : Settings ℝ} (hat : 0 ≤ o.atol) (hbt : 0 ≤ o.btol) (method : Method) :
    runSolver flFns (.num big100) method (withScaler a sc) (numSettings o) =
      (LeastSquares.runSolver method a o).map (fun r => (r.reason, nums r.x)) := by
  cases method with
  | lsqr =>
    have key : Lsqr.solve flFns (products (withScaler a sc)) (numSettings o) (first (numRows (withScaler a sc)) (withScaler a sc).d)
        (max 1 (numSettings o).itnlim) = (Lsqr.solve realFns (ddProducts a) o (first _ a.d) (max 1 o.itnlim)).map numLsqr :=
      num_lsqr (same_products h) hat (first _ a.d) _
    unfold runSolver LeastSquares.runSolver
    simp only
    rw [key]
    cases Lsqr.solve realFns (ddProducts a) o (first a.numRows a.d) (max 1 o.itnlim) <;> rfl
  | lsmr =>
    have key : Lsmr.solve flFns (products (withScaler a sc)) (.num big100) (numSettings o)
        (first (numRows (withScaler a sc)) (withScaler a sc).d) (max 1 (numSettings o).itnlim) =
        (Lsmr.solve realFns (ddProducts a) big100 o (first _ a.d) (max 1 o.itnlim)).map numLsmr :=
      num_lsmr (same_products h) hat hbt (by unfold big100; positivity) (first _ a.d) _
    unfold runSolver LeastSquares.runSolver
    simp only
    rw [key]
    cases Lsmr.solve realFns (ddProducts a) big100 o (first a.numRows a.d) (max 1 o.itnlim) <;> rfl

theorem N_denormalize {m : Nat → ℝ} {c : Nat} (hc : sc c = .num (a.scaler c)) :
    l2denormalize (withScaler a sc) (N m) c = .num (a.l2denormalize m c) := by
  unfold l2denormalize DDSystem.l2denormalize
  have hn : numCols (withScaler a sc) = a.numCols := rfl
  have h4 : (withScaler a sc).scaler = sc := rfl
  rw [hn, h4, hc]
  by_cases h : c < a.numCols
  · rw [if_pos h, if_pos h]; exact num_mul _ _
  · rw [if_neg h, if_neg h]; rfl

theorem final_cols' (dd : DDSystem ℝ) (normalize : Bool) : (final dd normalize).numCols = dd.numCols := by
  unfold final; cases normalize <;> rfl

end Verif.FloatSolve
