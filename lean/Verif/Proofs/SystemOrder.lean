import Verif.Proofs.SolverOrder
import Verif.Props.SolveDD
import Mathlib.Logic.Equiv.Fin.Basic

/-! Helper lemmas for C107: the double-difference system with its rows and events in another order. -/

set_option linter.unusedSectionVars false
set_option linter.unusedSimpArgs false

namespace Verif.LeastSquares
open Matrix

theorem reordered_of {m n m' n' : Nat} {σ : Fin m' ≃ Fin m} {τ : Fin n' ≃ Fin n} {P : Products m n ℝ} {P' : Products m' n' ℝ}
    {A : Matrix (Fin m) (Fin n) ℝ} {A' : Matrix (Fin m') (Fin n') ℝ} (h : IsProduct P A) (h' : IsProduct P' A')
    (hA : ∀ r c, A' r c = A (σ r) (τ c)) : Reordered σ τ P P' := by
  constructor
  · intro x y
    rw [h'.p1, h.p1]
    funext r
    simp only [Pi.add_apply, Function.comp, mulVec, dotProduct, hA]
    congr 1
    exact Equiv.sum_comp τ (fun c => A (σ r) c * x c)
  · intro x y
    rw [h'.p2, h.p2]
    funext c
    simp only [Pi.add_apply, Function.comp, mulVec, dotProduct, hA, transpose_apply]
    congr 1
    exact Equiv.sum_comp σ (fun r => A r (τ c) * y r)

/-- columns of the reordered events -/
def columns {a b : Nat} (ε : Fin a ≃ Fin b) : Fin (a * 4) ≃ Fin (b * 4) :=
  finProdFinEquiv.symm.trans ((Equiv.prodCongr ε (Equiv.refl (Fin 4))).trans finProdFinEquiv)

theorem columns_val {a b : Nat} (ε : Fin a ≃ Fin b) (e : Fin a) (k : Nat) (hk : k < 4) (h : e.val * 4 + k < a * 4) :
    (columns ε ⟨e.val * 4 + k, h⟩).val = (ε e).val * 4 + k := by
  have : finProdFinEquiv.symm ⟨e.val * 4 + k, h⟩ = (e, (⟨k, hk⟩ : Fin 4)) := by
    rw [Equiv.symm_apply_eq]
    apply Fin.ext
    simp [finProdFinEquiv]; omega
  unfold columns
  rw [Equiv.trans_apply, this]
  simp [finProdFinEquiv]; omega

theorem column_split {a : Nat} (c : Fin (a * 4)) : ∃ (e : Fin a) (k : Nat) (hk : k < 4),
    c = ⟨e.val * 4 + k, by have := e.2; omega⟩ :=
  ⟨⟨c.val / 4, by have := c.2; omega⟩, c.val % 4, by omega, by apply Fin.ext; simp; omega⟩

/-- `dd'` is `dd` with its rows and its events in another order -/
structure SameSystem (dd dd' : DDSystem ℝ) (σ : Fin dd'.numRows ≃ Fin dd.numRows) (ε : Fin dd'.nEvts ≃ Fin dd.nEvts) : Prop where
  W : ∀ r : Fin dd'.numRows, dd'.W r = dd.W (σ r)
  d : ∀ r : Fin dd'.numRows, dd'.d r = dd.d (σ r)
  ev1 : ∀ (r : Fin dd'.numRows) (e : Fin dd'.nEvts), dd'.ev1 r = some e.val ↔ dd.ev1 (σ r) = some (ε e).val
  ev2 : ∀ (r : Fin dd'.numRows) (e : Fin dd'.nEvts), dd'.ev2 r = some e.val ↔ dd.ev2 (σ r) = some (ε e).val
  G : ∀ (r : Fin dd'.numRows) (e : Fin dd'.nEvts), (dd'.ev1 r = some e.val ∨ dd'.ev2 r = some e.val) →
    ∀ k < 4, dd'.G (dd'.idxG e r) k = dd.G (dd.idxG (ε e) (σ r)) k
  range : dd.EventsInRange
  range' : dd'.EventsInRange

variable {dd dd' : DDSystem ℝ} {σ : Fin dd'.numRows ≃ Fin dd.numRows} {ε : Fin dd'.nEvts ≃ Fin dd.nEvts}

theorem derivative_same (h : SameSystem dd dd' σ ε) (r : Fin dd'.numRows) (e : Fin dd'.nEvts) {k : Nat} (hk : k < 4)
    (hu : dd'.ev1 r = some e.val ∨ dd'.ev2 r = some e.val) :
    dd'.partialDerivative r (e.val * 4 + k) = dd.partialDerivative (σ r) ((ε e).val * 4 + k) := by
  have := h.G r e hu k hk
  unfold DDSystem.idxG at this
  unfold DDSystem.partialDerivative
  rw [show (e.val * 4 + k) / 4 = e.val by omega, show (e.val * 4 + k) % 4 = k by omega,
    show ((ε e).val * 4 + k) / 4 = (ε e).val by omega, show ((ε e).val * 4 + k) % 4 = k by omega]
  exact this

theorem design_same (h : SameSystem dd dd' σ ε) (r : Fin dd'.numRows) (e : Fin dd'.nEvts) {k : Nat} (hk : k < 4) :
    dd'.designMatrix r (e.val * 4 + k) = dd.designMatrix (σ r) ((ε e).val * 4 + k) := by
  have hd := derivative_same h r e hk
  unfold DDSystem.designMatrix
  rw [show (e.val * 4 + k) / 4 = e.val by omega, show ((ε e).val * 4 + k) / 4 = (ε e).val by omega, h.W]
  congr 1
  refine congrArg₂ (· - ·) ?_ ?_
  · by_cases h1 : dd'.ev1 r = some e.val
    · rw [if_pos h1, if_pos ((h.ev1 r e).1 h1), hd (.inl h1)]
    · rw [if_neg h1, if_neg (fun hc => h1 ((h.ev1 r e).2 hc))]
  · by_cases h1 : dd'.ev2 r = some e.val
    · rw [if_pos h1, if_pos ((h.ev2 r e).1 h1), hd (.inr h1)]
    · rw [if_neg h1, if_neg (fun hc => h1 ((h.ev2 r e).2 hc))]

theorem colSq_same (h : SameSystem dd dd' σ ε) (e : Fin dd'.nEvts) {k : Nat} (hk : k < 4) :
    dd'.colSq (e.val * 4 + k) = dd.colSq ((ε e).val * 4 + k) := by
  rw [DDSystem.colSq_eq, DDSystem.colSq_eq, Finset.sum_range, Finset.sum_range, ← Equiv.sum_comp σ]
  refine Finset.sum_congr rfl (fun r _ => ?_)
  have hd := derivative_same h r e hk
  rw [show (e.val * 4 + k) / 4 = e.val by omega, show ((ε e).val * 4 + k) / 4 = (ε e).val by omega, h.W]
  congr 1
  · by_cases h1 : dd'.ev1 r = some e.val
    · rw [if_pos h1, if_pos ((h.ev1 r e).1 h1), hd (.inl h1)]
    · rw [if_neg h1, if_neg (fun hc => h1 ((h.ev1 r e).2 hc))]
  · by_cases h1 : dd'.ev2 r = some e.val
    · rw [if_pos h1, if_pos ((h.ev2 r e).1 h1), hd (.inr h1)]
    · rw [if_neg h1, if_neg (fun hc => h1 ((h.ev2 r e).2 hc))]

/-- the scaling factors of the system the solver sees -/
theorem final_scaler (dd : DDSystem ℝ) (nz : Bool) {c : Nat} (hc : c < dd.numCols) :
    (final dd nz).scaler c = if nz then 1 / √(dd.colSq c) else 1 := by
  cases nz with
  | false => rfl
  | true =>
    have e : (final dd true).scaler c = if c < dd.numCols then 1 / √(dd.colSq c) else 1 := rfl
    rw [e, if_pos hc]; rfl

theorem event_lt {ε : Fin dd'.nEvts ≃ Fin dd.nEvts} (e : Fin dd'.nEvts) {k : Nat} (hk : k < 4) :
    e.val * 4 + k < dd'.numCols ∧ (ε e).val * 4 + k < dd.numCols := by
  have := e.2; have := (ε e).2
  unfold DDSystem.numCols
  omega

theorem scaler_same (h : SameSystem dd dd' σ ε) (nz : Bool) (e : Fin dd'.nEvts) {k : Nat} (hk : k < 4) :
    (final dd' nz).scaler (e.val * 4 + k) = (final dd nz).scaler ((ε e).val * 4 + k) := by
  rw [final_scaler dd' nz (event_lt (ε := ε) e hk).1, final_scaler dd nz (event_lt (ε := ε) e hk).2, colSq_same h e hk]

theorem final_scaledMatrix (dd : DDSystem ℝ) (nz : Bool) (r c : Nat) :
    (final dd nz).scaledMatrix r c = dd.designMatrix r c * (final dd nz).scaler c := by
  cases nz <;> rfl

theorem final_rows (dd : DDSystem ℝ) (nz : Bool) : (final dd nz).numRows = dd.numRows := (final_size dd nz).1
theorem final_cols (dd : DDSystem ℝ) (nz : Bool) : (final dd nz).numCols = dd.nEvts * 4 := (final_size dd nz).2

/-- the rows of the system the solver sees -/
noncomputable def finalRows (σ : Fin dd'.numRows ≃ Fin dd.numRows) (nz : Bool) : Fin (final dd' nz).numRows ≃ Fin (final dd nz).numRows :=
  (finCongr (final_rows dd' nz)).trans (σ.trans (finCongr (final_rows dd nz).symm))

/-- its columns -/
noncomputable def finalCols (ε : Fin dd'.nEvts ≃ Fin dd.nEvts) (nz : Bool) : Fin (final dd' nz).numCols ≃ Fin (final dd nz).numCols :=
  (finCongr (final_cols dd' nz)).trans ((columns ε).trans (finCongr (final_cols dd nz).symm))

theorem finalRows_val (r : Fin (final dd' nz).numRows) :
    (finalRows σ nz r).val = (σ ⟨r.val, by rw [← final_rows dd' nz]; exact r.2⟩).val := rfl

theorem finalCols_val {nz : Bool} (c : Fin (final dd' nz).numCols) (e : Fin dd'.nEvts) (k : Nat) (hk : k < 4)
    (hc : c.val = e.val * 4 + k) : (finalCols (dd := dd) (dd' := dd') ε nz c).val = (ε e).val * 4 + k := by
  have : finCongr (final_cols dd' nz) c = ⟨e.val * 4 + k, by have := e.2; omega⟩ := Fin.ext hc
  unfold finalCols
  rw [Equiv.trans_apply, this, Equiv.trans_apply]
  exact columns_val ε e k hk _

theorem reordered_final (h : SameSystem dd dd' σ ε) (nz : Bool) :
    Reordered (finalRows σ nz) (finalCols ε nz) (ddProducts (final dd nz)) (ddProducts (final dd' nz)) := by
  refine reordered_of (ddProducts_is _ (final_range _ nz h.range)) (ddProducts_is _ (final_range _ nz h.range')) ?_
  intro r c
  have hc : c.val < dd'.nEvts * 4 := by rw [← final_cols dd' nz]; exact c.2
  obtain ⟨e, k, hk, he⟩ := column_split ⟨c.val, hc⟩
  have he : c.val = e.val * 4 + k := congrArg Fin.val he
  show (final dd' nz).scaledMatrix r.val c.val = (final dd nz).scaledMatrix (finalRows σ nz r).val (finalCols ε nz c).val
  rw [finalRows_val, finalCols_val c e k hk he, he, final_scaledMatrix, final_scaledMatrix, scaler_same h nz e hk]
  congr 1
  exact design_same h ⟨r.val, by rw [← final_rows dd' nz]; exact r.2⟩ e hk

theorem first_d (h : SameSystem dd dd' σ ε) (nz : Bool) :
    first _ (final dd' nz).d = first _ (final dd nz).d ∘ finalRows σ nz := by
  funext r
  have hr : r.val < dd'.numRows := by rw [← final_rows dd' nz]; exact r.2
  show (final dd' nz).d r.val = (final dd nz).d (finalRows σ nz r).val
  rw [finalRows_val, final_d dd' nz hr, final_d dd nz (σ ⟨r.val, _⟩).2]
  have h1 := h.W ⟨r.val, hr⟩
  have h2 := h.d ⟨r.val, hr⟩
  simp only at h1 h2
  rw [h1, h2]

/-- a run of the reordered system -/
def Run.pull {n n' : Nat} (τ : Fin n' → Fin n) (r : Run n) : Run n' := ⟨r.reason, r.iterations, r.x ∘ τ⟩

theorem runSolver_same (h : SameSystem dd dd' σ ε) (method : Method) (nz : Bool) (o : Settings ℝ) :
    runSolver method (final dd' nz) o = (runSolver method (final dd nz) o).map (Run.pull (finalCols ε nz)) := by
  have hr := reordered_final h nz
  cases method with
  | lsqr =>
    unfold runSolver
    simp only
    rw [first_d h nz, Option.map_map]
    have := Lsqr.solve_pull (tiny := tiny30) hr o (first _ (final dd nz).d) (max 1 o.itnlim)
    rw [show realFns = real tiny30 from rfl, this, Option.map_map]
    rfl
  | lsmr =>
    unfold runSolver
    simp only
    rw [first_d h nz, Option.map_map]
    have := Lsmr.solve_pull (tiny := tiny30) hr big100 o (first _ (final dd nz).d) (max 1 o.itnlim)
    rw [show realFns = real tiny30 from rfl, this, Option.map_map]
    rfl

/-- two results are the same for the events in another order -/
def SameResult (dd dd' : DDSystem ℝ) (ε : Fin dd'.nEvts ≃ Fin dd.nEvts) :
    Outcome (Nat × (Nat → ℝ)) → Outcome (Nat × (Nat → ℝ)) → Prop
  | .ok (r, m), .ok (r', m') => r = r' ∧ ∀ (e : Fin dd'.nEvts) (k : Nat), k < 4 → m' (e.val * 4 + k) = m ((ε e).val * 4 + k)
  | .throws, .throws => True
  | .ub, .ub => True
  | _, _ => False

theorem solveDD_same (h : SameSystem dd dd' σ ε) (method : Method) (its : Nat) (damp : ℝ) (nz : Bool) :
    SameResult dd dd' ε (solveDD method dd its damp nz) (solveDD method dd' its damp nz) := by
  have hcols : (final dd' nz).numCols = (final dd nz).numCols := by
    have := Fintype.card_congr ε
    simp only [Fintype.card_fin] at this
    rw [final_cols, final_cols, this]
  show SameResult dd dd' ε
    (deliver method (final dd nz) nz (runSolver method (final dd nz) (settings (final dd nz).numCols its damp)))
    (deliver method (final dd' nz) nz (runSolver method (final dd' nz) (settings (final dd' nz).numCols its damp)))
  rw [hcols, runSolver_same h]
  generalize runSolver method (final dd nz) (settings (final dd nz).numCols its damp) = R
  cases R with
  | none => exact trivial
  | some r =>
    simp only [Option.map_some, deliver, Run.pull]
    by_cases hrej : rejected method r.reason = true
    · rw [if_pos hrej, if_pos hrej]; trivial
    · rw [if_neg hrej, if_neg hrej]
      refine ⟨rfl, ?_⟩
      intro e k hk
      obtain ⟨l1, l2⟩ := event_lt (ε := ε) e hk
      have l1' : e.val * 4 + k < (final dd' nz).numCols := by rw [(final_size dd' nz).2]; exact l1
      have l2' : (ε e).val * 4 + k < (final dd nz).numCols := by rw [(final_size dd nz).2]; exact l2
      have hx : array (r.x ∘ finalCols ε nz) (e.val * 4 + k) = array r.x ((ε e).val * 4 + k) := by
        unfold array
        rw [dif_pos l1', dif_pos l2']
        show r.x _ = r.x _
        congr 1
        exact Fin.ext (finalCols_val _ e k hk rfl)
      cases nz with
      | false => exact hx
      | true =>
        show (final dd' true).l2denormalize _ _ = (final dd true).l2denormalize _ _
        unfold DDSystem.l2denormalize
        rw [if_pos l1', if_pos l2', hx, scaler_same h true e hk]

end Verif.LeastSquares
