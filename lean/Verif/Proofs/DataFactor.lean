import Verif.Proofs.WeightFactor

/-! Helper lemmas for C137: LSQR and LSMR when the data is multiplied by a factor or has the other sign. -/

set_option linter.unusedSectionVars false
set_option linter.unusedSimpArgs false

namespace Verif.LeastSquares
open Matrix

variable {m n : Nat} {tiny c : ℝ}

/-! ## the other sign -/

/-- the array with the other sign -/
def minus (x : Fin n → ℝ) : Fin n → ℝ := fun i => -x i

theorem dnrm2_minus (x : Fin n → ℝ) : dnrm2 (real tiny) (minus x) = dnrm2 (real tiny) x := by
  rw [dnrm2_eq, dnrm2_eq]
  congr 1
  unfold dotProduct minus
  exact Finset.sum_congr rfl fun i _ => by ring

theorem scale_minus (a : ℝ) (x : Fin n → ℝ) : scale a (minus x) = minus (scale a x) := by
  funext i; unfold scale minus; ring

theorem minus_zero : minus (fun _ : Fin n => (0 : ℝ)) = fun _ => 0 := by funext i; simp [minus]

/-- Products with arguments of the other sign have the other sign. -/
structure Odd (P : Products m n ℝ) : Prop where
  aprod1 : ∀ x y, P.aprod1 (minus x) (minus y) = minus (P.aprod1 x y)
  aprod2 : ∀ x y, P.aprod2 (minus x) (minus y) = minus (P.aprod2 x y)

/-- the vectors of the other sign -/
def Vectors.minus (s : Vectors m n ℝ) : Vectors m n ℝ := ⟨s.alpha, s.beta, LeastSquares.minus s.u, LeastSquares.minus s.v⟩

theorem firstVectors_minus {P : Products m n ℝ} (hP : Odd P) (b : Fin m → ℝ) :
    firstVectors (real tiny) P (minus b) = (firstVectors (real tiny) P b).minus := by
  have h2 : ∀ y, P.aprod2 (fun _ => 0) (minus y) = minus (P.aprod2 (fun _ => 0) y) := by
    intro y
    have := hP.aprod2 (fun _ => 0) y
    rwa [minus_zero] at this
  unfold firstVectors
  simp only [dnrm2_minus, scale_minus, h2]
  split
  · split <;> rfl
  · simp only [Vectors.minus, minus_zero]

theorem nextVectors_minus {P : Products m n ℝ} (hP : Odd P) (s : Vectors m n ℝ) :
    nextVectors (real tiny) P s.minus = (nextVectors (real tiny) P s).minus := by
  unfold nextVectors
  simp only [Vectors.minus, dnrm2_minus, scale_minus, hP.aprod1, hP.aprod2]
  split
  · split <;> rfl
  · rfl

namespace Lsmr

/-- the state for data of the other sign -/
def minus (s : Lsmr m n ℝ) : Lsmr m n ℝ :=
  { s with vec := s.vec.minus, h := LeastSquares.minus s.h, hbar := LeastSquares.minus s.hbar, x := LeastSquares.minus s.x }

theorem start_minus {P : Products m n ℝ} (hP : Odd P) (big : ℝ) (b : Fin m → ℝ) :
    start (real tiny) P big (LeastSquares.minus b) = (start (real tiny) P big b).minus := by
  have h1 : ∀ y, P.aprod1 (fun _ => 0) (LeastSquares.minus y) = LeastSquares.minus (P.aprod1 (fun _ => 0) y) := by
    intro y
    have := hP.aprod1 (fun _ => 0) y
    rwa [minus_zero] at this
  unfold start
  simp only [scale_minus, h1, firstVectors_minus hP]
  simp only [minus, minus_zero]
  rfl

theorem iterate_minus {P : Products m n ℝ} (hP : Odd P) (o : Settings ℝ) (s : Lsmr m n ℝ) :
    iterate (real tiny) P o s.minus = (iterate (real tiny) P o s).minus := by
  have e1 : ∀ (a : ℝ) (x y : Fin n → ℝ), (fun i => LeastSquares.minus x i - a * LeastSquares.minus y i) =
      LeastSquares.minus (fun i => x i - a * y i) := by
    intro a x y; funext i; unfold LeastSquares.minus; ring
  have e2 : ∀ (a b : ℝ) (x y z : Fin n → ℝ), (fun i => LeastSquares.minus x i + a * (LeastSquares.minus y i - b * LeastSquares.minus z i)) =
      LeastSquares.minus (fun i => x i + a * (y i - b * z i)) := by
    intro a b x y z; funext i; unfold LeastSquares.minus; ring
  have f1 : s.minus.vec = s.vec.minus := rfl
  have f2 : s.minus.h = LeastSquares.minus s.h := rfl
  have f3 : s.minus.hbar = LeastSquares.minus s.hbar := rfl
  have f4 : s.minus.x = LeastSquares.minus s.x := rfl
  have g1 : ∀ v : Vectors m n ℝ, v.minus.v = LeastSquares.minus v.v := fun _ => rfl
  unfold iterate
  simp only [f1, f2, f3, f4, nextVectors_minus hP, g1, e1, e2, dnrm2_minus]
  rfl

theorem loop_minus {P : Products m n ℝ} (hP : Odd P) (o : Settings ℝ) (fuel : Nat) (s : Lsmr m n ℝ) :
    loop (real tiny) P o fuel s.minus = (loop (real tiny) P o fuel s).map minus := by
  induction fuel generalizing s with
  | zero => rfl
  | succ fuel ih =>
    unfold loop
    simp only [iterate_minus hP]
    rw [show (minus (iterate (real tiny) P o s)).istop = (iterate (real tiny) P o s).istop from rfl]
    split
    · exact ih _
    · rfl

theorem solve_minus {P : Products m n ℝ} (hP : Odd P) (big : ℝ) (o : Settings ℝ) (b : Fin m → ℝ) (fuel : Nat) :
    solve (real tiny) P big o (LeastSquares.minus b) fuel = (solve (real tiny) P big o b fuel).map minus := by
  unfold solve
  simp only [start_minus hP]
  rw [show (minus (start (real tiny) P big b)).normAr = (start (real tiny) P big b).normAr from rfl]
  split
  · rfl
  · exact loop_minus hP o fuel _

end Lsmr

namespace Lsqr

/-- the state for data of the other sign -/
def minus (s : Lsqr m n ℝ) : Lsqr m n ℝ :=
  { s with vec := s.vec.minus, w := LeastSquares.minus s.w, x := LeastSquares.minus s.x }

theorem start_minus {P : Products m n ℝ} (hP : Odd P) (b : Fin m → ℝ) :
    start (real tiny) P (LeastSquares.minus b) = (start (real tiny) P b).minus := by
  unfold start
  simp only [firstVectors_minus hP]
  simp only [minus, minus_zero]
  rfl

theorem dk_minus (a : ℝ) (w : Fin n → ℝ) :
    (List.ofFn (LeastSquares.minus w)).foldl (fun s t => (a * t) * (a * t) + s) 0 = (List.ofFn w).foldl (fun s t => (a * t) * (a * t) + s) 0 := by
  have h1 : List.ofFn (LeastSquares.minus w) = (List.ofFn w).map (fun t => -t) := by
    rw [List.map_ofFn]; rfl
  rw [h1, List.foldl_map]
  congr 1
  funext s t
  ring

theorem iterate_minus {P : Products m n ℝ} (hP : Odd P) (o : Settings ℝ) (s : Lsqr m n ℝ) :
    iterate (real tiny) P o s.minus = (iterate (real tiny) P o s).minus := by
  have e1 : ∀ (a : ℝ) (x y : Fin n → ℝ), (fun i => a * LeastSquares.minus x i + LeastSquares.minus y i) =
      LeastSquares.minus (fun i => a * x i + y i) := by
    intro a x y; funext i; unfold LeastSquares.minus; ring
  have f1 : s.minus.vec = s.vec.minus := rfl
  have f2 : s.minus.w = LeastSquares.minus s.w := rfl
  have f4 : s.minus.x = LeastSquares.minus s.x := rfl
  have f5 : rotateDamp (real tiny) o s.minus = rotateDamp (real tiny) o s := rfl
  have g1 : ∀ v : Vectors m n ℝ, v.minus.v = LeastSquares.minus v.v := fun _ => rfl
  unfold iterate
  simp only [f1, f2, f4, f5, nextVectors_minus hP, g1, e1, dk_minus]
  rfl

theorem loop_minus {P : Products m n ℝ} (hP : Odd P) (o : Settings ℝ) (fuel : Nat) (s : Lsqr m n ℝ) :
    loop (real tiny) P o fuel s.minus = (loop (real tiny) P o fuel s).map minus := by
  induction fuel generalizing s with
  | zero => rfl
  | succ fuel ih =>
    unfold loop
    simp only [iterate_minus hP]
    rw [show (minus (iterate (real tiny) P o s)).istop = (iterate (real tiny) P o s).istop from rfl]
    split
    · exact ih _
    · rfl

theorem finish_minus (o : Settings ℝ) (s : Lsqr m n ℝ) : finish o s.minus = (finish o s).minus := by
  unfold finish
  rw [show s.minus.istop = s.istop from rfl]
  split <;> rfl

theorem solve_minus {P : Products m n ℝ} (hP : Odd P) (o : Settings ℝ) (b : Fin m → ℝ) (fuel : Nat) :
    solve (real tiny) P o (LeastSquares.minus b) fuel = (solve (real tiny) P o b fuel).map minus := by
  unfold solve
  simp only [start_minus hP]
  rw [show (minus (start (real tiny) P b)).Arnorm = (start (real tiny) P b).Arnorm from rfl]
  split
  · rw [Option.map_some, finish_minus]
  · rw [loop_minus hP, Option.map_map, Option.map_map]
    congr 1
    funext s
    exact finish_minus o s

end Lsqr

/-! ## the products of the double-difference system -/

theorem array_minus (x : Fin n → ℝ) : array (minus x) = fun i => -array x i := by
  funext i; unfold array minus; split <;> simp

theorem addAt_minus (v : Nat → ℝ) (i : Nat) (a : ℝ) : DDSystem.addAt (fun j => -v j) i (-a) = fun j => -DDSystem.addAt v i a j := by
  funext j; unfold DDSystem.addAt; split <;> ring

theorem rowSum_minus (dd : DDSystem ℝ) (x : Nat → ℝ) (ob : Nat) : dd.rowSum (fun i => -x i) ob = -dd.rowSum x ob := by
  unfold DDSystem.rowSum
  cases dd.ev1 ob <;> cases dd.ev2 ob <;> simp only [List.foldl] <;> ring

theorem aprod1_minus (dd : DDSystem ℝ) (x y : Nat → ℝ) : dd.aprod1 (fun i => -x i) (fun i => -y i) = fun i => -dd.aprod1 x y i := by
  unfold DDSystem.aprod1
  generalize List.range dd.numRows = l
  induction l generalizing y with
  | nil => rfl
  | cons ob l ih =>
    rw [List.foldl_cons, List.foldl_cons, ← ih]
    congr 1
    rw [rowSum_minus]
    split
    · rfl
    · rw [mul_neg, addAt_minus]

theorem addEvent_minus (o : Option Nat) (f : Nat → Nat → ℝ) (v : Nat → ℝ) :
    DDSystem.addEvent o (fun e k => -f e k) (fun i => -v i) = fun i => -DDSystem.addEvent o f v i := by
  unfold DDSystem.addEvent
  cases o with
  | none => rfl
  | some e => simp only [List.foldl, addAt_minus]

theorem aprod2Step_minus (dd : DDSystem ℝ) (x y : Nat → ℝ) (ob : Nat) :
    dd.aprod2Step (fun i => -y i) (fun i => -x i) ob = fun i => -dd.aprod2Step y x ob i := by
  unfold DDSystem.aprod2Step
  simp only [neg_mul, mul_neg, neg_eq_zero]
  split
  · rfl
  · rw [addEvent_minus, addEvent_minus]

theorem aprod2_minus (dd : DDSystem ℝ) (x y : Nat → ℝ) : dd.aprod2 (fun i => -x i) (fun i => -y i) = fun i => -dd.aprod2 x y i := by
  unfold DDSystem.aprod2
  generalize List.range dd.numRows = l
  induction l generalizing x with
  | nil => rfl
  | cons ob l ih => rw [List.foldl_cons, List.foldl_cons, ← ih, aprod2Step_minus]

theorem products_odd (dd : DDSystem ℝ) : Odd (ddProducts dd) := by
  constructor
  · intro x y
    show first _ (dd.aprod1 (array (minus x)) (array (minus y))) = minus (first _ (dd.aprod1 (array x) (array y)))
    rw [array_minus, array_minus, aprod1_minus]
    rfl
  · intro x y
    show first _ (dd.aprod2 (array (minus x)) (array (minus y))) = minus (first _ (dd.aprod2 (array x) (array y)))
    rw [array_minus, array_minus, aprod2_minus]
    rfl

/-! ## the solution of the system -/

/-- the system with its data multiplied by a factor -/
def dataTimes (c : ℝ) (dd : DDSystem ℝ) : DDSystem ℝ := { dd with d := fun r => c * dd.d r }

theorem final_dataTimes (dd : DDSystem ℝ) (normalize : Bool) : final (dataTimes c dd) normalize = dataTimes c (final dd normalize) := by
  have hfin : ∀ dd : DDSystem ℝ, final dd normalize = (if normalize then dd.adapter.l2normalize else dd.adapter) := fun _ => rfl
  have h1 : DDSystem.adapter (dataTimes c dd) = dataTimes c dd.adapter := by
    unfold DDSystem.adapter dataTimes
    simp only [DDSystem.mk.injEq, true_and, and_true]
    funext r
    show (if r < dd.numRows then (if dd.W r ≠ 0 then c * dd.d r * dd.W r else 0) else c * dd.d r) =
      c * (if r < dd.numRows then (if dd.W r ≠ 0 then dd.d r * dd.W r else 0) else dd.d r)
    split
    · split <;> ring
    · rfl
  rw [hfin, hfin, h1]
  cases normalize <;> rfl

theorem deliver_times (method : Method) (a : DDSystem ℝ) (normalize : Bool) (r : Option (Run a.numCols)) :
    deliver method (dataTimes c a) normalize (r.map (fun r => (⟨r.reason, r.iterations, fun i => c * r.x i⟩ : Run a.numCols))) =
      (deliver method a normalize r).map (fun x => (x.1, fun i => c * x.2 i)) := by
  cases r with
  | none => rfl
  | some r =>
    show (if rejected method r.reason then Outcome.throws
        else Outcome.ok (r.reason, if normalize then (dataTimes c a).l2denormalize (array (n := a.numCols) (fun i => c * r.x i))
          else array (n := a.numCols) (fun i => c * r.x i))) =
      Outcome.map _ (if rejected method r.reason then Outcome.throws
        else Outcome.ok (r.reason, if normalize then a.l2denormalize (array r.x) else array r.x))
    by_cases hrej : rejected method r.reason = true
    · rw [if_pos hrej, if_pos hrej]; rfl
    · rw [if_neg hrej, if_neg hrej]
      simp only [Outcome.map]
      congr 2
      have ha : ∀ i, array (n := a.numCols) (fun i => c * r.x i) i = c * array r.x i := by
        intro i; unfold array; split <;> simp
      funext i
      cases normalize with
      | false => exact ha i
      | true =>
        simp only [if_true]
        unfold DDSystem.l2denormalize
        show (if i < a.numCols then array (n := a.numCols) (fun i => c * r.x i) i * a.scaler i else array (n := a.numCols) (fun i => c * r.x i) i) = _
        rw [ha]
        split <;> ring

theorem solveDD_of_run {method : Method} (dd : DDSystem ℝ) (its : Nat) (damp : ℝ) (normalize : Bool)
    (h : ∀ (a : DDSystem ℝ) (o : Settings ℝ), runSolver method (dataTimes c a) o =
      (runSolver method a o).map (fun r => (⟨r.reason, r.iterations, fun i => c * r.x i⟩ : Run a.numCols))) :
    solveDD method (dataTimes c dd) its damp normalize =
      (solveDD method dd its damp normalize).map (fun x => (x.1, fun i => c * x.2 i)) := by
  show deliver method (final (dataTimes c dd) normalize) normalize
      (runSolver method (final (dataTimes c dd) normalize) (settings (final (dataTimes c dd) normalize).numCols its damp)) =
    (deliver method (final dd normalize) normalize (runSolver method (final dd normalize) (settings (final dd normalize).numCols its damp))).map _
  rw [final_dataTimes]
  generalize final dd normalize = a
  show deliver method (dataTimes c a) normalize (runSolver method (dataTimes c a) (settings a.numCols its damp)) = _
  rw [h]
  exact deliver_times method a normalize _

theorem run_times (hc : 0 < c) (a : DDSystem ℝ) (o : Settings ℝ) : runSolver .lsmr (dataTimes c a) o =
    (runSolver .lsmr a o).map (fun r => (⟨r.reason, r.iterations, fun i => c * r.x i⟩ : Run a.numCols)) := by
  unfold runSolver
  simp only
  rw [Option.map_map]
  exact Lsmr.solve_times (tiny := tiny30) hc (aprod1_zero a) big100 o (first _ a.d) (max 1 o.itnlim)

theorem run_minus (method : Method) (a : DDSystem ℝ) (o : Settings ℝ) : runSolver method (dataTimes (-1) a) o =
    (runSolver method a o).map (fun r => (⟨r.reason, r.iterations, fun i => -1 * r.x i⟩ : Run a.numCols)) := by
  have hd : first a.numRows (dataTimes (-1) a).d = minus (first a.numRows a.d) := by
    funext i; show -1 * a.d i = -a.d i; ring
  have hx : ∀ x : Fin a.numCols → ℝ, minus x = fun i => -1 * x i := by
    intro x; funext i; unfold minus; ring
  cases method with
  | lsmr =>
    have h := Lsmr.solve_minus (tiny := tiny30) (products_odd a) big100 o (first _ a.d) (max 1 o.itnlim)
    show (Lsmr.solve (real tiny30) (ddProducts a) big100 o (first a.numRows (dataTimes (-1) a).d) (max 1 o.itnlim)).map
        (fun s : Lsmr a.numRows a.numCols ℝ => (⟨s.istop, s.itn, s.x⟩ : Run a.numCols)) =
      ((Lsmr.solve (real tiny30) (ddProducts a) big100 o (first a.numRows a.d) (max 1 o.itnlim)).map
        (fun s : Lsmr a.numRows a.numCols ℝ => (⟨s.istop, s.itn, s.x⟩ : Run a.numCols))).map _
    rw [hd, h]
    cases Lsmr.solve (real tiny30) (ddProducts a) big100 o (first a.numRows a.d) (max 1 o.itnlim) with
    | none => rfl
    | some s => exact congrArg (fun x => some (Run.mk s.istop s.itn x)) (hx s.x)
  | lsqr =>
    have h := Lsqr.solve_minus (tiny := tiny30) (products_odd a) o (first _ a.d) (max 1 o.itnlim)
    show (Lsqr.solve (real tiny30) (ddProducts a) o (first a.numRows (dataTimes (-1) a).d) (max 1 o.itnlim)).map
        (fun s : Lsqr a.numRows a.numCols ℝ => (⟨s.istop, s.itn, s.x⟩ : Run a.numCols)) =
      ((Lsqr.solve (real tiny30) (ddProducts a) o (first a.numRows a.d) (max 1 o.itnlim)).map
        (fun s : Lsqr a.numRows a.numCols ℝ => (⟨s.istop, s.itn, s.x⟩ : Run a.numCols))).map _
    rw [hd, h]
    cases Lsqr.solve (real tiny30) (ddProducts a) o (first a.numRows a.d) (max 1 o.itnlim) with
    | none => rfl
    | some s => exact congrArg (fun x => some (Run.mk s.istop s.itn x)) (hx s.x)

end Verif.LeastSquares
