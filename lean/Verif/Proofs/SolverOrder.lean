import Verif.Model.SolveDD
import Verif.Proofs.LeastSquares

/-! Helper lemmas for C107: the two solvers do not depend on the order of rows and columns. -/

set_option linter.unusedSectionVars false
set_option linter.unusedSimpArgs false

namespace Verif.LeastSquares
open Matrix

variable {m n m' n' : Nat} {tiny : ℝ}

/-- the products of a matrix with its rows and columns in another order -/
structure Reordered (σ : Fin m' ≃ Fin m) (τ : Fin n' ≃ Fin n) (P : Products m n ℝ) (P' : Products m' n' ℝ) : Prop where
  p1 : ∀ x y, P'.aprod1 (x ∘ τ) (y ∘ σ) = P.aprod1 x y ∘ σ
  p2 : ∀ x y, P'.aprod2 (x ∘ τ) (y ∘ σ) = P.aprod2 x y ∘ τ

theorem dnrm2_comp (τ : Fin n' ≃ Fin n) (x : Fin n → ℝ) : dnrm2 (real tiny) (x ∘ τ) = dnrm2 (real tiny) x := by
  rw [dnrm2_eq, dnrm2_eq]
  congr 1
  unfold dotProduct
  exact Equiv.sum_comp τ (fun i => x i * x i)

theorem scale_comp {K : Type} [Mul K] (f : K) (τ : Fin n' → Fin n) (x : Fin n → K) : scale f (x ∘ τ) = scale f x ∘ τ := rfl

theorem foldl_sq_eq (t : ℝ) (l : List ℝ) (a : ℝ) :
    l.foldl (fun a x => (t * x) * (t * x) + a) a = a + (l.map (fun x => (t * x) * (t * x))).sum := by
  induction l generalizing a with
  | nil => simp
  | cons x l ih => rw [List.foldl_cons, ih, List.map_cons, List.sum_cons]; ring

theorem foldl_sq_comp (τ : Fin n' ≃ Fin n) (t : ℝ) (x : Fin n → ℝ) :
    (List.ofFn (x ∘ τ)).foldl (fun a x => (t * x) * (t * x) + a) 0 =
      (List.ofFn x).foldl (fun a x => (t * x) * (t * x) + a) 0 := by
  rw [foldl_sq_eq, foldl_sq_eq, List.map_ofFn, List.map_ofFn, List.sum_ofFn, List.sum_ofFn]
  congr 1
  exact Equiv.sum_comp τ (fun i => (t * x i) * (t * x i))

/-- the vectors in another order -/
def Vectors.pull (σ : Fin m' → Fin m) (τ : Fin n' → Fin n) (s : Vectors m n ℝ) : Vectors m' n' ℝ :=
  ⟨s.alpha, s.beta, s.u ∘ σ, s.v ∘ τ⟩

variable {σ : Fin m' ≃ Fin m} {τ : Fin n' ≃ Fin n} {P : Products m n ℝ} {P' : Products m' n' ℝ}

theorem zero_comp {a b : Nat} (τ : Fin a → Fin b) : (fun _ => 0 : Fin a → ℝ) = (fun _ => 0 : Fin b → ℝ) ∘ τ := rfl

theorem firstVectors_pull (h : Reordered σ τ P P') (b : Fin m → ℝ) :
    firstVectors (real tiny) P' (b ∘ σ) = (firstVectors (real tiny) P b).pull σ τ := by
  unfold firstVectors
  simp only [dnrm2_comp, scale_comp]
  have e : P'.aprod2 (fun _ => 0) (scale (1 / dnrm2 (real tiny) b) b ∘ σ) =
      P.aprod2 (fun _ => 0) (scale (1 / dnrm2 (real tiny) b) b) ∘ τ := by
    rw [zero_comp τ, h.p2]
  rw [e, dnrm2_comp, scale_comp]
  split
  · split <;> rfl
  · rfl

theorem nextVectors_pull (h : Reordered σ τ P P') (s : Vectors m n ℝ) :
    nextVectors (real tiny) P' (s.pull σ τ) = (nextVectors (real tiny) P s).pull σ τ := by
  unfold nextVectors Vectors.pull
  simp only [scale_comp, h.p1, h.p2, dnrm2_comp]
  split
  · split <;> rfl
  · rfl

namespace Lsqr

/-- the state for another order -/
def pull (σ : Fin m' → Fin m) (τ : Fin n' → Fin n) (s : Lsqr m n ℝ) : Lsqr m' n' ℝ :=
  { vec := s.vec.pull σ τ, w := s.w ∘ τ, x := s.x ∘ τ, itn := s.itn, istop := s.istop, rhobar := s.rhobar,
    phibar := s.phibar, psi := s.psi, bnorm := s.bnorm, Anorm := s.Anorm, Acond := s.Acond, dnorm := s.dnorm,
    res2 := s.res2, xnorm := s.xnorm, xnorm1 := s.xnorm1, cs2 := s.cs2, sn2 := s.sn2, z := s.z, rnorm := s.rnorm,
    Arnorm := s.Arnorm, rho := s.rho, gambar := s.gambar, gamma := s.gamma, test1 := s.test1, test2 := s.test2,
    test3 := s.test3, rtol := s.rtol }

theorem start_pull (h : Reordered σ τ P P') (b : Fin m → ℝ) :
    start (real tiny) P' (b ∘ σ) = (start (real tiny) P b).pull σ τ := by
  unfold start
  rw [firstVectors_pull h]
  rfl

theorem iterate_pull (h : Reordered σ τ P P') (o : Settings ℝ) (s : Lsqr m n ℝ) :
    iterate (real tiny) P' o (s.pull σ τ) = (iterate (real tiny) P o s).pull σ τ := by
  have e1 : nextVectors (real tiny) P' (s.pull σ τ).vec = (nextVectors (real tiny) P s.vec).pull σ τ :=
    nextVectors_pull h s.vec
  have e2 : ∀ t : ℝ, (List.ofFn (s.pull σ τ).w).foldl (fun a x => (t * x) * (t * x) + a) 0 =
      (List.ofFn s.w).foldl (fun a x => (t * x) * (t * x) + a) 0 := fun t => foldl_sq_comp τ t s.w
  unfold iterate
  simp only [e1, e2]
  rfl

theorem loop_pull (h : Reordered σ τ P P') (o : Settings ℝ) (fuel : Nat) (s : Lsqr m n ℝ) :
    loop (real tiny) P' o fuel (s.pull σ τ) = (loop (real tiny) P o fuel s).map (pull σ τ) := by
  induction fuel generalizing s with
  | zero => rfl
  | succ fuel ih =>
    unfold loop
    simp only [iterate_pull h]
    rw [show (pull σ τ (iterate (real tiny) P o s)).istop = (iterate (real tiny) P o s).istop from rfl]
    split
    · exact ih _
    · rfl

theorem finish_pull (o : Settings ℝ) (s : Lsqr m n ℝ) : finish o (s.pull σ τ) = (finish o s).pull σ τ := by
  unfold finish
  rw [show (s.pull σ τ).istop = s.istop from rfl]
  split <;> rfl

theorem solve_pull (h : Reordered σ τ P P') (o : Settings ℝ) (b : Fin m → ℝ) (fuel : Nat) :
    solve (real tiny) P' o (b ∘ σ) fuel = (solve (real tiny) P o b fuel).map (pull σ τ) := by
  unfold solve
  simp only [start_pull h]
  rw [show (pull σ τ (start (real tiny) P b)).Arnorm = (start (real tiny) P b).Arnorm from rfl]
  split
  · rw [finish_pull]; rfl
  · rw [loop_pull h, Option.map_map, Option.map_map]
    congr 1
    funext s
    exact finish_pull o s

end Lsqr

namespace Lsmr

/-- the state for another order -/
def pull (σ : Fin m' → Fin m) (τ : Fin n' → Fin n) (s : Lsmr m n ℝ) : Lsmr m' n' ℝ :=
  { vec := s.vec.pull σ τ, h := s.h ∘ τ, hbar := s.hbar ∘ τ, x := s.x ∘ τ, itn := s.itn, istop := s.istop,
    zetabar := s.zetabar, alphabar := s.alphabar, rho := s.rho, rhobar := s.rhobar, cbar := s.cbar, sbar := s.sbar,
    betadd := s.betadd, betad := s.betad, rhodold := s.rhodold, tautildeold := s.tautildeold,
    thetatilde := s.thetatilde, zeta := s.zeta, d := s.d, normA2 := s.normA2, maxrbar := s.maxrbar,
    minrbar := s.minrbar, normb := s.normb, normA := s.normA, condA := s.condA, normr := s.normr,
    normAr := s.normAr, normx := s.normx }

theorem start_pull (h : Reordered σ τ P P') (big : ℝ) (b : Fin m → ℝ) :
    start (real tiny) P' big (b ∘ σ) = (start (real tiny) P big b).pull σ τ := by
  unfold start
  rw [scale_comp, zero_comp τ, h.p1, scale_comp, firstVectors_pull h]
  rfl

theorem iterate_pull (h : Reordered σ τ P P') (o : Settings ℝ) (s : Lsmr m n ℝ) :
    iterate (real tiny) P' o (s.pull σ τ) = (iterate (real tiny) P o s).pull σ τ := by
  have e1 : nextVectors (real tiny) P' (s.pull σ τ).vec = (nextVectors (real tiny) P s.vec).pull σ τ :=
    nextVectors_pull h s.vec
  have e2 : ∀ c d : ℝ, dnrm2 (real tiny) (fun i => (s.pull σ τ).x i + c * ((s.pull σ τ).h i - d * (s.pull σ τ).hbar i)) =
      dnrm2 (real tiny) (fun i => s.x i + c * (s.h i - d * s.hbar i)) := by
    intro c d
    exact dnrm2_comp τ (fun i => s.x i + c * (s.h i - d * s.hbar i))
  unfold iterate
  simp only [e1, e2]
  rfl

theorem loop_pull (h : Reordered σ τ P P') (o : Settings ℝ) (fuel : Nat) (s : Lsmr m n ℝ) :
    loop (real tiny) P' o fuel (s.pull σ τ) = (loop (real tiny) P o fuel s).map (pull σ τ) := by
  induction fuel generalizing s with
  | zero => rfl
  | succ fuel ih =>
    unfold loop
    simp only [iterate_pull h]
    rw [show (pull σ τ (iterate (real tiny) P o s)).istop = (iterate (real tiny) P o s).istop from rfl]
    split
    · exact ih _
    · rfl

theorem solve_pull (h : Reordered σ τ P P') (big : ℝ) (o : Settings ℝ) (b : Fin m → ℝ) (fuel : Nat) :
    solve (real tiny) P' big o (b ∘ σ) fuel = (solve (real tiny) P big o b fuel).map (pull σ τ) := by
  unfold solve
  simp only [start_pull h]
  rw [show (pull σ τ (start (real tiny) P big b)).normAr = (start (real tiny) P big b).normAr from rfl]
  split
  · rfl
  · exact loop_pull h o fuel _

end Lsmr
end Verif.LeastSquares
