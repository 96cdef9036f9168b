import Verif.Proofs.Lsqr
import Verif.Proofs.Lsmr
import Mathlib.Analysis.InnerProductSpace.PiL2

/-!
# The least-squares solvers (C57, C58)

Numbers are real numbers (`real tiny`: `std::sqrt` and `std::fabs` without rounding, `tiny` is `1e-30`)
except where a type `K` without laws stands for any numbers, floating-point ones included.
-/

set_option linter.unusedSectionVars false
set_option linter.unusedSimpArgs false

namespace Verif.LeastSquares
open Matrix

variable {m n : Nat} {tiny big : ℝ} {A : Matrix (Fin m) (Fin n) ℝ} {b : Fin m → ℝ}

/-! ## C57 -/

/-- **C57a.** The norm of a vector is its Euclidean norm, for every vector. -/
theorem vector_norm_is_euclidean (x : Fin n → ℝ) :
    dnrm2 (real tiny) x = ‖(WithLp.toLp 2 x : EuclideanSpace ℝ (Fin n))‖ := by
  rw [dnrm2_eq, EuclideanSpace.norm_eq]
  congr 1
  unfold dotProduct
  refine Finset.sum_congr rfl ?_
  intro i _
  simp [sq]

/-- **C57b.** The norm of a pair is its Euclidean norm. -/
theorem pair_norm_is_euclidean (x y : ℝ) :
    d2norm (real tiny) x y = ‖(WithLp.toLp 2 ![x, y] : EuclideanSpace ℝ (Fin 2))‖ := by
  rw [d2norm_eq, EuclideanSpace.norm_eq]
  simp [Fin.sum_univ_two]

/-- the three cases of the loop of the norm -/
theorem nrmStep_cases (tiny : ℝ) (s : ℝ × ℝ) (x : ℝ) :
    (x = 0 ∧ nrmStep (real tiny) s x = s) ∨
    (s.1 < |x| ∧ nrmStep (real tiny) s x = (|x|, s.2 * (s.1 / |x| * (s.1 / |x|)) + 1)) ∨
    (x ≠ 0 ∧ |x| ≤ s.1 ∧ nrmStep (real tiny) s x = (s.1, s.2 + |x| / s.1 * (|x| / s.1))) := by
  by_cases hx : x = 0
  · left; refine ⟨hx, ?_⟩; unfold nrmStep; simp [hx]
  · right
    have hb : ¬ (x == 0) = true := by simpa using hx
    by_cases hlt : s.1 < |x|
    · left
      refine ⟨hlt, ?_⟩
      unfold nrmStep
      rw [if_neg hb]
      exact if_pos hlt
    · right
      refine ⟨hx, not_lt.1 hlt, ?_⟩
      unfold nrmStep
      rw [if_neg hb]
      exact if_neg hlt

/-- **C57c.** No square of a large number is formed: along the way the first variable is the largest
magnitude met and the second, scaled, sum is between 1 and the number of elements plus one. -/
theorem vector_norm_scaled (l : List ℝ) :
    let s := l.foldl (nrmStep (real tiny)) (0, 1)
    0 ≤ s.1 ∧ (s.1 = 0 ∨ ∃ x ∈ l, s.1 = |x|) ∧ (∀ x ∈ l, |x| ≤ s.1) ∧ 1 ≤ s.2 ∧ s.2 ≤ l.length + 1 := by
  suffices h : ∀ (l : List ℝ) (s : ℝ × ℝ) (seen : List ℝ), 0 ≤ s.1 → (s.1 = 0 ∨ ∃ x ∈ seen, s.1 = |x|) →
      (∀ x ∈ seen, |x| ≤ s.1) → 1 ≤ s.2 → s.2 ≤ seen.length + 1 →
      let t := l.foldl (nrmStep (real tiny)) s
      0 ≤ t.1 ∧ (t.1 = 0 ∨ ∃ x ∈ seen ++ l, t.1 = |x|) ∧ (∀ x ∈ seen ++ l, |x| ≤ t.1) ∧ 1 ≤ t.2 ∧
        t.2 ≤ (seen ++ l).length + 1 by
    have := h l (0, 1) [] (le_refl _) (Or.inl rfl) (by simp) (le_refl _) (by simp)
    simpa using this
  intro l
  induction l with
  | nil => intro s seen h1 h2 h3 h4 h5; simpa using ⟨h1, h2, h3, h4, h5⟩
  | cons x l ih =>
    intro s seen h1 h2 h3 h4 h5
    have e : seen ++ x :: l = (seen ++ [x]) ++ l := by simp
    rw [List.foldl_cons, e]
    have hlen : ((seen ++ [x]).length : ℝ) = seen.length + 1 := by simp
    have hold : s.1 = 0 ∨ ∃ y ∈ seen ++ [x], s.1 = |y| := h2.imp id (fun ⟨y, hy, he⟩ => ⟨y, by simp [hy], he⟩)
    rcases nrmStep_cases tiny s x with ⟨hx, he⟩ | ⟨hlt, he⟩ | ⟨hx, hlt, he⟩
    · rw [he]
      refine ih s (seen ++ [x]) h1 hold ?_ h4 (by rw [hlen]; linarith)
      intro y hy
      rcases List.mem_append.1 hy with hy | hy
      · exact h3 y hy
      · rw [List.mem_singleton.1 hy, hx, abs_zero]; exact h1
    · rw [he]
      have hp : 0 < |x| := lt_of_le_of_lt h1 hlt
      have h6 : s.1 / |x| ≤ 1 := (div_le_one hp).2 hlt.le
      have h7 : 0 ≤ s.1 / |x| := by positivity
      have h8 : s.1 / |x| * (s.1 / |x|) ≤ 1 := mul_le_one₀ h6 h7 h6
      have h9 : s.2 * (s.1 / |x| * (s.1 / |x|)) ≤ s.2 := mul_le_of_le_one_right (by linarith) h8
      have h10 : 0 ≤ s.2 * (s.1 / |x| * (s.1 / |x|)) := by positivity
      refine ih _ (seen ++ [x]) (abs_nonneg x) (Or.inr ⟨x, by simp, rfl⟩) ?_ (by simp only; linarith)
        (by rw [hlen]; simp only; linarith)
      intro y hy
      rcases List.mem_append.1 hy with hy | hy
      · exact le_trans (h3 y hy) hlt.le
      · rw [List.mem_singleton.1 hy]
    · rw [he]
      have hp : 0 < s.1 := lt_of_lt_of_le (abs_pos.2 hx) hlt
      have h6 : |x| / s.1 ≤ 1 := (div_le_one hp).2 hlt
      have h7 : 0 ≤ |x| / s.1 := by positivity
      have h8 : |x| / s.1 * (|x| / s.1) ≤ 1 := mul_le_one₀ h6 h7 h6
      have h10 : 0 ≤ |x| / s.1 * (|x| / s.1) := mul_self_nonneg _
      refine ih _ (seen ++ [x]) h1 hold ?_ (by simp only; linarith) (by rw [hlen]; simp only; linarith)
      intro y hy
      rcases List.mem_append.1 hy with hy | hy
      · exact h3 y hy
      · rw [List.mem_singleton.1 hy]; exact hlt

/-! ## C58: the number of iterations, for any numbers -/

section any
variable {K : Type} [Add K] [Sub K] [Mul K] [Div K] [Neg K] [Zero K] [One K] [BEq K] [LT K] [LE K]
  [DecidableLT K] [DecidableLE K]

/-- **C58a.** LSQR ends, whatever the numbers and their operations do (so with NaN and infinities too), after at
most the limit of iterations (one, if the limit is zero), with one of its stopping reasons; reason 0 is given
exactly when no iteration was made, and then the solution is zero; the reason for the limit is given only when it was
reached. -/
theorem lsqr_ends (F : Fns K) (P : Products m n K) (o : Settings K) (b : Fin m → K) :
    ∃ s, (∀ fuel, max 1 o.itnlim ≤ fuel → Lsqr.solve F P o b fuel = some s) ∧ s.itn ≤ max 1 o.itnlim ∧ s.istop ≤ 5 ∧
      (s.istop = 0 ↔ s.itn = 0) ∧ (s.istop = 0 → s.x = fun _ => 0) ∧ (s.istop = 5 → o.itnlim ≤ s.itn) := by
  unfold Lsqr.solve
  simp only
  by_cases h0 : (Lsqr.start F P b).Arnorm == 0
  · refine ⟨Lsqr.start F P b, fun fuel _ => ?_, Nat.zero_le _, Nat.zero_le _, by simp [Lsqr.start], fun _ => rfl, by simp [Lsqr.start]⟩
    rw [if_pos h0]
    unfold Lsqr.finish
    rw [if_neg]
    simp [Lsqr.start]
  · obtain ⟨t, h1, h2, h3, h4, h5, h6, h7⟩ := Lsqr.loop_ends F P o (max 1 o.itnlim) (Lsqr.start F P b) (by omega)
      (by simp [Lsqr.start])
    have e : (Lsqr.start F P b).itn = 0 := rfl
    rw [e] at h2 h3
    have hi : (Lsqr.finish o t).itn = t.itn := by unfold Lsqr.finish; split <;> rfl
    have hs : 1 ≤ (Lsqr.finish o t).istop ∧ (Lsqr.finish o t).istop ≤ 5 := by
      unfold Lsqr.finish; split
      · simp
      · exact ⟨h4, h5⟩
    have hlim : (Lsqr.finish o t).istop = 5 → o.itnlim ≤ (Lsqr.finish o t).itn := by
      rw [hi]
      unfold Lsqr.finish; split
      · intro h; cases h
      · exact h7
    refine ⟨Lsqr.finish o t, fun fuel hf => ?_, by omega, hs.2, ⟨fun h => by omega, fun h => by omega⟩, fun h => by omega, hlim⟩
    rw [if_neg h0]
    have := Lsqr.loop_more F P o _ _ _ h1 (fuel - max 1 o.itnlim)
    rw [Nat.add_sub_cancel' hf] at this
    rw [this]; rfl

/-- **C58b.** The same for LSMR. -/
theorem lsmr_ends (F : Fns K) (P : Products m n K) (big : K) (o : Settings K) (b : Fin m → K) :
    ∃ s, (∀ fuel, max 1 o.itnlim ≤ fuel → Lsmr.solve F P big o b fuel = some s) ∧ s.itn ≤ max 1 o.itnlim ∧ s.istop ≤ 7 ∧
      (s.istop = 0 ↔ s.itn = 0) ∧ (s.istop = 0 → s.x = fun _ => 0) ∧ (s.istop = 7 → o.itnlim ≤ s.itn) := by
  unfold Lsmr.solve
  simp only
  by_cases h0 : (Lsmr.start F P big b).normAr == 0
  · refine ⟨Lsmr.start F P big b, fun fuel _ => ?_, Nat.zero_le _, Nat.zero_le _, by simp [Lsmr.start], fun _ => rfl, by simp [Lsmr.start]⟩
    rw [if_pos h0]
  · obtain ⟨t, h1, h2, h3, h4, h5, h6⟩ := Lsmr.loop_ends F P o (max 1 o.itnlim) (Lsmr.start F P big b) (by omega)
      (by simp [Lsmr.start])
    have e : (Lsmr.start F P big b).itn = 0 := rfl
    rw [e] at h2 h3
    refine ⟨t, fun fuel hf => ?_, by omega, h5, ⟨fun h => by omega, fun h => by omega⟩, fun h => by omega, h6⟩
    rw [if_neg h0]
    have := Lsmr.loop_more F P o _ _ _ h1 (fuel - max 1 o.itnlim)
    rw [Nat.add_sub_cancel' hf] at this
    exact this

end any

/-! ## C58: the bidiagonalization -/

/-- the vectors after `k` steps -/
noncomputable def vectorsAt (tiny : ℝ) (P : Products m n ℝ) (b : Fin m → ℝ) (k : Nat) : Vectors m n ℝ :=
  (nextVectors (real tiny) P)^[k] (firstVectors (real tiny) P b)

/-- the vectors are those both solvers have after `k` iterations -/
theorem solvers_vectors {P : Products m n ℝ} (hP : IsProduct P A) (o : Settings ℝ) (k : Nat) :
    ((Lsqr.iterate (real tiny) P o)^[k] (Lsqr.start (real tiny) P b)).vec = vectorsAt tiny P b k ∧
    ((Lsmr.iterate (real tiny) P o)^[k] (Lsmr.start (real tiny) P big b)).vec = vectorsAt tiny P b k := by
  unfold vectorsAt
  have hb' : scale (-1) (P.aprod1 (fun _ => 0) (scale (-1) b)) = b := by
    rw [hP.p1, scale_eq, scale_eq]
    have : A *ᵥ (fun _ => 0 : Fin n → ℝ) = 0 := mulVec_zero A
    rw [this]; module
  induction k with
  | zero =>
    refine ⟨rfl, ?_⟩
    simp only [Function.iterate_zero, id_eq, Lsmr.start, hb']
  | succ k ih =>
    rw [Function.iterate_succ_apply', Function.iterate_succ_apply', Function.iterate_succ_apply', ← ih.1]
    refine ⟨rfl, ?_⟩
    rw [ih.1, ← ih.2]
    rfl

theorem gk_at {P : Products m n ℝ} (hP : IsProduct P A) (k : Nat)
    (h : ∀ i ≤ k, 0 < (vectorsAt tiny P b i).alpha ∧ 0 < (vectorsAt tiny P b i).beta) :
    ∃ PU PV, GK A PU PV (vectorsAt tiny P b k).alpha (vectorsAt tiny P b k).u (vectorsAt tiny P b k).v ∧
      ∀ j < k, (vectorsAt tiny P b j).u ∈ PU ∧ (vectorsAt tiny P b j).v ∈ PV := by
  induction k with
  | zero =>
    obtain ⟨-, -, -, -, -, hg⟩ := firstVectors_gk (tiny := tiny) hP b
    obtain ⟨h1, h2⟩ := h 0 (le_refl _)
    exact ⟨⊥, ⊥, hg (mul_pos h1 h2).ne', fun j hj => absurd hj (Nat.not_lt_zero j)⟩
  | succ k ih =>
    obtain ⟨PU, PV, hg, hm⟩ := ih (fun i hi => h i (by omega))
    have hst := nextVectors_step (tiny := tiny) hP hg
    have e : vectorsAt tiny P b (k + 1) = nextVectors (real tiny) P (vectorsAt tiny P b k) :=
      Function.iterate_succ_apply' _ _ _
    obtain ⟨h1, h2⟩ := h (k + 1) (le_refl _)
    rw [e] at h1 h2
    refine ⟨_, _, by rw [e]; exact hst.next h2 h1, ?_⟩
    intro j hj
    rcases Nat.lt_succ_iff_lt_or_eq.1 hj with h3 | h3
    · exact ⟨Submodule.mem_sup_left (hm j h3).1, Submodule.mem_sup_left (hm j h3).2⟩
    · rw [h3]
      exact ⟨by simpa using self_mem_sup (S := PU) (y := (vectorsAt tiny P b k).u) 1,
        by simpa using self_mem_sup (S := PV) (y := (vectorsAt tiny P b k).v) 1⟩

/-- **C58c.** With the two products of one matrix, the vectors of every iteration satisfy the identities of the
bidiagonalization and are orthonormal, as long as no norm vanishes. -/
theorem bidiagonalization {P : Products m n ℝ} (hP : IsProduct P A) (k : Nat)
    (h : ∀ i ≤ k, 0 < (vectorsAt tiny P b i).alpha ∧ 0 < (vectorsAt tiny P b i).beta) :
    let s := vectorsAt tiny P b
    (s 0).beta • (s 0).u = b ∧ (s 0).alpha • (s 0).v = Aᵀ *ᵥ (s 0).u ∧
    (∀ i < k, (s (i + 1)).beta • (s (i + 1)).u = A *ᵥ (s i).v - (s i).alpha • (s i).u ∧
      (s (i + 1)).alpha • (s (i + 1)).v = Aᵀ *ᵥ (s (i + 1)).u - (s (i + 1)).beta • (s i).v) ∧
    (∀ i ≤ k, ∀ j ≤ k, (s i).u ⬝ᵥ (s j).u = if i = j then 1 else 0) ∧
    (∀ i ≤ k, ∀ j ≤ k, (s i).v ⬝ᵥ (s j).v = if i = j then 1 else 0) := by
  simp only
  have hgk := fun i (hi : i ≤ k) => gk_at (tiny := tiny) (b := b) hP i (fun j hj => h j (le_trans hj hi))
  have hlt : ∀ i ≤ k, ∀ j < i, (vectorsAt tiny P b i).u ⬝ᵥ (vectorsAt tiny P b j).u = 0 ∧
      (vectorsAt tiny P b i).v ⬝ᵥ (vectorsAt tiny P b j).v = 0 := by
    intro i hi j hj
    obtain ⟨PU, PV, hg, hm⟩ := hgk i hi
    exact ⟨hg.up _ (hm j hj).1, hg.vp _ (hm j hj).2⟩
  refine ⟨?_, ?_, ?_, ?_, ?_⟩
  · obtain ⟨-, -, -, hb, -, -⟩ := firstVectors_gk (tiny := tiny) hP b
    exact hb
  · obtain ⟨-, -, -, -, -, hg⟩ := firstVectors_gk (tiny := tiny) hP b
    obtain ⟨h1, h2⟩ := h 0 (Nat.zero_le _)
    obtain ⟨q, hq, e⟩ := (hg (mul_pos h1 h2).ne').Atu
    rw [(Submodule.mem_bot ℝ).1 hq, add_zero] at e
    exact e.symm
  · intro i hi
    obtain ⟨PU, PV, hg, -⟩ := hgk i hi.le
    have hst := nextVectors_step (tiny := tiny) hP hg
    have e : vectorsAt tiny P b (i + 1) = nextVectors (real tiny) P (vectorsAt tiny P b i) :=
      Function.iterate_succ_apply' _ _ _
    obtain ⟨h1, h2⟩ := h (i + 1) (by omega)
    rw [e] at h2 ⊢
    exact ⟨hst.bu, hst.av h2⟩
  · intro i hi j hj
    obtain ⟨PU, PV, hg, -⟩ := hgk i hi
    rcases lt_trichotomy i j with h3 | h3 | h3
    · rw [if_neg (by omega), dotProduct_comm]; exact (hlt j hj i h3).1
    · rw [if_pos h3, ← h3]; exact hg.uu
    · rw [if_neg (by omega)]; exact (hlt i hi j h3).1
  · intro i hi j hj
    obtain ⟨PU, PV, hg, -⟩ := hgk i hi
    rcases lt_trichotomy i j with h3 | h3 | h3
    · rw [if_neg (by omega), dotProduct_comm]; exact (hlt j hj i h3).2
    · rw [if_pos h3, ← h3]; exact hg.vv
    · rw [if_neg (by omega)]; exact (hlt i hi j h3).2

/-! ## C58: what the result means -/

/-- **Specification.** What LSQR reports about its solution is true of it. -/
structure LsqrReport (A : Matrix (Fin m) (Fin n) ℝ) (b : Fin m → ℝ) (o : Settings ℝ) (tiny : ℝ) (s : Lsqr m n ℝ) : Prop where
  /-- the norms reported are those of the residual, of the gradient and of the solution -/
  rnorm : s.rnorm = Real.sqrt (Spec.misfit A b o.damp s.x) + tiny
  Arnorm : s.Arnorm = Real.sqrt (Spec.normSq (Spec.descent A b o.damp s.x))
  xnorm : s.xnorm = Real.sqrt (Spec.normSq s.x)
  /-- the norm of the matrix is not overestimated -/
  Anorm_pos : 0 < s.Anorm
  Anorm_le : s.Anorm ≤ Real.sqrt (Spec.frobSq A + n * o.damp ^ 2)
  /-- the reasons -/
  reason1 : s.istop = 1 →
    Real.sqrt (Spec.misfit A b o.damp s.x) ≤ o.btol * Real.sqrt (Spec.normSq b) + o.atol * s.Anorm * Real.sqrt (Spec.normSq s.x)
  reason23 : s.istop = 2 ∨ s.istop = 3 → Real.sqrt (Spec.normSq (Spec.descent A b o.damp s.x)) ≤ o.atol * (s.Anorm * s.rnorm)
  reason3 : s.istop = 3 → 0 < o.damp
  reason2 : s.istop = 2 → o.damp = 0
  reason4 : s.istop = 4 → 0 < o.conlim ∧ o.conlim ≤ s.Acond
  reason5 : s.istop = 5 → o.itnlim ≤ s.itn
  /-- no other point of the space searched is better -/
  best : ∀ y ∈ Submodule.span ℝ {z | ∃ j < s.itn, z = Spec.krylov A b j},
    Spec.misfit A b o.damp s.x ≤ Spec.misfit A b o.damp y

/-- **C58d.** In exact arithmetic LSQR ends after at most as many iterations as there are unknowns, whatever the
limit; either the right hand side gives no direction of descent, and the solution 0 is exact, or what it reports
is true. -/
theorem lsqr_result {P : Products m n ℝ} (hP : IsProduct P A) (o : Settings ℝ) (hd : 0 ≤ o.damp) (ha : 0 ≤ o.atol)
    (ht : 0 < tiny) (b : Fin m → ℝ) :
    ∃ s, (∀ fuel, n ≤ fuel → Lsqr.solve (real tiny) P o b fuel = some s) ∧ s.itn ≤ n ∧ s.itn ≤ max 1 o.itnlim ∧
      ((s.istop = 0 ∧ s.x = 0 ∧ Spec.Minimises A b o.damp 0) ∨
       (1 ≤ s.istop ∧ s.istop ≤ 5 ∧ LsqrReport A b o tiny s)) := by
  obtain ⟨hs1, hs2⟩ := Lsqr.inv_start (tiny := tiny) (b := b) hP o.damp
  unfold Lsqr.solve
  simp only
  by_cases h0 : (Lsqr.start (real tiny) P b).Arnorm = 0
  · refine ⟨Lsqr.start (real tiny) P b, fun fuel _ => ?_, Nat.zero_le _, Nat.zero_le _, Or.inl ⟨rfl, rfl, minimises_of (hs1 h0)⟩⟩
    rw [if_pos (by simpa using h0)]
    unfold Lsqr.finish
    rw [if_neg]
    simp [Lsqr.start]
  · have hI := hs2 h0
    obtain ⟨t, u, h1, h2, h3, h4, h5, h6, PV', hA, hAn, hK⟩ := Lsqr.loop_spec (tiny := tiny) hP hd ha ht n _ _ _ _ _ _ _ _ _ hI
      ⟨_, Lsqr.invN_start o.damp⟩ (Lsqr.invK_start hP h0) (by omega)
    have e0 : (Lsqr.start (real tiny) P b).itn = 0 := rfl
    rw [e0] at h5 h6
    have hfin : ∀ {α : Type} (f : Lsqr m n ℝ → α), (∀ i, f { t with istop := i } = f t) → f (Lsqr.finish o t) = f t := by
      intro α f hf
      unfold Lsqr.finish
      split
      · exact hf 3
      · rfl
    have ex : (Lsqr.finish o t).x = t.x := hfin (·.x) (fun _ => rfl)
    have eitn : (Lsqr.finish o t).itn = t.itn := hfin (·.itn) (fun _ => rfl)
    have er : (Lsqr.finish o t).rnorm = t.rnorm := hfin (·.rnorm) (fun _ => rfl)
    have eAr : (Lsqr.finish o t).Arnorm = t.Arnorm := hfin (·.Arnorm) (fun _ => rfl)
    have eAn : (Lsqr.finish o t).Anorm = t.Anorm := hfin (·.Anorm) (fun _ => rfl)
    have eAc : (Lsqr.finish o t).Acond = t.Acond := hfin (·.Acond) (fun _ => rfl)
    have exn : (Lsqr.finish o t).xnorm = t.xnorm := hfin (·.xnorm) (fun _ => rfl)
    -- the reason
    have hreason : t.istop = Lsqr.stopReason o t.itn (t.rnorm / t.bnorm) (t.Arnorm / (t.Anorm * t.rnorm)) (1 / t.Acond)
        (t.rnorm / t.bnorm / (1 + t.Anorm * t.xnorm / t.bnorm)) (o.btol + o.atol * t.Anorm * t.xnorm / t.bnorm) := by
      rw [h2]; rfl
    have hrpos : 0 < t.rnorm := by
      rw [hA.nr]
      have := Real.sqrt_nonneg (Spec.misfit A b o.damp t.x)
      linarith
    have hxn0 : 0 ≤ t.xnorm := by rw [hA.nx]; exact Real.sqrt_nonneg _
    have hbp := hA.bpos
    have han := hA.an0
    have hac := hA.ac0
    have hbn : t.bnorm = Real.sqrt (Spec.normSq b) := by
      rw [normSq_dot, ← hA.bb, Real.sqrt_sq hbp.le]
    have hdiv : 0 < 1 + t.Anorm * t.xnorm / t.bnorm := by positivity
    have ht1 : ¬ (1 + t.rnorm / t.bnorm / (1 + t.Anorm * t.xnorm / t.bnorm) ≤ 1) := by
      have : 0 < t.rnorm / t.bnorm / (1 + t.Anorm * t.xnorm / t.bnorm) := by positivity
      linarith
    have ht3 : ¬ (1 + 1 / t.Acond ≤ 1) := by
      have : 0 < 1 / t.Acond := by positivity
      linarith
    have hall : t.istop ≤ 5 ∧ t.istop ≠ 3 ∧
        (t.istop = 1 → t.rnorm / t.bnorm ≤ o.btol + o.atol * t.Anorm * t.xnorm / t.bnorm) ∧
        (t.istop = 2 → t.Arnorm / (t.Anorm * t.rnorm) ≤ o.atol) ∧
        (t.istop = 4 → 1 / t.Acond ≤ Lsqr.ctol o) ∧ (t.istop = 5 → o.itnlim ≤ t.itn) := by
      rw [hreason]
      unfold Lsqr.stopReason
      by_cases c1 : t.rnorm / t.bnorm ≤ o.btol + o.atol * t.Anorm * t.xnorm / t.bnorm
      · rw [if_pos c1]; simp [c1]
      rw [if_neg c1]
      by_cases c2 : t.Arnorm / (t.Anorm * t.rnorm) ≤ o.atol
      · rw [if_pos c2]; simp [c2]
      rw [if_neg c2]
      by_cases c3 : 1 / t.Acond ≤ Lsqr.ctol o
      · rw [if_pos c3]; simpa using c3
      rw [if_neg c3, if_neg ht1]
      by_cases c4 : 1 + t.Arnorm / (t.Anorm * t.rnorm) ≤ 1
      · exact absurd (by linarith) c2
      rw [if_neg c4, if_neg ht3]
      by_cases c5 : o.itnlim ≤ t.itn
      · rw [if_pos c5]; simp [c5]
      · rw [if_neg c5]; simp
    obtain ⟨a1, a2, a3, a4, a5, a6⟩ := hall
    have hcase : (Lsqr.finish o t).istop = t.istop ∧ ¬ (0 < o.damp ∧ t.istop = 2) ∨
        (Lsqr.finish o t).istop = 3 ∧ t.istop = 2 ∧ 0 < o.damp := by
      unfold Lsqr.finish
      by_cases c : 0 < o.damp ∧ t.istop = 2
      · rw [if_pos c]; exact Or.inr ⟨rfl, c.2, c.1⟩
      · rw [if_neg c]; exact Or.inl ⟨rfl, c⟩
    have hgrad : t.istop = 2 → Real.sqrt (Spec.normSq (Spec.descent A b o.damp t.x)) ≤ o.atol * (t.Anorm * t.rnorm) := by
      intro h
      have := (div_le_iff₀ (mul_pos han hrpos)).1 (a4 h)
      rwa [hA.ng] at this
    refine ⟨Lsqr.finish o t, fun fuel hf => ?_, by rw [eitn]; exact h4, ?_, Or.inr ⟨?_, ?_, ?_⟩⟩
    · rw [if_neg (by simpa using h0)]
      have := Lsqr.loop_more (real tiny) P o _ _ _ h1 (fuel - n)
      rw [Nat.add_sub_cancel' hf] at this
      rw [this]; rfl
    · rw [eitn]
      exact h6 (max 1 o.itnlim) (by omega) (by omega)
    · rcases hcase with ⟨c, -⟩ | ⟨c, -⟩ <;> rw [c] <;> omega
    · rcases hcase with ⟨c, -⟩ | ⟨c, -⟩ <;> rw [c] <;> omega
    · refine ⟨by rw [er, ex]; exact hA.nr, by rw [eAr, ex]; exact hA.ng, by rw [exn, ex]; exact hA.nx, by rw [eAn]; exact han, ?_,
        ?_, ?_, ?_, ?_, ?_, ?_, ?_⟩
      · rw [eAn]
        refine le_trans hAn (Real.sqrt_le_sqrt ?_)
        have h7 : (t.itn : ℝ) ≤ n := by exact_mod_cast h4
        have := mul_le_mul_of_nonneg_right h7 (sq_nonneg o.damp)
        linarith
      · intro h
        have h7 : t.istop = 1 := by
          rcases hcase with ⟨c, -⟩ | ⟨c, -⟩ <;> omega
        have h8 := (div_le_iff₀ hbp).1 (a3 h7)
        have h9 : (o.btol + o.atol * t.Anorm * t.xnorm / t.bnorm) * t.bnorm = o.btol * t.bnorm + o.atol * t.Anorm * t.xnorm := by
          field_simp
        rw [h9, hA.nr, hbn, hA.nx] at h8
        rw [ex, eAn]
        linarith
      · intro h
        rw [ex, eAn, er]
        apply hgrad
        rcases hcase with ⟨c, -⟩ | ⟨c, c', -⟩ <;> omega
      · intro h
        rcases hcase with ⟨c, -⟩ | ⟨c, c', c''⟩
        · omega
        · exact c''
      · intro h
        rcases hcase with ⟨c, c'⟩ | ⟨c, c', c''⟩
        · by_contra hne
          exact c' ⟨lt_of_le_of_ne hd (Ne.symm hne), by omega⟩
        · omega
      · intro h
        have h7 : t.istop = 4 := by
          rcases hcase with ⟨c, -⟩ | ⟨c, -⟩ <;> omega
        have h8 := a5 h7
        rw [eAc]
        unfold Lsqr.ctol at h8
        by_cases c : 0 < o.conlim
        · rw [if_pos c] at h8
          exact ⟨c, (one_div_le_one_div hac c).1 h8⟩
        · rw [if_neg c] at h8
          have : 0 < 1 / t.Acond := by positivity
          linarith
      · intro h
        rw [eitn]
        apply a6
        rcases hcase with ⟨c, -⟩ | ⟨c, -⟩ <;> omega
      · intro y hy
        rw [eitn] at hy
        rw [ex]
        have hyP : y ∈ PV' := by
          refine (Submodule.span_le.2 ?_) hy
          rintro z ⟨j, hj, rfl⟩
          exact hK j hj
        have h7 := misfit_add (A := A) (b := b) o.damp t.x (y - t.x)
        rw [hA.gM _ (Submodule.sub_mem _ hyP hA.xM), add_sub_cancel] at h7
        have := quad_nonneg (A := A) o.damp (y - t.x)
        linarith

/-- **C58e.** A solution without gradient is exact; and a damped solution is as near to the exact one as its
gradient is small. -/
theorem gradient_bounds_error (d : ℝ) (x : Fin n → ℝ) :
    (Spec.descent A b d x = 0 ↔ Spec.Minimises A b d x) ∧
    (0 < d → ∀ y, Spec.misfit A b d x ≤ Spec.misfit A b d y + Spec.normSq (Spec.descent A b d x) / d ^ 2) ∧
    (0 < d → ∀ y, Spec.Minimises A b d y → d ^ 4 * Spec.normSq (x - y) ≤ Spec.normSq (Spec.descent A b d x)) := by
  have hlow : ∀ y, Spec.misfit A b d x - Spec.misfit A b d y ≤
      2 * (Spec.descent A b d x ⬝ᵥ (y - x)) - (A *ᵥ (y - x) ⬝ᵥ A *ᵥ (y - x) + d ^ 2 * ((y - x) ⬝ᵥ (y - x))) := by
    intro y
    have := misfit_add (A := A) (b := b) d x (y - x)
    rw [add_sub_cancel] at this
    linarith
  have hmin : ∀ z, Spec.Minimises A b d z → Spec.descent A b d z = 0 := by
    intro z hz
    by_contra hne
    have hg : 0 < Spec.descent A b d z ⬝ᵥ Spec.descent A b d z := by
      rcases (dot_nonneg (Spec.descent A b d z)).lt_or_eq with h | h
      · exact h
      · exact absurd (dot_self_zero h.symm) hne
    generalize hgz : Spec.descent A b d z = g at *
    have hQ := quad_nonneg (A := A) d g
    generalize hq : A *ᵥ g ⬝ᵥ A *ᵥ g + d ^ 2 * (g ⬝ᵥ g) = Q at *
    have h1 := misfit_add (A := A) (b := b) d z ((g ⬝ᵥ g / (Q + 1)) • g)
    have h2 := hz (z + (g ⬝ᵥ g / (Q + 1)) • g)
    rw [h1, hgz] at h2
    simp only [mulVec_smul, smul_dotProduct, dotProduct_smul, smul_eq_mul] at h2
    have h3 : g ⬝ᵥ g / (Q + 1) * (g ⬝ᵥ g / (Q + 1) * (A *ᵥ g ⬝ᵥ A *ᵥ g)) + d ^ 2 * (g ⬝ᵥ g / (Q + 1) * (g ⬝ᵥ g / (Q + 1) * (g ⬝ᵥ g))) =
        (g ⬝ᵥ g / (Q + 1)) ^ 2 * Q := by rw [← hq]; ring
    rw [h3] at h2
    generalize g ⬝ᵥ g = N at *
    have h4 : 2 * (N / (Q + 1) * N) ≤ (N / (Q + 1)) ^ 2 * Q := by linarith
    have hQ1 : 0 < Q + 1 := by linarith
    have h5 : (N / (Q + 1)) ^ 2 * Q ≤ N / (Q + 1) * N := by
      have h6 : N / (Q + 1) * Q ≤ N := by
        rw [div_mul_eq_mul_div, div_le_iff₀ hQ1]; nlinarith
      have h7 : 0 ≤ N / (Q + 1) := by positivity
      calc (N / (Q + 1)) ^ 2 * Q = N / (Q + 1) * (N / (Q + 1) * Q) := by ring
        _ ≤ N / (Q + 1) * N := mul_le_mul_of_nonneg_left h6 h7
    have h8 : 0 < N / (Q + 1) * N := by positivity
    linarith
  refine ⟨⟨minimises_of, hmin x⟩, ?_, ?_⟩
  · intro hd y
    have h1 := hlow y
    rw [normSq_dot]
    have h2 := dot_nonneg (A *ᵥ (y - x))
    have h3 := dot_nonneg (Spec.descent A b d x - d ^ 2 • (y - x))
    simp only [sub_dotProduct, dotProduct_sub, smul_dotProduct, dotProduct_smul, smul_eq_mul] at h1 h2 h3
    generalize hg : Spec.descent A b d x = g at *
    have hd2 : 0 < d ^ 2 := by positivity
    have h4 : d ^ 2 * (Spec.misfit A b d x - Spec.misfit A b d y) ≤ g ⬝ᵥ g := by
      have := mul_le_mul_of_nonneg_left h1 hd2.le
      rw [dotProduct_comm y g, dotProduct_comm x g] at h3
      nlinarith
    have h5 : Spec.misfit A b d x - Spec.misfit A b d y ≤ g ⬝ᵥ g / d ^ 2 := by
      rw [le_div_iff₀ hd2]; linarith
    linarith
  · intro hd y hy
    have hy0 := hmin y hy
    -- difference of the gradients
    have e : Spec.descent A b d x = -(Aᵀ *ᵥ (A *ᵥ (x - y)) + d ^ 2 • (x - y)) := by
      have h1 : Spec.descent A b d x = Spec.descent A b d y - (Aᵀ *ᵥ (A *ᵥ (x - y)) + d ^ 2 • (x - y)) := by
        unfold Spec.descent
        simp only [mulVec_sub]
        module
      rw [h1, hy0]; module
    rw [normSq_dot, normSq_dot, e]
    generalize x - y = z
    have h1 : 0 ≤ (Aᵀ *ᵥ (A *ᵥ z)) ⬝ᵥ z := by
      rw [dotProduct_comm, ← adj]; exact dot_nonneg _
    have h2 := dot_nonneg (Aᵀ *ᵥ (A *ᵥ z))
    simp only [neg_dotProduct, dotProduct_neg, add_dotProduct, dotProduct_add, smul_dotProduct, dotProduct_smul, smul_eq_mul]
    rw [dotProduct_comm z (Aᵀ *ᵥ (A *ᵥ z))]
    have h3 : 0 ≤ d ^ 2 * ((Aᵀ *ᵥ (A *ᵥ z)) ⬝ᵥ z) := by positivity
    nlinarith

/-- **Specification.** What LSMR reports about its solution is true of it. -/
structure LsmrReport (A : Matrix (Fin m) (Fin n) ℝ) (b : Fin m → ℝ) (o : Settings ℝ) (s : Lsmr m n ℝ) : Prop where
  /-- the norms reported are those of the residual, of the gradient and of the solution -/
  normr : s.normr = Real.sqrt (Spec.misfit A b o.damp s.x)
  normAr : s.normAr = Real.sqrt (Spec.normSq (Spec.descent A b o.damp s.x))
  normx : s.normx = Real.sqrt (Spec.normSq s.x)
  /-- the norm of the matrix is not overestimated -/
  normA_pos : 0 < s.normA
  normA_le : s.normA ≤ Real.sqrt (Spec.frobSq A)
  /-- the gradient is not larger than at the origin -/
  decrease : Spec.normSq (Spec.descent A b o.damp s.x) ≤ Spec.normSq (Spec.descent A b o.damp 0)
  /-- the reasons -/
  reason1 : s.istop = 1 →
    Real.sqrt (Spec.misfit A b o.damp s.x) ≤ o.btol * Real.sqrt (Spec.normSq b) + o.atol * s.normA * Real.sqrt (Spec.normSq s.x)
  reason2 : s.istop = 2 →
    Real.sqrt (Spec.normSq (Spec.descent A b o.damp s.x)) ≤ o.atol * (s.normA * Real.sqrt (Spec.misfit A b o.damp s.x))
  reason3 : s.istop = 3 → 0 < o.conlim ∧ o.conlim ≤ s.condA
  reason7 : s.istop = 7 → o.itnlim ≤ s.itn
  /-- the other reasons need rounding -/
  reasons : s.istop = 1 ∨ s.istop = 2 ∨ s.istop = 3 ∨ s.istop = 7

/-- **C58f.** The same for LSMR. -/
theorem lsmr_result {P : Products m n ℝ} (hP : IsProduct P A) (o : Settings ℝ) (ha : 0 ≤ o.atol) (hb : 0 ≤ o.btol)
    (hbig : 0 < big) (b : Fin m → ℝ) :
    ∃ s, (∀ fuel, n ≤ fuel → Lsmr.solve (real tiny) P big o b fuel = some s) ∧ s.itn ≤ n ∧ s.itn ≤ max 1 o.itnlim ∧
      ((s.istop = 0 ∧ s.x = 0 ∧ Spec.Minimises A b o.damp 0) ∨ LsmrReport A b o s) := by
  obtain ⟨hs1, hs2⟩ := Lsmr.inv_start (tiny := tiny) (b := b) hP o.damp hbig
  by_cases h0 : (Lsmr.start (real tiny) P big b).normAr = 0
  · refine ⟨Lsmr.start (real tiny) P big b, fun fuel _ => ?_, Nat.zero_le _, Nat.zero_le _, Or.inl ⟨rfl, rfl, minimises_of (hs1 h0)⟩⟩
    unfold Lsmr.solve
    simp only
    rw [if_pos (by simpa using h0)]
  · have hI := hs2 h0
    obtain ⟨t, u, h1, h2, h3, h4, h5, hA, hdec, hAn, hAn'⟩ := Lsmr.loop_spec (tiny := tiny) hP ha n _ _ _ _ _ _ _ _ _ _ _ hI
      ⟨_, Lsmr.invN_start⟩ (by omega)
    have hsolve : ∀ fuel, n ≤ fuel → Lsmr.solve (real tiny) P big o b fuel = some t := by
      intro fuel hf
      unfold Lsmr.solve
      simp only
      rw [if_neg (by simpa using h0)]
      have := Lsmr.loop_more (real tiny) P o _ _ _ h1 (fuel - n)
      rwa [Nat.add_sub_cancel' hf] at this
    have hlim : t.itn ≤ max 1 o.itnlim := by
      obtain ⟨t', e1, -, e3, -⟩ := Lsmr.loop_ends (real tiny) P o (max 1 o.itnlim) (Lsmr.start (real tiny) P big b)
        (by omega) (by omega)
      have k1 := Lsmr.loop_more (real tiny) P o _ _ _ e1 n
      have k2 := Lsmr.loop_more (real tiny) P o _ _ _ h1 (max 1 o.itnlim)
      rw [Nat.add_comm, k1] at k2
      have k3 : t' = t := Option.some.inj k2
      rw [k3] at e3
      have e0 : (Lsmr.start (real tiny) P big b).itn = 0 := rfl
      omega
    have hreason : t.istop = Lsmr.stopReason o t.itn (t.normr / t.normb) (t.normAr / (t.normA * t.normr)) (1 / t.condA)
        (t.normr / t.normb / (1 + t.normA * t.normx / t.normb)) (o.btol + o.atol * t.normA * t.normx / t.normb) := by
      rw [h2]; rfl
    have hr0 : 0 ≤ t.normr := by rw [hA.nr]; exact Real.sqrt_nonneg _
    have hxn0 : 0 ≤ t.normx := by rw [hA.nx]; exact Real.sqrt_nonneg _
    have hbp := hA.bpos
    have hac := hA.ac0
    have hbn : t.normb = Real.sqrt (Spec.normSq b) := by
      rw [normSq_dot, ← hA.bb, Real.sqrt_sq hbp.le]
    have hdiv : 0 < 1 + t.normA * t.normx / t.normb := by positivity
    have ht3 : ¬ (1 + 1 / t.condA ≤ 1) := by
      have : 0 < 1 / t.condA := by positivity
      linarith
    have hrt : 0 ≤ o.btol + o.atol * t.normA * t.normx / t.normb := by positivity
    have hall : (t.istop = 1 ∨ t.istop = 2 ∨ t.istop = 3 ∨ t.istop = 7) ∧
        (t.istop = 1 → t.normr / t.normb ≤ o.btol + o.atol * t.normA * t.normx / t.normb) ∧
        (t.istop = 2 → 0 < t.normr ∧ t.normAr / (t.normA * t.normr) ≤ o.atol) ∧
        (t.istop = 3 → 1 / t.condA ≤ Lsmr.ctol o) ∧ (t.istop = 7 → o.itnlim ≤ t.itn) := by
      generalize t.istop = r at *
      unfold Lsmr.stopReason at hreason
      by_cases c1 : t.normr / t.normb ≤ o.btol + o.atol * t.normA * t.normx / t.normb
      · rw [if_pos c1] at hreason; subst hreason; simp [c1]
      rw [if_neg c1] at hreason
      have hrp : 0 < t.normr := by
        rcases hr0.lt_or_eq with h | h
        · exact h
        · exact absurd (by rw [← h, zero_div]; exact hrt) c1
      by_cases c2 : t.normAr / (t.normA * t.normr) ≤ o.atol
      · rw [if_pos c2] at hreason; subst hreason; simp [c2, hrp]
      rw [if_neg c2] at hreason
      by_cases c3 : 1 / t.condA ≤ Lsmr.ctol o
      · rw [if_pos c3] at hreason; subst hreason; simpa using c3
      have ht1 : ¬ (1 + t.normr / t.normb / (1 + t.normA * t.normx / t.normb) ≤ 1) := by
        have : 0 < t.normr / t.normb / (1 + t.normA * t.normx / t.normb) := by positivity
        linarith
      rw [if_neg c3, if_neg ht1] at hreason
      by_cases c4 : 1 + t.normAr / (t.normA * t.normr) ≤ 1
      · exact absurd (by linarith) c2
      rw [if_neg c4, if_neg ht3] at hreason
      by_cases c5 : o.itnlim ≤ t.itn
      · rw [if_pos c5] at hreason; subst hreason; simp [c5]
      · rw [if_neg c5] at hreason; exact absurd hreason h3
    obtain ⟨a1, a3, a4, a5, a6⟩ := hall
    refine ⟨t, hsolve, h4, hlim, Or.inr ⟨hA.nr, hA.ng, hA.nx, hAn, hAn', ?_, ?_, ?_, ?_, a6, a1⟩⟩
    · have hs : (Lsmr.start (real tiny) P big b).normAr = Real.sqrt (Spec.normSq (Spec.descent A b o.damp 0)) := by
        have e1 : Spec.descent A b o.damp 0 = Aᵀ *ᵥ b := by
          unfold Spec.descent; simp
        obtain ⟨ha0, hb0, -, hbu, -, hg⟩ := firstVectors_gk (tiny := tiny) hP b
        have hb' : scale (-1) (P.aprod1 (fun _ => 0) (scale (-1) b)) = b := by
          rw [hP.p1, scale_eq, scale_eq]
          have : A *ᵥ (fun _ => 0 : Fin n → ℝ) = 0 := mulVec_zero A
          rw [this]; module
        have en : (Lsmr.start (real tiny) P big b).normAr = (firstVectors (real tiny) P b).alpha * (firstVectors (real tiny) P b).beta := by
          unfold Lsmr.start; rw [hb']
        rw [en] at h0 ⊢
        have hg' := hg h0
        obtain ⟨q, hq, e⟩ := hg'.Atu
        rw [(Submodule.mem_bot ℝ).1 hq, add_zero] at e
        have e2 : Aᵀ *ᵥ b = ((firstVectors (real tiny) P b).alpha * (firstVectors (real tiny) P b).beta) • (firstVectors (real tiny) P b).v := by
          conv_lhs => rw [← hbu, mulVec_smul, e, smul_smul, mul_comm]
        rw [e1, e2, normSq_dot, smul_dotProduct, dotProduct_smul, hg'.vv]
        simp only [smul_eq_mul, mul_one]
        rw [Real.sqrt_mul_self (mul_nonneg ha0 hb0)]
      rw [hs, hA.ng] at hdec
      have hnn : 0 ≤ Spec.normSq (Spec.descent A b o.damp 0) := by rw [normSq_dot]; exact dot_nonneg _
      exact (Real.sqrt_le_sqrt_iff hnn).1 hdec
    · intro h
      have h8 := (div_le_iff₀ hbp).1 (a3 h)
      have h9 : (o.btol + o.atol * t.normA * t.normx / t.normb) * t.normb = o.btol * t.normb + o.atol * t.normA * t.normx := by
        field_simp
      rw [h9, hA.nr, hbn, hA.nx] at h8
      exact h8
    · intro h
      obtain ⟨hp, h7⟩ := a4 h
      have := (div_le_iff₀ (mul_pos hAn hp)).1 h7
      rwa [hA.ng, hA.nr] at this
    · intro h
      have h8 := a5 h
      unfold Lsmr.ctol at h8
      by_cases c : 0 < o.conlim
      · rw [if_pos c] at h8
        exact ⟨c, (one_div_le_one_div hac c).1 h8⟩
      · rw [if_neg c] at h8
        have : 0 < 1 / t.condA := by positivity
        linarith

/-! ## The hypotheses can be met -/

namespace Example

/-- the two products of a matrix -/
def products (A : Matrix (Fin m) (Fin n) ℝ) : Products m n ℝ :=
  ⟨fun x y => y + A *ᵥ x, fun x y => x + Aᵀ *ᵥ y⟩

theorem products_is (A : Matrix (Fin m) (Fin n) ℝ) : IsProduct (products A) A :=
  ⟨fun _ _ => rfl, fun _ _ => rfl⟩

def mat : Matrix (Fin 2) (Fin 2) ℝ := !![5, 0; 0, 2]
def rhs : Fin 2 → ℝ := ![3, 4]

noncomputable def settings : Settings ℝ := { damp := 1, atol := 1/1000, btol := 1/1000, conlim := 1000, itnlim := 10 }

/-- two steps of the bidiagonalization without a vanishing norm -/
theorem positive : ∀ i ≤ 1, 0 < (vectorsAt 1 (products mat) rhs i).alpha ∧ 0 < (vectorsAt 1 (products mat) rhs i).beta := by
  have hP := products_is mat
  obtain ⟨ha0, hb0, hbb, hbu, hz, hg⟩ := firstVectors_gk (tiny := 1) hP rhs
  have hb5 : (firstVectors (real 1) (products mat) rhs).beta = 5 := by
    have h1 : rhs ⬝ᵥ rhs = 25 := by
      simp [rhs, dotProduct, Fin.sum_univ_two]; norm_num
    rw [h1] at hbb
    nlinarith
  have hne : (firstVectors (real 1) (products mat) rhs).alpha * (firstVectors (real 1) (products mat) rhs).beta ≠ 0 := by
    intro h
    have h2 := hz h
    have h3 := congrFun h2 0
    simp [mat, rhs, mulVec, dotProduct, Fin.sum_univ_two] at h3
  have hG := hg hne
  have hapos : 0 < (firstVectors (real 1) (products mat) rhs).alpha :=
    lt_of_le_of_ne ha0 (fun h => hne (by rw [← h, zero_mul]))
  have hst := nextVectors_step (tiny := 1) hP hG
  have e1 : vectorsAt 1 (products mat) rhs 1 = nextVectors (real 1) (products mat) (firstVectors (real 1) (products mat) rhs) := rfl
  have e0 : vectorsAt 1 (products mat) rhs 0 = firstVectors (real 1) (products mat) rhs := rfl
  have hbu0 := congrFun hbu 0
  have hbu1 := congrFun hbu 1
  obtain ⟨q, hq, hat⟩ := hG.Atu
  rw [(Submodule.mem_bot ℝ).1 hq, add_zero] at hat
  have hat0 := congrFun hat 0
  have hat1 := congrFun hat 1
  have hvv := hG.vv
  have hs1 := hst.beta0
  have hs2 := hst.bu
  have hs3 := hst.alpha0
  have hs4 := hst.av
  have hs5 := hst.unitu
  generalize nextVectors (real 1) (products mat) (firstVectors (real 1) (products mat) rhs) = t at *
  generalize firstVectors (real 1) (products mat) rhs = s at *
  simp only [rhs, mat, mulVec, dotProduct, Fin.sum_univ_two, Pi.smul_apply, smul_eq_mul, hb5, Matrix.cons_val_zero,
    Matrix.cons_val_one, transpose_apply, of_apply, cons_val', cons_val_fin_one] at hbu0 hbu1 hat0 hat1 hvv
  have u0 : s.u 0 = 3/5 := by linarith
  have u1 : s.u 1 = 4/5 := by linarith
  rw [u0, u1] at hat0 hat1
  have hal : s.alpha = 17/5 := by
    have h1 : s.alpha ^ 2 * (s.v 0 * s.v 0 + s.v 1 * s.v 1) = (s.alpha * s.v 0) ^ 2 + (s.alpha * s.v 1) ^ 2 := by ring
    rw [hvv, ← hat0, ← hat1] at h1
    nlinarith
  rw [hal] at hat0 hat1
  have v0 : s.v 0 = 15/17 := by linarith
  have v1 : s.v 1 = 8/17 := by linarith
  have w0 := congrFun hs2 0
  have w1 := congrFun hs2 1
  simp only [mat, mulVec, dotProduct, Fin.sum_univ_two, Pi.smul_apply, Pi.sub_apply, smul_eq_mul, Matrix.cons_val_zero,
    Matrix.cons_val_one, of_apply, cons_val', cons_val_fin_one, u0, u1, v0, v1, hal] at w0 w1
  have hbpos : 0 < t.beta := by
    refine lt_of_le_of_ne hs1 (fun h => ?_)
    rw [← h] at w0; norm_num at w0
  have huu := hs5 hbpos
  simp only [dotProduct, Fin.sum_univ_two] at huu
  have hbt : t.beta = 252/85 := by
    have h1 : t.beta ^ 2 * (t.u 0 * t.u 0 + t.u 1 * t.u 1) = (t.beta * t.u 0) ^ 2 + (t.beta * t.u 1) ^ 2 := by ring
    rw [huu, w0, w1] at h1
    nlinarith
  rw [hbt] at w0 w1
  have a0 := congrFun (hs4 hbpos) 0
  simp only [mat, mulVec, dotProduct, Fin.sum_univ_two, Pi.smul_apply, Pi.sub_apply, smul_eq_mul, Matrix.cons_val_zero,
    Matrix.cons_val_one, transpose_apply, of_apply, cons_val', cons_val_fin_one, v0, hbt] at a0
  have hatp : 0 < t.alpha := by
    refine lt_of_le_of_ne hs3 (fun h => ?_)
    rw [← h] at a0
    linarith
  intro i hi
  rcases Nat.le_one_iff_eq_zero_or_eq_one.1 hi with rfl | rfl
  · rw [e0, hb5]; exact ⟨hapos, by norm_num⟩
  · rw [e1]; exact ⟨hatp, hbpos⟩

example : (vectorsAt 1 (products mat) rhs 0).u ⬝ᵥ (vectorsAt 1 (products mat) rhs 1).u = 0 :=
  (bidiagonalization (products_is mat) 1 positive).2.2.2.1 0 (by omega) 1 (le_refl _)

/-- the solver makes iterations here -/
example : ∃ s, (∀ fuel, 2 ≤ fuel → Lsqr.solve (real 1) (products mat) settings rhs fuel = some s) ∧ 1 ≤ s.istop ∧
    LsqrReport mat rhs settings 1 s := by
  obtain ⟨s, h1, h2, h3, h4⟩ := lsqr_result (tiny := 1) (products_is mat) settings (by norm_num [settings])
    (by norm_num [settings]) one_pos rhs
  refine ⟨s, h1, ?_⟩
  rcases h4 with ⟨-, -, h5⟩ | ⟨h5, -, h6⟩
  · exfalso
    have h6 := ((gradient_bounds_error (A := mat) (b := rhs) settings.damp 0).1.2 h5)
    have h7 := congrFun h6 0
    simp [Spec.descent, mat, rhs, mulVec, dotProduct, Fin.sum_univ_two] at h7
  · exact ⟨h5, h6⟩

example : ∃ s, (∀ fuel, 2 ≤ fuel → Lsmr.solve (real 1) (products mat) 1 settings rhs fuel = some s) ∧
    LsmrReport mat rhs settings s := by
  obtain ⟨s, h1, h2, h3, h4⟩ := lsmr_result (tiny := 1) (products_is mat) settings (by norm_num [settings])
    (by norm_num [settings]) one_pos rhs
  refine ⟨s, h1, ?_⟩
  rcases h4 with ⟨-, -, h5⟩ | h6
  · exfalso
    have h6 := ((gradient_bounds_error (A := mat) (b := rhs) settings.damp 0).1.2 h5)
    have h7 := congrFun h6 0
    simp [Spec.descent, mat, rhs, mulVec, dotProduct, Fin.sum_univ_two] at h7
  · exact h6

end Example

end Verif.LeastSquares
