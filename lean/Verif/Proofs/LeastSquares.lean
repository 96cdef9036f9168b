import Verif.Model.LeastSquares
import Mathlib.Analysis.Real.Sqrt
import Mathlib.LinearAlgebra.Matrix.DotProduct
import Mathlib.LinearAlgebra.Span.Basic
import Mathlib.Algebra.BigOperators.Fin
import Mathlib.Tactic.Module
import Mathlib.Tactic.LinearCombination
import Mathlib.Tactic.FieldSimp
import Mathlib.Tactic.Positivity

/-! Lemmas about the norms and the bidiagonalization, over real numbers. -/

set_option linter.unusedSectionVars false
set_option linter.unusedSimpArgs false

namespace Verif.LeastSquares
open Matrix

/-- real square root and absolute value -/
noncomputable def real (tiny : ℝ) : Fns ℝ := ⟨Real.sqrt, fun x => |x|, tiny⟩

variable {m n : Nat} {tiny : ℝ}

theorem d2norm_eq (a b : ℝ) : d2norm (real tiny) a b = Real.sqrt (a ^ 2 + b ^ 2) := by
  unfold d2norm real
  simp only [beq_iff_eq]
  split
  · rename_i h
    have ha : |a| = 0 := by have := abs_nonneg a; have := abs_nonneg b; linarith
    have hb : |b| = 0 := by have := abs_nonneg a; have := abs_nonneg b; linarith
    rw [abs_eq_zero.1 ha, abs_eq_zero.1 hb]; simp
  · rename_i h
    have hs : 0 ≤ |a| + |b| := by positivity
    generalize |a| + |b| = s at h hs
    have e : a ^ 2 + b ^ 2 = s ^ 2 * (a / s * (a / s) + b / s * (b / s)) := by field_simp
    rw [e, Real.sqrt_mul (sq_nonneg _), Real.sqrt_sq hs]

theorem nrm_fold (l : List ℝ) (s : ℝ × ℝ) (h1 : 0 ≤ s.1) (h2 : 0 ≤ s.2) :
    0 ≤ (l.foldl (nrmStep (real tiny)) s).1 ∧ 0 ≤ (l.foldl (nrmStep (real tiny)) s).2 ∧
    (l.foldl (nrmStep (real tiny)) s).1 ^ 2 * (l.foldl (nrmStep (real tiny)) s).2 =
      s.1 ^ 2 * s.2 + (l.map (fun x => x ^ 2)).sum := by
  induction l generalizing s with
  | nil => simp [h1, h2]
  | cons x l ih =>
    rw [List.foldl_cons, List.map_cons, List.sum_cons]
    have key : 0 ≤ (nrmStep (real tiny) s x).1 ∧ 0 ≤ (nrmStep (real tiny) s x).2 ∧
        (nrmStep (real tiny) s x).1 ^ 2 * (nrmStep (real tiny) s x).2 = s.1 ^ 2 * s.2 + x ^ 2 := by
      unfold nrmStep real
      simp only [beq_iff_eq]
      split
      · rename_i h; subst h; simp [h1, h2]
      · rename_i h
        have hx : 0 < |x| := abs_pos.2 h
        split
        · refine ⟨hx.le, by positivity, ?_⟩
          rw [← sq_abs x]
          field_simp
        · rename_i hlt
          have hs : 0 < s.1 := lt_of_lt_of_le hx (not_lt.1 hlt)
          refine ⟨h1, by positivity, ?_⟩
          rw [← sq_abs x]
          field_simp
    obtain ⟨k1, k2, k3⟩ := key
    obtain ⟨i1, i2, i3⟩ := ih _ k1 k2
    refine ⟨i1, i2, ?_⟩
    rw [i3, k3]; ring

theorem dnrm2_eq (x : Fin n → ℝ) : dnrm2 (real tiny) x = Real.sqrt (x ⬝ᵥ x) := by
  unfold dnrm2
  obtain ⟨h1, h2, h3⟩ := nrm_fold (tiny := tiny) (List.ofFn x) (0, 1) (le_refl _) zero_le_one
  simp only
  have : x ⬝ᵥ x = ((List.ofFn x).map (fun x => x ^ 2)).sum := by
    rw [List.map_ofFn, List.sum_ofFn]
    unfold dotProduct
    refine Finset.sum_congr rfl ?_
    intro i _
    simp [sq]
  rw [this]
  have h4 : ((List.ofFn x).map (fun x => x ^ 2)).sum = ((List.ofFn x).foldl (nrmStep (real tiny)) (0, 1)).1 ^ 2 *
      ((List.ofFn x).foldl (nrmStep (real tiny)) (0, 1)).2 := by rw [h3]; simp
  rw [h4, Real.sqrt_mul (sq_nonneg _), Real.sqrt_sq h1]
  rfl

/-- the products are those of the matrix -/
structure IsProduct (P : Products m n ℝ) (A : Matrix (Fin m) (Fin n) ℝ) : Prop where
  p1 : ∀ x y, P.aprod1 x y = y + A *ᵥ x
  p2 : ∀ x y, P.aprod2 x y = x + Aᵀ *ᵥ y

theorem scale_eq (f : ℝ) (x : Fin n → ℝ) : scale f x = f • x := by
  funext i; simp [scale, mul_comm]

theorem dnrm2_nonneg (x : Fin n → ℝ) : 0 ≤ dnrm2 (real tiny) x := by
  rw [dnrm2_eq]; exact Real.sqrt_nonneg _

theorem dot_nonneg (x : Fin n → ℝ) : 0 ≤ x ⬝ᵥ x :=
  Finset.sum_nonneg (fun i _ => mul_self_nonneg (x i))

theorem dnrm2_sq (x : Fin n → ℝ) : dnrm2 (real tiny) x ^ 2 = x ⬝ᵥ x := by
  rw [dnrm2_eq, Real.sq_sqrt (dot_nonneg x)]

theorem dot_self_zero {x : Fin n → ℝ} (h : x ⬝ᵥ x = 0) : x = 0 := dotProduct_self_eq_zero.1 h

/-- dividing by the norm gives a unit vector -/
theorem unit_of {x : Fin n → ℝ} (h : 0 < dnrm2 (real tiny) x) :
    (scale (1 / dnrm2 (real tiny) x) x) ⬝ᵥ (scale (1 / dnrm2 (real tiny) x) x) = 1 ∧
    dnrm2 (real tiny) x • scale (1 / dnrm2 (real tiny) x) x = x := by
  have hsq := dnrm2_sq (tiny := tiny) x
  generalize dnrm2 (real tiny) x = r at h hsq ⊢
  refine ⟨?_, ?_⟩
  · rw [scale_eq, smul_dotProduct, dotProduct_smul, ← hsq, smul_eq_mul, smul_eq_mul]
    field_simp
  · rw [scale_eq, smul_smul]
    rw [mul_one_div_cancel h.ne', one_smul]

theorem zero_of {x : Fin n → ℝ} (h : ¬ 0 < dnrm2 (real tiny) x) : dnrm2 (real tiny) x = 0 ∧ x = 0 := by
  have h0 : dnrm2 (real tiny) x = 0 := le_antisymm (not_lt.1 h) (dnrm2_nonneg x)
  refine ⟨h0, ?_⟩
  have := dnrm2_sq (tiny := tiny) x
  rw [h0] at this
  exact dot_self_zero (by rw [← this]; ring)

/-- moving the matrix to the other side -/
theorem adj (A : Matrix (Fin m) (Fin n) ℝ) (x : Fin n → ℝ) (y : Fin m → ℝ) : (A *ᵥ x) ⬝ᵥ y = x ⬝ᵥ (Aᵀ *ᵥ y) := by
  rw [dotProduct_comm, dotProduct_mulVec, dotProduct_comm, mulVec_transpose]

/-- what holds of the vectors before each step; `PU`, `PV` are spanned by the earlier ones -/
structure GK (A : Matrix (Fin m) (Fin n) ℝ) (PU : Submodule ℝ (Fin m → ℝ)) (PV : Submodule ℝ (Fin n → ℝ))
    (alpha : ℝ) (u : Fin m → ℝ) (v : Fin n → ℝ) : Prop where
  uu : u ⬝ᵥ u = 1
  vv : v ⬝ᵥ v = 1
  up : ∀ p ∈ PU, u ⬝ᵥ p = 0
  vp : ∀ q ∈ PV, v ⬝ᵥ q = 0
  Ap : ∀ q ∈ PV, A *ᵥ q ∈ PU ⊔ Submodule.span ℝ {u}
  Atp : ∀ p ∈ PU, Aᵀ *ᵥ p ∈ PV
  Atu : ∃ q ∈ PV, Aᵀ *ᵥ u = alpha • v + q
  pos : 0 < alpha

variable {A : Matrix (Fin m) (Fin n) ℝ} {PU : Submodule ℝ (Fin m → ℝ)} {PV : Submodule ℝ (Fin n → ℝ)}

/-- one step of the bidiagonalization -/
structure Step (A : Matrix (Fin m) (Fin n) ℝ) (PU : Submodule ℝ (Fin m → ℝ)) (PV : Submodule ℝ (Fin n → ℝ))
    (s t : Vectors m n ℝ) : Prop where
  beta0 : 0 ≤ t.beta
  bu : t.beta • t.u = A *ᵥ s.v - s.alpha • s.u
  uperp : ∀ p ∈ PU ⊔ Submodule.span ℝ {s.u}, t.u ⬝ᵥ p = 0
  /-- the step went through -/
  alpha0 : 0 ≤ t.alpha
  av : 0 < t.beta → t.alpha • t.v = Aᵀ *ᵥ t.u - t.beta • s.v
  unitv : 0 < t.alpha → t.v ⬝ᵥ t.v = 1
  unitu : 0 < t.beta → t.u ⬝ᵥ t.u = 1
  vperp : 0 < t.beta → ∀ q ∈ PV ⊔ Submodule.span ℝ {s.v}, t.v ⬝ᵥ q = 0
  next : 0 < t.beta → 0 < t.alpha →
    GK A (PU ⊔ Submodule.span ℝ {s.u}) (PV ⊔ Submodule.span ℝ {s.v}) t.alpha t.u t.v

theorem smul_dot_zero {r : ℝ} (hr : r ≠ 0) {x y : Fin n → ℝ} (h : (r • x) ⬝ᵥ y = 0) : x ⬝ᵥ y = 0 := by
  rw [smul_dotProduct, smul_eq_mul] at h
  exact (mul_eq_zero.1 h).resolve_left hr

theorem perp_sup {S : Submodule ℝ (Fin n → ℝ)} {x y : Fin n → ℝ} (h1 : ∀ p ∈ S, x ⬝ᵥ p = 0) (h2 : x ⬝ᵥ y = 0) :
    ∀ p ∈ S ⊔ Submodule.span ℝ {y}, x ⬝ᵥ p = 0 := by
  intro p hp
  obtain ⟨a, ha, b, hb, rfl⟩ := Submodule.mem_sup.1 hp
  obtain ⟨c, rfl⟩ := Submodule.mem_span_singleton.1 hb
  rw [dotProduct_add, h1 a ha, dotProduct_smul, h2]; simp

theorem mem_sup_span {S : Submodule ℝ (Fin n → ℝ)} {y a : Fin n → ℝ} (ha : a ∈ S) (c : ℝ) :
    a + c • y ∈ S ⊔ Submodule.span ℝ {y} :=
  Submodule.add_mem_sup ha (Submodule.mem_span_singleton.2 ⟨c, rfl⟩)

theorem self_mem_sup {S : Submodule ℝ (Fin n → ℝ)} {y : Fin n → ℝ} (c : ℝ) : c • y ∈ S ⊔ Submodule.span ℝ {y} := by
  simpa using mem_sup_span (S := S) (y := y) (Submodule.zero_mem S) c

theorem nextVectors_step {P : Products m n ℝ} (hP : IsProduct P A) {s : Vectors m n ℝ}
    (h : GK A PU PV s.alpha s.u s.v) : Step A PU PV s (nextVectors (real tiny) P s) := by
  have hu0 : P.aprod1 s.v (scale (-s.alpha) s.u) = A *ᵥ s.v - s.alpha • s.u := by
    rw [hP.p1, scale_eq]; module
  obtain ⟨q0, hq0, hAtu⟩ := h.Atu
  -- A v is orthogonal to the earlier u, up to its component
  have hperp : ∀ p ∈ PU ⊔ Submodule.span ℝ {s.u}, (A *ᵥ s.v - s.alpha • s.u) ⬝ᵥ p = 0 := by
    apply perp_sup
    · intro p hp
      rw [sub_dotProduct, adj, h.vp _ (h.Atp p hp), smul_dotProduct, h.up p hp]; simp
    · rw [sub_dotProduct, adj, hAtu, dotProduct_add, dotProduct_smul, h.vv, h.vp q0 hq0, smul_dotProduct, h.uu]; simp
  unfold nextVectors
  simp only [hu0]
  by_cases hb : 0 < dnrm2 (real tiny) (A *ᵥ s.v - s.alpha • s.u)
  · rw [if_pos hb]
    obtain ⟨hb1, hb2⟩ := unit_of hb
    generalize hbeta : dnrm2 (real tiny) (A *ᵥ s.v - s.alpha • s.u) = beta at *
    generalize hun : scale (1 / beta) (A *ᵥ s.v - s.alpha • s.u) = un at *
    have huperp : ∀ p ∈ PU ⊔ Submodule.span ℝ {s.u}, un ⬝ᵥ p = 0 := by
      intro p hp
      apply smul_dot_zero hb.ne'
      rw [hb2]; exact hperp p hp
    have hv0 : P.aprod2 (scale (-beta) s.v) un = Aᵀ *ᵥ un - beta • s.v := by
      rw [hP.p2, scale_eq]; module
    rw [hv0]
    have hAv : A *ᵥ s.v = s.alpha • s.u + beta • un := by rw [hb2]; module
    have hvperp0 : ∀ q ∈ PV ⊔ Submodule.span ℝ {s.v}, (Aᵀ *ᵥ un - beta • s.v) ⬝ᵥ q = 0 := by
      apply perp_sup
      · intro q hq
        rw [sub_dotProduct, smul_dotProduct, h.vp q hq, dotProduct_comm, ← adj, dotProduct_comm, huperp _ (h.Ap q hq)]; simp
      · rw [sub_dotProduct, smul_dotProduct, h.vv, dotProduct_comm, ← adj, hAv, add_dotProduct, smul_dotProduct,
          smul_dotProduct, hb1, dotProduct_comm s.u, huperp s.u (by simpa using self_mem_sup (S := PU) (y := s.u) 1)]
        simp
    by_cases ha : 0 < dnrm2 (real tiny) (Aᵀ *ᵥ un - beta • s.v)
    · rw [if_pos ha]
      obtain ⟨ha1, ha2⟩ := unit_of ha
      generalize halpha : dnrm2 (real tiny) (Aᵀ *ᵥ un - beta • s.v) = al at *
      generalize hvn : scale (1 / al) (Aᵀ *ᵥ un - beta • s.v) = vn at *
      have hvperp : ∀ q ∈ PV ⊔ Submodule.span ℝ {s.v}, vn ⬝ᵥ q = 0 := by
        intro q hq
        apply smul_dot_zero ha.ne'
        rw [ha2]; exact hvperp0 q hq
      refine ⟨hb.le, hb2, huperp, ha.le, fun _ => ha2, fun _ => ha1, fun _ => hb1, fun _ => hvperp, fun _ _ => ?_⟩
      refine ⟨hb1, ha1, huperp, hvperp, ?_, ?_, ⟨beta • s.v, self_mem_sup _, by simp only; rw [ha2]; module⟩, ha⟩
      · intro q hq
        obtain ⟨q1, hq1, q2, hq2, rfl⟩ := Submodule.mem_sup.1 hq
        obtain ⟨c, rfl⟩ := Submodule.mem_span_singleton.1 hq2
        rw [mulVec_add, mulVec_smul, hAv]
        have h1 : A *ᵥ q1 + (c * s.alpha) • s.u ∈ PU ⊔ Submodule.span ℝ {s.u} :=
          Submodule.add_mem _ (h.Ap q1 hq1) (self_mem_sup _)
        have h2 := mem_sup_span (y := un) h1 (c * beta)
        have h3 : A *ᵥ q1 + c • (s.alpha • s.u + beta • un) = A *ᵥ q1 + (c * s.alpha) • s.u + (c * beta) • un := by module
        rw [h3]; exact h2
      · intro p hp
        obtain ⟨p1, hp1, p2, hp2, rfl⟩ := Submodule.mem_sup.1 hp
        obtain ⟨c, rfl⟩ := Submodule.mem_span_singleton.1 hp2
        rw [mulVec_add, mulVec_smul, hAtu]
        have h3 : Aᵀ *ᵥ p1 + c • (s.alpha • s.v + q0) = (Aᵀ *ᵥ p1 + c • q0) + (c * s.alpha) • s.v := by module
        rw [h3]
        exact mem_sup_span (Submodule.add_mem _ (h.Atp p1 hp1) (Submodule.smul_mem _ _ hq0)) _
    · rw [if_neg ha]
      obtain ⟨ha1, ha2⟩ := zero_of ha
      refine ⟨hb.le, hb2, huperp, (dnrm2_nonneg _), ?_, ?_, fun _ => hb1, fun _ => hvperp0, ?_⟩
      · intro _; simp only; rw [ha1, ha2]; simp
      · intro hc; exact absurd hc ha
      · intro _ hc; exact absurd hc ha
  · rw [if_neg hb]
    obtain ⟨hb1, hb2⟩ := zero_of hb
    refine ⟨dnrm2_nonneg _, ?_, hperp, h.pos.le, fun hc => absurd hc hb, fun _ => h.vv, fun hc => absurd hc hb,
      fun hc => absurd hc hb, fun hc => absurd hc hb⟩
    simp only
    rw [hb1, hb2]; simp

/-- the first vectors -/
theorem firstVectors_gk {P : Products m n ℝ} (hP : IsProduct P A) (b : Fin m → ℝ) :
    let s := firstVectors (real tiny) P b
    0 ≤ s.alpha ∧ 0 ≤ s.beta ∧ s.beta ^ 2 = b ⬝ᵥ b ∧ s.beta • s.u = b ∧
    (s.alpha * s.beta = 0 → Aᵀ *ᵥ b = 0) ∧ (s.alpha * s.beta ≠ 0 → GK A ⊥ ⊥ s.alpha s.u s.v) := by
  unfold firstVectors
  simp only
  by_cases hb : 0 < dnrm2 (real tiny) b
  · rw [if_pos hb]
    obtain ⟨hb1, hb2⟩ := unit_of hb
    have hsq := dnrm2_sq (tiny := tiny) b
    generalize hbeta : dnrm2 (real tiny) b = beta at *
    generalize hun : scale (1 / beta) b = un at *
    have hv0 : P.aprod2 (fun _ => 0) un = Aᵀ *ᵥ un := by
      rw [hP.p2]; funext i; simp
    rw [hv0]
    by_cases ha : 0 < dnrm2 (real tiny) (Aᵀ *ᵥ un)
    · rw [if_pos ha]
      obtain ⟨ha1, ha2⟩ := unit_of ha
      generalize halpha : dnrm2 (real tiny) (Aᵀ *ᵥ un) = al at *
      generalize hvn : scale (1 / al) (Aᵀ *ᵥ un) = vn at *
      refine ⟨ha.le, hb.le, hsq, hb2, fun h0 => absurd h0 (mul_pos ha hb).ne', fun _ => ?_⟩
      refine ⟨hb1, ha1, ?_, ?_, ?_, ?_, ⟨0, Submodule.zero_mem _, by simp only; rw [ha2, add_zero]⟩, ha⟩
      · intro p hp; rw [(Submodule.mem_bot ℝ).1 hp]; simp
      · intro p hp; rw [(Submodule.mem_bot ℝ).1 hp]; simp
      · intro p hp; rw [(Submodule.mem_bot ℝ).1 hp]; simp
      · intro p hp; rw [(Submodule.mem_bot ℝ).1 hp]; simp
    · rw [if_neg ha]
      obtain ⟨ha1, ha2⟩ := zero_of ha
      refine ⟨(dnrm2_nonneg _), hb.le, hsq, hb2, fun _ => ?_, fun h0 => absurd (by simp only; rw [ha1]; ring) h0⟩
      rw [← hb2, mulVec_smul, ha2, smul_zero]
  · rw [if_neg hb]
    obtain ⟨hb1, hb2⟩ := zero_of hb
    refine ⟨le_refl _, dnrm2_nonneg _, dnrm2_sq b, ?_, fun _ => by rw [hb2]; simp, fun h0 => absurd (by simp) h0⟩
    simp only
    rw [hb1, hb2]; simp

end Verif.LeastSquares
