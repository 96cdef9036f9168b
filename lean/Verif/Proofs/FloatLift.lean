import Verif.Proofs.FloatSolve
import Verif.Props.SolveDD
import Mathlib.Tactic.Positivity
set_option linter.unusedSimpArgs false
set_option linter.unusedSectionVars false

/-!
# The solvers on numbers, computed with infinities and NaN (helpers of C119 and C120)
-/

namespace Verif.FloatSolve
open Verif.LeastSquares

/-! ## Operations -/

theorem num_add (a b : ℝ) : Fl.num a + Fl.num b = Fl.num (a + b) := rfl
theorem num_mul (a b : ℝ) : Fl.num a * Fl.num b = Fl.num (a * b) := rfl
theorem num_neg (a : ℝ) : -Fl.num a = Fl.num (-a) := rfl
theorem num_sub (a b : ℝ) : Fl.num a - Fl.num b = Fl.num (a - b) := by
  show Fl.num (a + -b) = _
  rw [sub_eq_add_neg]
theorem num_div {a b : ℝ} (h : b ≠ 0) : Fl.num a / Fl.num b = Fl.num (a / b) := by
  show (if b = 0 then (if a = 0 then Fl.nan else .inf (decide (a < 0))) else .num (a / b)) = _
  rw [if_neg h]
theorem num_sqrt {a : ℝ} (h : 0 ≤ a) : flFns.sqrt (Fl.num a) = Fl.num (realFns.sqrt a) := by
  show (if a < 0 then Fl.nan else .num √a) = _
  rw [if_neg (not_lt.2 h)]
  rfl
theorem num_abs (a : ℝ) : flFns.abs (Fl.num a) = Fl.num (realFns.abs a) := rfl
theorem num_tiny : flFns.tiny = Fl.num realFns.tiny := rfl
theorem num_lt (a b : ℝ) : Fl.num a < Fl.num b ↔ a < b := by
  show decide (a < b) = true ↔ _
  simp
theorem num_eq (a b : ℝ) : (Fl.num a == Fl.num b) = (a == b) := by
  show decide (Fl.num a = Fl.num b) = _
  rw [Bool.eq_iff_iff]
  simp
theorem num_le (a b : ℝ) : Fl.num a ≤ Fl.num b ↔ a ≤ b := by
  show (decide (a < b) || decide (Fl.num a = Fl.num b)) = true ↔ _
  simp [le_iff_lt_or_eq]
theorem num_zero : (0 : Fl ℝ) = Fl.num 0 := rfl
theorem num_one : (1 : Fl ℝ) = Fl.num 1 := rfl

/-- a vector of numbers -/
def nums {n : Nat} (x : Fin n → ℝ) : Fin n → Fl ℝ := fun i => .num (x i)

theorem sqrt_eq (a : ℝ) : realFns.sqrt a = √a := rfl
theorem abs_eq (a : ℝ) : realFns.abs a = |a| := rfl

theorem num_d2norm (a b : ℝ) : d2norm flFns (.num a) (.num b) = .num (d2norm realFns a b) := by
  unfold d2norm
  simp only [num_abs, num_add, num_zero, num_eq]
  split
  · rfl
  · rename_i h
    have h0 : realFns.abs a + realFns.abs b ≠ 0 := by simpa using h
    rw [num_div h0, num_div h0, num_mul, num_mul, num_add, num_sqrt (add_nonneg (mul_self_nonneg _) (mul_self_nonneg _)), num_mul]

theorem d2norm_nonneg (a b : ℝ) : 0 ≤ d2norm realFns a b := by
  unfold d2norm
  simp only
  split
  · exact le_rfl
  · exact mul_nonneg (add_nonneg (abs_nonneg a) (abs_nonneg b)) (Real.sqrt_nonneg _)

theorem d2norm_pos {a b : ℝ} (h : a ≠ 0 ∨ b ≠ 0) : 0 < d2norm realFns a b := by
  have hs : 0 < |a| + |b| := by
    rcases h with h | h
    · exact add_pos_of_pos_of_nonneg (abs_pos.2 h) (abs_nonneg b)
    · exact add_pos_of_nonneg_of_pos (abs_nonneg a) (abs_pos.2 h)
  have hs' : realFns.abs a + realFns.abs b = |a| + |b| := rfl
  unfold d2norm
  simp only [hs']
  rw [if_neg (by simpa using hs.ne')]
  refine mul_pos hs (Real.sqrt_pos.2 ?_)
  rcases h with h | h
  · exact add_pos_of_pos_of_nonneg (mul_self_pos.2 (div_ne_zero h hs.ne')) (mul_self_nonneg _)
  · exact add_pos_of_nonneg_of_pos (mul_self_nonneg _) (mul_self_pos.2 (div_ne_zero h hs.ne'))

theorem num_nrmStep (s : ℝ × ℝ) (x : ℝ) : nrmStep flFns (.num s.1, .num s.2) (.num x) =
    (.num (nrmStep realFns s x).1, .num (nrmStep realFns s x).2) := by
  unfold nrmStep
  simp only [num_zero, num_eq, num_abs, num_one]
  split
  · rfl
  · rename_i h
    have hx : 0 < realFns.abs x := abs_pos.2 (by simpa using h)
    by_cases hlt : s.1 < realFns.abs x
    · simp only [num_lt, if_pos hlt, num_div hx.ne', num_mul, num_add]
    · simp only [num_lt, if_neg hlt]
      have h1 : s.1 ≠ 0 := (lt_of_lt_of_le hx (not_lt.1 hlt)).ne'
      simp only [num_div h1, num_mul, num_add]

theorem nrmStep_nonneg {s : ℝ × ℝ} (h : 0 ≤ s.2) (x : ℝ) : 0 ≤ (nrmStep realFns s x).2 := by
  unfold nrmStep
  split
  · exact h
  · simp only
    split
    · exact add_nonneg (mul_nonneg h (mul_self_nonneg _)) zero_le_one
    · exact add_nonneg h (mul_self_nonneg _)

theorem num_foldl_nrm : ∀ (l : List ℝ) (s : ℝ × ℝ), (l.map Fl.num).foldl (nrmStep flFns) (.num s.1, .num s.2) =
    (.num (l.foldl (nrmStep realFns) s).1, .num (l.foldl (nrmStep realFns) s).2)
  | [], _ => rfl
  | x :: l, s => by
    simp only [List.map_cons, List.foldl_cons]
    rw [num_nrmStep]
    exact num_foldl_nrm l _

theorem foldl_nrm_nonneg : ∀ (l : List ℝ) (s : ℝ × ℝ), 0 ≤ s.2 → 0 ≤ (l.foldl (nrmStep realFns) s).2
  | [], _, h => h
  | x :: l, _, h => foldl_nrm_nonneg l _ (nrmStep_nonneg h x)

theorem ofFn_nums {n : Nat} (x : Fin n → ℝ) : List.ofFn (nums x) = (List.ofFn x).map Fl.num := by
  rw [List.map_ofFn]; rfl

theorem num_dnrm2 {n : Nat} (x : Fin n → ℝ) : dnrm2 flFns (nums x) = .num (dnrm2 realFns x) := by
  unfold dnrm2
  rw [ofFn_nums]
  simp only
  have h := num_foldl_nrm (List.ofFn x) (0, 1)
  simp only [← num_zero, ← num_one] at h
  rw [h]
  simp only
  rw [num_sqrt (foldl_nrm_nonneg _ _ zero_le_one), num_mul]

theorem num_scale {n : Nat} (f : ℝ) (x : Fin n → ℝ) : scale (.num f) (nums x) = nums (scale f x) := rfl

/-! ## The vectors -/

variable {m n : Nat}

/-- the same products, of numbers -/
def SameProducts (P : Products m n ℝ) (P' : Products m n (Fl ℝ)) : Prop :=
  (∀ x y, P'.aprod1 (nums x) (nums y) = nums (P.aprod1 x y)) ∧ ∀ x y, P'.aprod2 (nums x) (nums y) = nums (P.aprod2 x y)

def numVec (s : Vectors m n ℝ) : Vectors m n (Fl ℝ) := ⟨.num s.alpha, .num s.beta, nums s.u, nums s.v⟩

variable {P : Products m n ℝ} {P' : Products m n (Fl ℝ)}

theorem nums_zero : (fun _ : Fin n => (0 : Fl ℝ)) = nums (fun _ => 0) := rfl

theorem num_firstVectors (hP : SameProducts P P') (b : Fin m → ℝ) :
    firstVectors flFns P' (nums b) = numVec (firstVectors realFns P b) := by
  unfold firstVectors
  simp only [num_dnrm2, num_zero]
  by_cases h : 0 < dnrm2 realFns b
  · rw [if_pos h, if_pos ((num_lt _ _).2 h)]
    simp only [num_one, num_div h.ne', num_scale]
    rw [show (fun _ : Fin n => Fl.num (0 : ℝ)) = nums (fun _ => 0) from rfl, hP.2, num_dnrm2]
    by_cases h2 : 0 < dnrm2 realFns (P.aprod2 (fun _ => 0) (scale (1 / dnrm2 realFns b) b))
    · rw [if_pos h2, if_pos ((num_lt _ _).2 h2), num_div h2.ne', num_scale]
      rfl
    · rw [if_neg h2, if_neg (fun hc => h2 ((num_lt _ _).1 hc))]
      rfl
  · rw [if_neg h, if_neg (fun hc => h ((num_lt _ _).1 hc))]
    rfl

theorem num_nextVectors (hP : SameProducts P P') (s : Vectors m n ℝ) :
    nextVectors flFns P' (numVec s) = numVec (nextVectors realFns P s) := by
  unfold nextVectors
  simp only [numVec, num_neg, num_scale, hP.1, num_dnrm2, num_zero]
  by_cases h : 0 < dnrm2 realFns (P.aprod1 s.v (scale (-s.alpha) s.u))
  · rw [if_pos h, if_pos ((num_lt _ _).2 h)]
    simp only [num_one, num_div h.ne', num_scale, hP.2, num_dnrm2, num_neg]
    by_cases h2 : 0 < dnrm2 realFns (P.aprod2 (scale (-dnrm2 realFns (P.aprod1 s.v (scale (-s.alpha) s.u))) s.v)
        (scale (1 / dnrm2 realFns (P.aprod1 s.v (scale (-s.alpha) s.u))) (P.aprod1 s.v (scale (-s.alpha) s.u))))
    · rw [if_pos h2, if_pos ((num_lt _ _).2 h2), num_div h2.ne', num_scale]
    · rw [if_neg h2, if_neg (fun hc => h2 ((num_lt _ _).1 hc))]
  · rw [if_neg h, if_neg (fun hc => h ((num_lt _ _).1 hc))]

/-! ## LSQR -/

def numSettings (o : Settings ℝ) : Settings (Fl ℝ) := ⟨.num o.damp, .num o.atol, .num o.btol, .num o.conlim, o.itnlim⟩

def numLsqr (s : Lsqr m n ℝ) : Lsqr m n (Fl ℝ) where
  vec := numVec s.vec
  w := nums s.w
  x := nums s.x
  itn := s.itn
  istop := s.istop
  rhobar := .num s.rhobar
  phibar := .num s.phibar
  psi := .num s.psi
  bnorm := .num s.bnorm
  Anorm := .num s.Anorm
  Acond := .num s.Acond
  dnorm := .num s.dnorm
  res2 := .num s.res2
  xnorm := .num s.xnorm
  xnorm1 := .num s.xnorm1
  cs2 := .num s.cs2
  sn2 := .num s.sn2
  z := .num s.z
  rnorm := .num s.rnorm
  Arnorm := .num s.Arnorm
  rho := .num s.rho
  gambar := .num s.gambar
  gamma := .num s.gamma
  test1 := .num s.test1
  test2 := .num s.test2
  test3 := .num s.test3
  rtol := .num s.rtol

theorem num_rotateDamp (o : Settings ℝ) (s : Lsqr m n ℝ) : Lsqr.rotateDamp flFns (numSettings o) (numLsqr s) =
    (.num (Lsqr.rotateDamp realFns o s).1, .num (Lsqr.rotateDamp realFns o s).2.1, .num (Lsqr.rotateDamp realFns o s).2.2) := by
  unfold Lsqr.rotateDamp
  by_cases h : 0 < o.damp
  · rw [if_pos h, if_pos (show (0 : Fl ℝ) < (numSettings o).damp from (num_lt _ _).2 h)]
    simp only [numLsqr, numSettings, num_d2norm]
    have h0 := (d2norm_pos (a := s.rhobar) (.inr h.ne')).ne'
    simp only [num_div h0, num_mul]
  · rw [if_neg h, if_neg (show ¬ (0 : Fl ℝ) < (numSettings o).damp from fun hc => h ((num_lt _ _).1 hc))]
    rfl

theorem num_stopReason (o : Settings ℝ) (itn : Nat) (a b c d e : ℝ) :
    Lsqr.stopReason (numSettings o) itn (.num a) (.num b) (.num c) (.num d) (.num e) = Lsqr.stopReason o itn a b c d e := by
  have hc : Lsqr.ctol (numSettings o) = .num (Lsqr.ctol o) := by
    unfold Lsqr.ctol
    by_cases h : 0 < o.conlim
    · rw [if_pos h, if_pos (show (0 : Fl ℝ) < (numSettings o).conlim from (num_lt _ _).2 h)]
      exact num_div h.ne'
    · rw [if_neg h, if_neg (show ¬ (0 : Fl ℝ) < (numSettings o).conlim from fun hc => h ((num_lt _ _).1 hc))]
      rfl
  have h1 : (numSettings o).atol = .num o.atol := rfl
  have h2 : (numSettings o).itnlim = o.itnlim := rfl
  unfold Lsqr.stopReason
  simp only [hc, num_one, num_add, num_le, h1, h2]

theorem num_dknorm (t3 : ℝ) : ∀ (l : List ℝ) (a : ℝ), (l.map Fl.num).foldl (fun a t => (.num t3 * t) * (.num t3 * t) + a) (.num a) =
    .num (l.foldl (fun a t => (t3 * t) * (t3 * t) + a) a)
  | [], _ => rfl
  | x :: l, a => by
    simp only [List.map_cons, List.foldl_cons]
    exact num_dknorm t3 l _

theorem dknorm_ge (t3 : ℝ) : ∀ (l : List ℝ) (a : ℝ), a ≤ l.foldl (fun a t => (t3 * t) * (t3 * t) + a) a
  | [], a => le_rfl
  | x :: l, a => by
    simp only [List.foldl_cons]
    refine le_trans ?_ (dknorm_ge t3 l _)
    nlinarith [mul_self_nonneg (t3 * x)]

/-- no denominator of an iteration is zero -/
structure Divides (P : Products m n ℝ) (o : Settings ℝ) (s : Lsqr m n ℝ) : Prop where
  rho : (Lsqr.iterate realFns P o s).rho ≠ 0
  gambar : (Lsqr.iterate realFns P o s).gambar ≠ 0
  gamma : (Lsqr.iterate realFns P o s).gamma ≠ 0
  bnorm : s.bnorm ≠ 0
  test2 : (Lsqr.iterate realFns P o s).Anorm * (Lsqr.iterate realFns P o s).rnorm ≠ 0
  Acond : (Lsqr.iterate realFns P o s).Acond ≠ 0
  t1 : 1 + (Lsqr.iterate realFns P o s).Anorm * (Lsqr.iterate realFns P o s).xnorm / s.bnorm ≠ 0

theorem num_iterate (hP : SameProducts P P') {o : Settings ℝ} {s : Lsqr m n ℝ} (h : Divides P o s) :
    Lsqr.iterate flFns P' (numSettings o) (numLsqr s) = numLsqr (Lsqr.iterate realFns P o s) := by
  obtain ⟨h1, h2, h3, h4, h5, h6, h7⟩ := h
  have hv : nextVectors flFns P' (numLsqr s).vec = numVec (nextVectors realFns P s.vec) := num_nextVectors hP s.vec
  unfold Lsqr.iterate at h1 h2 h3 h5 h6 h7 ⊢
  simp only at h1 h2 h3 h5 h6 h7 ⊢
  rw [hv, num_rotateDamp]
  generalize nextVectors realFns P s.vec = vec at *
  generalize Lsqr.rotateDamp realFns o s = rot at *
  obtain ⟨rhbar1, psi, phibar⟩ := rot
  simp only at h1 h2 h3 h5 h6 h7 ⊢
  have e1 : (numSettings o).atol = .num o.atol := rfl
  have e2 : (numSettings o).btol = .num o.btol := rfl
  have e3 : (numSettings o).damp = .num o.damp := rfl
  have e4 : (numLsqr s).w = nums s.w := rfl
  have hk : ∀ t : ℝ, flFns.sqrt ((List.ofFn (nums s.w)).foldl (fun a x => (.num t * x) * (.num t * x) + a) (.num 0)) =
      .num (realFns.sqrt ((List.ofFn s.w).foldl (fun a x => (t * x) * (t * x) + a) 0)) := by
    intro t
    rw [ofFn_nums, num_dknorm, num_sqrt (dknorm_ge t _ 0)]
  have hx : ∀ i, nums s.x i = .num (s.x i) := fun _ => rfl
  have hw : ∀ i, nums s.w i = .num (s.w i) := fun _ => rfl
  have hvv : ∀ i, nums vec.v i = .num (vec.v i) := fun _ => rfl
  have hlift : ∀ f : Fin n → ℝ, (fun i => Fl.num (f i)) = nums f := fun _ => rfl
  simp only [numLsqr, e1, e2, e3, numVec, hx, hw, hvv, num_one, num_zero, num_d2norm, num_div h1, num_neg, num_mul, num_add, num_sub,
    num_abs, num_tiny, hk, num_div h2, num_div h3, num_div h4, num_div h5, num_div h6, num_div h7, num_stopReason, hlift]

theorem dknorm_pos {t3 : ℝ} (ht : t3 ≠ 0) : ∀ (l : List ℝ) (a : ℝ), 0 ≤ a → (0 < a ∨ ∃ x ∈ l, x ≠ 0) →
    0 < l.foldl (fun a t => (t3 * t) * (t3 * t) + a) a
  | [], a, _, h => by rcases h with h | ⟨x, hx, -⟩; exact h; cases hx
  | x :: l, a, h0, h => by
    simp only [List.foldl_cons]
    have h1 : 0 ≤ (t3 * x) * (t3 * x) + a := add_nonneg (mul_self_nonneg _) h0
    refine dknorm_pos ht l _ h1 ?_
    rcases h with h | ⟨y, hy, h⟩
    · exact .inl (add_pos_of_nonneg_of_pos (mul_self_nonneg _) h)
    · rcases List.mem_cons.1 hy with rfl | hy
      · exact .inl (add_pos_of_pos_of_nonneg (mul_self_pos.2 (mul_ne_zero ht h)) h0)
      · exact .inr ⟨y, hy, h⟩

/-- what keeps the denominators of LSQR away from zero -/
structure LsqrInv (o : Settings ℝ) (s : Lsqr m n ℝ) : Prop where
  bnorm : 0 < s.bnorm
  cs2 : s.cs2 ≠ 0
  dnorm : 0 < s.dnorm ∨ ∃ i, s.w i ≠ 0
  rhobar : 0 < o.damp ∨ s.rhobar ≠ 0
  anorm : s.Anorm ≠ 0 ∨ s.vec.alpha ≠ 0

theorem rotateDamp_ne {o : Settings ℝ} {s : Lsqr m n ℝ} (h : 0 < o.damp ∨ s.rhobar ≠ 0) : (Lsqr.rotateDamp realFns o s).1 ≠ 0 := by
  unfold Lsqr.rotateDamp
  split
  · rename_i hd
    exact (d2norm_pos (.inr hd.ne')).ne'
  · rename_i hd
    exact h.resolve_left hd

theorem tiny_pos : 0 < realFns.tiny := by
  show 0 < tiny30
  unfold tiny30
  positivity

theorem lsqr_dnorm_pos (P : Products m n ℝ) {o : Settings ℝ} {s : Lsqr m n ℝ} (h : LsqrInv o s) :
    0 < (Lsqr.iterate realFns P o s).dnorm := by
  have hrho : 0 < (Lsqr.iterate realFns P o s).rho := d2norm_pos (.inl (rotateDamp_ne h.rhobar))
  refine d2norm_pos ?_
  rcases h.dnorm with h | ⟨i, hi⟩
  · exact .inl h.ne'
  · refine .inr (Real.sqrt_pos.2 ?_).ne'
    exact dknorm_pos (one_div_ne_zero hrho.ne') _ 0 le_rfl (.inr ⟨s.w i, List.mem_ofFn.2 ⟨i, rfl⟩, hi⟩)

theorem lsqr_anorm_pos (P : Products m n ℝ) {o : Settings ℝ} {s : Lsqr m n ℝ} (h : LsqrInv o s) :
    0 < (Lsqr.iterate realFns P o s).Anorm := by
  refine d2norm_pos ?_
  rcases h.anorm with h | h
  · exact .inl h
  · exact .inr (d2norm_pos (.inl (d2norm_pos (.inl h)).ne')).ne'

theorem lsqr_divides (P : Products m n ℝ) {o : Settings ℝ} {s : Lsqr m n ℝ} (h : LsqrInv o s) : Divides P o s := by
  have hrho : 0 < (Lsqr.iterate realFns P o s).rho := d2norm_pos (.inl (rotateDamp_ne h.rhobar))
  have hgb : (Lsqr.iterate realFns P o s).gambar ≠ 0 := mul_ne_zero (neg_ne_zero.2 h.cs2) hrho.ne'
  have hA := lsqr_anorm_pos P h
  have hr : 0 < (Lsqr.iterate realFns P o s).rnorm := add_pos_of_nonneg_of_pos (d2norm_nonneg _ _) tiny_pos
  have hx : 0 ≤ (Lsqr.iterate realFns P o s).xnorm := d2norm_nonneg _ _
  have hdn := lsqr_dnorm_pos P h
  exact ⟨hrho.ne', hgb, (d2norm_pos (.inl hgb)).ne', h.bnorm.ne', (mul_pos hA hr).ne', (mul_pos hA hdn).ne',
    (add_pos_of_pos_of_nonneg one_pos (div_nonneg (mul_nonneg hA.le hx) h.bnorm.le)).ne'⟩

/-- the search goes on only if there is a direction -/
theorem lsqr_alpha (P : Products m n ℝ) {o : Settings ℝ} (ha : 0 ≤ o.atol) {s : Lsqr m n ℝ}
    (h0 : (Lsqr.iterate realFns P o s).istop = 0) : (Lsqr.iterate realFns P o s).vec.alpha ≠ 0 := by
  intro hc
  have hv : (nextVectors realFns P s.vec).alpha = 0 := hc
  unfold Lsqr.iterate at h0
  simp only [hv, zero_mul, zero_div] at h0
  unfold Lsqr.stopReason at h0
  split at h0
  · cases h0
  · cases h0

theorem lsqrInv_iterate (P : Products m n ℝ) {o : Settings ℝ} (ha : 0 ≤ o.atol) {s : Lsqr m n ℝ} (h : LsqrInv o s)
    (h0 : (Lsqr.iterate realFns P o s).istop = 0) : LsqrInv o (Lsqr.iterate realFns P o s) := by
  have hdv := lsqr_divides P h
  refine ⟨h.bnorm, ?_, .inl (lsqr_dnorm_pos P h), .inr ?_, .inl (lsqr_anorm_pos P h).ne'⟩
  · exact div_ne_zero hdv.gambar hdv.gamma
  · exact mul_ne_zero (neg_ne_zero.2 (div_ne_zero (rotateDamp_ne h.rhobar) hdv.rho)) (lsqr_alpha P ha h0)

theorem num_loop (hP : SameProducts P P') {o : Settings ℝ} (ha : 0 ≤ o.atol) : ∀ (fuel : Nat) {s : Lsqr m n ℝ}, LsqrInv o s →
    Lsqr.loop flFns P' (numSettings o) fuel (numLsqr s) = (Lsqr.loop realFns P o fuel s).map numLsqr
  | 0, _, _ => rfl
  | fuel + 1, s, h => by
    rw [Lsqr.loop, Lsqr.loop, num_iterate hP (lsqr_divides P h)]
    by_cases h0 : (Lsqr.iterate realFns P o s).istop = 0
    · rw [if_pos h0, if_pos (show (numLsqr (Lsqr.iterate realFns P o s)).istop = 0 from h0)]
      exact num_loop hP ha fuel (lsqrInv_iterate P ha h h0)
    · rw [if_neg h0, if_neg (show ¬ (numLsqr (Lsqr.iterate realFns P o s)).istop = 0 from h0)]
      rfl

theorem num_finish {o : Settings ℝ} (s : Lsqr m n ℝ) : Lsqr.finish (numSettings o) (numLsqr s) = numLsqr (Lsqr.finish o s) := by
  unfold Lsqr.finish
  have hi : (numLsqr s).istop = s.istop := rfl
  have hd : ((0 : Fl ℝ) < (numSettings o).damp) ↔ 0 < o.damp := num_lt _ _
  by_cases h : 0 < o.damp ∧ s.istop = 2
  · rw [if_pos h, if_pos (by rw [hd, hi]; exact h)]
    rfl
  · rw [if_neg h, if_neg (by rw [hd, hi]; exact h)]

theorem dnrm2_nonneg' {n : Nat} (x : Fin n → ℝ) : 0 ≤ dnrm2 realFns x := by
  have h : ∀ (l : List ℝ) (s : ℝ × ℝ), 0 ≤ s.1 → 0 ≤ (l.foldl (nrmStep realFns) s).1 := by
    intro l
    induction l with
    | nil => exact fun s h => h
    | cons x l ih =>
      intro s h
      refine ih _ ?_
      unfold nrmStep
      split
      · exact h
      · simp only
        split
        · exact abs_nonneg x
        · exact h
  exact mul_nonneg (h _ _ le_rfl) (Real.sqrt_nonneg _)

theorem exists_of_dnrm2 {n : Nat} {x : Fin n → ℝ} (h : dnrm2 realFns x ≠ 0) : ∃ i, x i ≠ 0 := by
  by_contra hn
  push Not at hn
  apply h
  have : ∀ (l : List ℝ) (s : ℝ × ℝ), (∀ y ∈ l, y = 0) → l.foldl (nrmStep realFns) s = s := by
    intro l
    induction l with
    | nil => exact fun s _ => rfl
    | cons y l ih =>
      intro s hl
      have h0 : nrmStep realFns s y = s := by
        unfold nrmStep
        rw [if_pos (by rw [hl y (List.mem_cons_self ..)]; simp)]
      rw [List.foldl_cons, h0]
      exact ih s (fun z hz => hl z (List.mem_cons_of_mem _ hz))
  unfold dnrm2
  rw [this _ _ (fun y hy => by obtain ⟨i, rfl⟩ := List.mem_ofFn.1 hy; exact hn i)]
  simp

/-- the first vectors, when there is something to improve -/
theorem first_facts (P : Products m n ℝ) (b : Fin m → ℝ) (h : (firstVectors realFns P b).alpha * (firstVectors realFns P b).beta ≠ 0) :
    0 < (firstVectors realFns P b).alpha ∧ 0 < (firstVectors realFns P b).beta ∧ ∃ i, (firstVectors realFns P b).v i ≠ 0 := by
  unfold firstVectors at h ⊢
  simp only at h ⊢
  by_cases hb : 0 < dnrm2 realFns b
  · rw [if_pos hb] at h ⊢
    generalize hv : P.aprod2 (fun _ => 0) (scale (1 / dnrm2 realFns b) b) = v at *
    by_cases ha : 0 < dnrm2 realFns v
    · rw [if_pos ha] at h ⊢
      obtain ⟨i, hi⟩ := exists_of_dnrm2 ha.ne'
      exact ⟨ha, hb, i, mul_ne_zero hi (one_div_ne_zero ha.ne')⟩
    · rw [if_neg ha] at h
      exact absurd (le_antisymm (not_lt.1 ha) (dnrm2_nonneg' v)) (left_ne_zero_of_mul h)
  · rw [if_neg hb] at h
    exact absurd (zero_mul _) h

theorem num_start (hP : SameProducts P P') (b : Fin m → ℝ) : Lsqr.start flFns P' (nums b) = numLsqr (Lsqr.start realFns P b) := by
  unfold Lsqr.start
  rw [num_firstVectors hP]
  rfl

/-- LSQR computes with numbers only -/
theorem num_lsqr (hP : SameProducts P P') {o : Settings ℝ} (ha : 0 ≤ o.atol) (b : Fin m → ℝ) (fuel : Nat) :
    Lsqr.solve flFns P' (numSettings o) (nums b) fuel = (Lsqr.solve realFns P o b fuel).map numLsqr := by
  unfold Lsqr.solve
  simp only [num_start hP]
  have h0 : ((numLsqr (Lsqr.start realFns P b)).Arnorm == 0) = ((Lsqr.start realFns P b).Arnorm == 0) := num_eq _ _
  rw [h0]
  split
  · rw [num_finish]; rfl
  · rename_i h
    have hne : (firstVectors realFns P b).alpha * (firstVectors realFns P b).beta ≠ 0 := by simpa [Lsqr.start] using h
    obtain ⟨h1, h2, h3⟩ := first_facts P b hne
    rw [num_loop hP ha fuel (s := Lsqr.start realFns P b) ⟨h2, by simp [Lsqr.start], .inr h3, .inr h1.ne', .inr h1.ne'⟩, Option.map_map, Option.map_map]
    congr 1
    funext s
    exact num_finish s

/-! ## LSMR -/

def numLsmr (s : Lsmr m n ℝ) : Lsmr m n (Fl ℝ) where
  vec := numVec s.vec
  h := nums s.h
  hbar := nums s.hbar
  x := nums s.x
  itn := s.itn
  istop := s.istop
  zetabar := .num s.zetabar
  alphabar := .num s.alphabar
  rho := .num s.rho
  rhobar := .num s.rhobar
  cbar := .num s.cbar
  sbar := .num s.sbar
  betadd := .num s.betadd
  betad := .num s.betad
  rhodold := .num s.rhodold
  tautildeold := .num s.tautildeold
  thetatilde := .num s.thetatilde
  zeta := .num s.zeta
  d := .num s.d
  normA2 := .num s.normA2
  maxrbar := .num s.maxrbar
  minrbar := .num s.minrbar
  normb := .num s.normb
  normA := .num s.normA
  condA := .num s.condA
  normr := .num s.normr
  normAr := .num s.normAr
  normx := .num s.normx

theorem num_stopReason' (o : Settings ℝ) (itn : Nat) (a b c d e : ℝ) :
    Lsmr.stopReason (numSettings o) itn (.num a) (.num b) (.num c) (.num d) (.num e) = Lsmr.stopReason o itn a b c d e := by
  have hc : Lsmr.ctol (numSettings o) = .num (Lsmr.ctol o) := by
    unfold Lsmr.ctol
    by_cases h : 0 < o.conlim
    · rw [if_pos h, if_pos (show (0 : Fl ℝ) < (numSettings o).conlim from (num_lt _ _).2 h)]
      exact num_div h.ne'
    · rw [if_neg h, if_neg (show ¬ (0 : Fl ℝ) < (numSettings o).conlim from fun hc => h ((num_lt _ _).1 hc))]
      rfl
  have h1 : (numSettings o).atol = .num o.atol := rfl
  have h2 : (numSettings o).itnlim = o.itnlim := rfl
  unfold Lsmr.stopReason
  simp only [hc, num_one, num_add, num_le, h1, h2]

theorem num_cmax (a b : ℝ) : Lsmr.cmax (Fl.num a) (Fl.num b) = Fl.num (Lsmr.cmax a b) := by
  unfold Lsmr.cmax
  by_cases h : a < b
  · rw [if_pos h, if_pos ((num_lt _ _).2 h)]
  · rw [if_neg h, if_neg (fun hc => h ((num_lt _ _).1 hc))]

theorem num_cmin (a b : ℝ) : Lsmr.cmin (Fl.num a) (Fl.num b) = Fl.num (Lsmr.cmin a b) := by
  unfold Lsmr.cmin
  by_cases h : b < a
  · rw [if_pos h, if_pos ((num_lt _ _).2 h)]
  · rw [if_neg h, if_neg (fun hc => h ((num_lt _ _).1 hc))]

theorem cmin_pos {a b : ℝ} (ha : 0 < a) (hb : 0 < b) : 0 < Lsmr.cmin a b := by
  unfold Lsmr.cmin
  split
  · exact hb
  · exact ha

theorem le_cmax (a b : ℝ) : b ≤ Lsmr.cmax a b := by
  unfold Lsmr.cmax
  split
  · exact le_rfl
  · rename_i h; exact not_lt.1 h

theorem num_ite (c : Prop) [Decidable c] (a b : ℝ) : (if c then Fl.num a else Fl.num b) = Fl.num (if c then a else b) := by
  split <;> rfl

/-- what keeps the denominators of LSMR away from zero -/
structure LsmrInv (o : Settings ℝ) (s : Lsmr m n ℝ) : Prop where
  normb : 0 < s.normb
  rho : 0 < s.rho
  rhobar : 0 < s.rhobar
  cbar : 0 < s.cbar
  rhodold : s.rhodold ≠ 0
  minrbar : 0 < s.minrbar
  normA2 : 0 < s.normA2
  d : 0 ≤ s.d
  alphabar : o.damp ≠ 0 ∨ s.alphabar ≠ 0

theorem sqrt3 {a : ℝ} (ha : 0 ≤ a) (b c : ℝ) : 0 ≤ a + b * b + c * c :=
  add_nonneg (add_nonneg ha (mul_self_nonneg b)) (mul_self_nonneg c)

/-- the reason to stop, when the residual may be zero: the first test is met, whatever the second one is -/
theorem num_stop {o : Settings ℝ} (ha : 0 ≤ o.atol) (hb : 0 ≤ o.btol) {nb nA : ℝ} (hnb : 0 < nb) (hA : 0 < nA) (itn : Nat) (normr ar t3 q : ℝ)
    (x : Fin n → ℝ) :
    Lsmr.stopReason (numSettings o) itn (.num (normr / nb)) (.num ar / .num (nA * normr)) (.num t3) (.num (normr / nb / q))
        (.num (o.btol + o.atol * nA * dnrm2 realFns x / nb)) =
      Lsmr.stopReason o itn (normr / nb) (ar / (nA * normr)) t3 (normr / nb / q) (o.btol + o.atol * nA * dnrm2 realFns x / nb) := by
  by_cases h : normr = 0
  · have hr : (0 : ℝ) ≤ o.btol + o.atol * nA * dnrm2 realFns x / nb :=
      add_nonneg hb (div_nonneg (mul_nonneg (mul_nonneg ha hA.le) (dnrm2_nonneg' x)) hnb.le)
    subst h
    unfold Lsmr.stopReason
    rw [zero_div, if_pos ((num_le _ _).2 hr), if_pos hr]
  · rw [num_div (mul_ne_zero hA.ne' h), num_stopReason']

theorem lsmr_goes_on {o : Settings ℝ} (ha : 0 ≤ o.atol) {itn : Nat} {t1 t2 t3 t4 rtol : ℝ} (h2 : t2 = 0)
    (h : Lsmr.stopReason o itn t1 t2 t3 t4 rtol = 0) : False := by
  unfold Lsmr.stopReason at h
  split at h
  · cases h
  · rw [h2, if_pos ha] at h; cases h

theorem num_iterate' (hP : SameProducts P P') {o : Settings ℝ} (hat : 0 ≤ o.atol) (hbt : 0 ≤ o.btol) {s : Lsmr m n ℝ} (h : LsmrInv o s) :
    Lsmr.iterate flFns P' (numSettings o) (numLsmr s) = numLsmr (Lsmr.iterate realFns P o s) ∧
      ((Lsmr.iterate realFns P o s).istop = 0 → LsmrInv o (Lsmr.iterate realFns P o s)) := by
  have hv : nextVectors flFns P' (numLsmr s).vec = numVec (nextVectors realFns P s.vec) := num_nextVectors hP s.vec
  have e1 : (numSettings o).atol = .num o.atol := rfl
  have e2 : (numSettings o).btol = .num o.btol := rfl
  have e3 : (numSettings o).damp = .num o.damp := rfl
  have hx : ∀ i, nums s.x i = .num (s.x i) := fun _ => rfl
  have hw : ∀ i, nums s.h i = .num (s.h i) := fun _ => rfl
  have hb : ∀ i, nums s.hbar i = .num (s.hbar i) := fun _ => rfl
  have hlift : ∀ f : Fin n → ℝ, (fun i => Fl.num (f i)) = nums f := fun _ => rfl
  unfold Lsmr.iterate
  simp only
  rw [hv]
  generalize nextVectors realFns P s.vec = vec at *
  have hvv : ∀ i, nums vec.v i = .num (vec.v i) := fun _ => rfl
  -- the denominators
  have a1 : 0 < d2norm realFns s.alphabar o.damp := d2norm_pos h.alphabar.symm
  generalize ha : d2norm realFns s.alphabar o.damp = alphahat at *
  have a2 : 0 < d2norm realFns alphahat vec.beta := d2norm_pos (.inl a1.ne')
  generalize hr : d2norm realFns alphahat vec.beta = rho at *
  have a3 : 0 < s.cbar * rho := mul_pos h.cbar a2
  have a4 : 0 < d2norm realFns (s.cbar * rho) (vec.beta / rho * vec.alpha) := d2norm_pos (.inl a3.ne')
  generalize hrb : d2norm realFns (s.cbar * rho) (vec.beta / rho * vec.alpha) = rhobar at *
  have a5 : s.rho * s.rhobar ≠ 0 := (mul_pos h.rho h.rhobar).ne'
  have a6 : rho * rhobar ≠ 0 := (mul_pos a2 a4).ne'
  have a7 : 0 < d2norm realFns s.rhodold (s.sbar * rho) := d2norm_pos (.inl h.rhodold)
  generalize hrt : d2norm realFns s.rhodold (s.sbar * rho) = rhotildeold at *
  have a8 : s.rhodold / rhotildeold * rhobar ≠ 0 := mul_ne_zero (div_ne_zero h.rhodold a7.ne') a4.ne'
  have hmin : 0 < (if 1 < s.itn + 1 then Lsmr.cmin s.minrbar s.rhobar else s.minrbar) := by
    split
    · exact cmin_pos h.minrbar h.rhobar
    · exact h.minrbar
  generalize hmi : (if 1 < s.itn + 1 then Lsmr.cmin s.minrbar s.rhobar else s.minrbar) = minrbar at *
  have a9 : 0 < Lsmr.cmin minrbar (s.cbar * rho) := cmin_pos hmin a3
  have a10 : 0 < Lsmr.cmax (Lsmr.cmax s.maxrbar s.rhobar) (s.cbar * rho) := lt_of_lt_of_le a3 (le_cmax _ _)
  have a11 := (div_pos a10 a9).ne'
  have hd0 : 0 ≤ -(o.damp / alphahat) * s.betadd * (-(o.damp / alphahat) * s.betadd) := mul_self_nonneg _
  have hd1 : 0 ≤ s.d + -(o.damp / alphahat) * s.betadd * (-(o.damp / alphahat) * s.betadd) := add_nonneg h.d hd0
  have hnA : 0 < s.normA2 + vec.beta * vec.beta := add_pos_of_pos_of_nonneg h.normA2 (mul_self_nonneg _)
  have hdx : ∀ x : Fin n → ℝ, dnrm2 flFns (nums x) = .num (dnrm2 realFns x) := fun x => num_dnrm2 x
  simp only [numLsmr, e1, e2, e3, numVec, hx, hw, hb, hvv, num_one, num_zero, num_d2norm, ha, hr, hrb, hrt, num_div a1.ne', num_div a2.ne', num_div a4.ne',
    num_div a5, num_div a6, num_div a7.ne', num_div a8, num_neg, num_mul, num_add, num_sub, num_cmax, num_cmin, num_ite, hmi, num_div a9.ne', num_div a11, num_abs, hlift, hdx,
    num_sqrt hnA.le]
  generalize hA : realFns.sqrt (s.normA2 + vec.beta * vec.beta) = normA at *
  have hA1 : 0 < normA := hA ▸ Real.sqrt_pos.2 hnA
  have t3 : ∀ x : Fin n → ℝ, 1 + normA * dnrm2 realFns x / s.normb ≠ 0 := fun x =>
    (add_pos_of_pos_of_nonneg one_pos (div_nonneg (mul_nonneg hA1.le (dnrm2_nonneg' x)) h.normb.le)).ne'
  simp only [num_sqrt (sqrt3 hd1 _ _), num_div h.normb.ne', num_mul, num_add, num_div (t3 _), num_stop hat hbt h.normb hA1]
  refine ⟨trivial, fun hi => ?_⟩
  have hal : vec.alpha ≠ 0 := by
    intro hc
    refine lsmr_goes_on hat ?_ hi
    simp only [hc, mul_zero, zero_div, neg_zero, zero_mul]
    show |(0 : ℝ)| / _ = 0
    rw [abs_zero, zero_div]
  constructor
  · exact h.normb
  · exact a2
  · exact a4
  · exact div_pos a3 a4
  · exact a8
  · exact hmin
  · exact add_pos_of_pos_of_nonneg hnA (mul_self_nonneg _)
  · exact hd1
  · exact .inr (mul_ne_zero (div_pos a1 a2).ne' hal)

theorem num_loop' (hP : SameProducts P P') {o : Settings ℝ} (hat : 0 ≤ o.atol) (hbt : 0 ≤ o.btol) : ∀ (fuel : Nat) {s : Lsmr m n ℝ},
    LsmrInv o s → Lsmr.loop flFns P' (numSettings o) fuel (numLsmr s) = (Lsmr.loop realFns P o fuel s).map numLsmr
  | 0, _, _ => rfl
  | fuel + 1, s, h => by
    obtain ⟨h1, h2⟩ := num_iterate' hP hat hbt h
    rw [Lsmr.loop, Lsmr.loop]
    simp only [h1]
    have hi : (numLsmr (Lsmr.iterate realFns P o s)).istop = (Lsmr.iterate realFns P o s).istop := rfl
    rw [hi]
    split
    · rename_i h0
      exact num_loop' hP hat hbt fuel (h2 h0)
    · rfl

theorem num_start' (hP : SameProducts P P') (big : ℝ) (b : Fin m → ℝ) :
    Lsmr.start flFns P' (.num big) (nums b) = numLsmr (Lsmr.start realFns P big b) := by
  unfold Lsmr.start
  rw [show (-1 : Fl ℝ) = .num (-1) from rfl, num_scale, show (fun _ : Fin n => (0 : Fl ℝ)) = nums (fun _ => 0) from rfl, hP.1, num_scale,
    num_firstVectors hP]
  rfl

/-- LSMR computes with numbers only -/
theorem num_lsmr (hP : SameProducts P P') {o : Settings ℝ} (hat : 0 ≤ o.atol) (hbt : 0 ≤ o.btol) {big : ℝ} (hbig : 0 < big) (b : Fin m → ℝ) (fuel : Nat) :
    Lsmr.solve flFns P' (.num big) (numSettings o) (nums b) fuel = (Lsmr.solve realFns P big o b fuel).map numLsmr := by
  unfold Lsmr.solve
  simp only [num_start' hP]
  have h0 : ((numLsmr (Lsmr.start realFns P big b)).normAr == 0) = ((Lsmr.start realFns P big b).normAr == 0) := num_eq _ _
  rw [h0]
  split
  · rfl
  · rename_i h
    have hne := h
    simp only [Lsmr.start, beq_iff_eq] at hne
    obtain ⟨h1, h2, -⟩ := first_facts P _ hne
    exact num_loop' hP hat hbt fuel ⟨h2, one_pos, one_pos, one_pos, one_ne_zero, hbig, mul_pos h1 h1, le_rfl, .inr h1.ne'⟩

end Verif.FloatSolve
