import Verif.Proofs.Lsmr
import Mathlib.Algebra.Order.BigOperators.Ring.Finset
import Mathlib.Tactic.Module
import Mathlib.Tactic.LinearCombination
import Mathlib.Tactic.FieldSimp

/-! Bounds of the condition numbers that LSQR and LSMR report for a damped problem. -/

set_option linter.unusedSectionVars false
set_option linter.unusedSimpArgs false

namespace Verif.LeastSquares
open Matrix

variable {m n : Nat} {tiny big : ℝ} {A : Matrix (Fin m) (Fin n) ℝ} {b : Fin m → ℝ}
variable {PU : Submodule ℝ (Fin m → ℝ)} {PV : Submodule ℝ (Fin n → ℝ)}

theorem frob_nonneg (A : Matrix (Fin m) (Fin n) ℝ) : 0 ≤ Spec.frobSq A := by
  unfold Spec.frobSq Spec.normSq; positivity

/-- the Frobenius norm bounds the operator norm -/
theorem op_bound (A : Matrix (Fin m) (Fin n) ℝ) (y : Fin n → ℝ) :
    (A *ᵥ y) ⬝ᵥ (A *ᵥ y) ≤ Spec.frobSq A * (y ⬝ᵥ y) := by
  rw [← normSq_dot, ← normSq_dot]
  unfold Spec.frobSq Spec.normSq
  rw [Finset.sum_mul]
  refine Finset.sum_le_sum (fun i _ => ?_)
  exact Finset.sum_mul_sq_le_sq_mul_sq Finset.univ (A i) y

/-- the squared length of the image of a direction whose parts are orthonormal -/
theorem stacked_length {d k beta : ℝ} {w v tv : Fin n → ℝ} {tu u : Fin m → ℝ}
    (hA : A *ᵥ w = k • tu + beta • u) (hd : d • w = k • tv + d • v) (tt : tu ⬝ᵥ tu + tv ⬝ᵥ tv = 1)
    (ut : u ⬝ᵥ tu = 0) (vt : v ⬝ᵥ tv = 0) (vv : v ⬝ᵥ v = 1) (uu : beta ^ 2 * (u ⬝ᵥ u) = beta ^ 2) :
    (A *ᵥ w) ⬝ᵥ (A *ᵥ w) + d ^ 2 * (w ⬝ᵥ w) = k ^ 2 + d ^ 2 + beta ^ 2 := by
  have e : d ^ 2 * (w ⬝ᵥ w) = (d • w) ⬝ᵥ (d • w) := by
    simp only [smul_dotProduct, dotProduct_smul, smul_eq_mul]; ring
  rw [e, hA, hd]
  have ut' := ut
  have vt' := vt
  rw [dotProduct_comm] at ut' vt'
  simp only [add_dotProduct, dotProduct_add, smul_dotProduct, dotProduct_smul, smul_eq_mul, ut, ut', vt, vt', vv]
  linear_combination k ^ 2 * tt + uu

theorem unit_beta {s t : Vectors m n ℝ} (h : Step A PU PV s t) : t.beta ^ 2 * (t.u ⬝ᵥ t.u) = t.beta ^ 2 := by
  rcases h.beta0.lt_or_eq with hb | hb
  · rw [h.unitu hb, mul_one]
  · rw [← hb]; ring

/-- the largest singular value of the damped matrix -/
theorem stacked_bound {d : ℝ} (hd : 0 < d) {y z : Fin n → ℝ} (hz : z = Aᵀ *ᵥ (A *ᵥ y) + d ^ 2 • y) :
    z ⬝ᵥ z ≤ (Spec.frobSq A + d ^ 2) * ((A *ᵥ y) ⬝ᵥ (A *ᵥ y) + d ^ 2 * (y ⬝ᵥ y)) := by
  have hM : 0 < Spec.frobSq A + d ^ 2 := by have := frob_nonneg A; positivity
  generalize hMe : Spec.frobSq A + d ^ 2 = M at *
  have h1 := op_bound A z
  have h2 := dot_nonneg (A *ᵥ z - M • (A *ᵥ y))
  have h3 := dot_nonneg (z - M • y)
  have h4 : z ⬝ᵥ z = (A *ᵥ z) ⬝ᵥ (A *ᵥ y) + d ^ 2 * (z ⬝ᵥ y) := by
    have e : z ⬝ᵥ z = (Aᵀ *ᵥ (A *ᵥ y) + d ^ 2 • y) ⬝ᵥ z := congrArg (· ⬝ᵥ z) hz
    rw [e, add_dotProduct, smul_dotProduct, smul_eq_mul, mulVec_transpose, ← dotProduct_mulVec,
      dotProduct_comm (A *ᵥ y), dotProduct_comm y]
  have e1 : (A *ᵥ z - M • (A *ᵥ y)) ⬝ᵥ (A *ᵥ z - M • (A *ᵥ y)) =
      (A *ᵥ z) ⬝ᵥ (A *ᵥ z) - 2 * M * ((A *ᵥ z) ⬝ᵥ (A *ᵥ y)) + M ^ 2 * ((A *ᵥ y) ⬝ᵥ (A *ᵥ y)) := by
    simp only [sub_dotProduct, dotProduct_sub, smul_dotProduct, dotProduct_smul, smul_eq_mul]
    rw [dotProduct_comm (A *ᵥ y) (A *ᵥ z)]; ring
  have e2 : (z - M • y) ⬝ᵥ (z - M • y) = z ⬝ᵥ z - 2 * M * (z ⬝ᵥ y) + M ^ 2 * (y ⬝ᵥ y) := by
    simp only [sub_dotProduct, dotProduct_sub, smul_dotProduct, dotProduct_smul, smul_eq_mul]
    rw [dotProduct_comm y z]; ring
  rw [e1] at h2
  rw [e2] at h3
  have h5 : M * (z ⬝ᵥ z) ≤ M * (M * ((A *ᵥ y) ⬝ᵥ (A *ᵥ y) + d ^ 2 * (y ⬝ᵥ y))) := by
    have h6 : (A *ᵥ z) ⬝ᵥ (A *ᵥ z) + d ^ 2 * (z ⬝ᵥ z) ≤ M * (z ⬝ᵥ z) := by rw [← hMe]; linarith
    have h7 := mul_nonneg (sq_nonneg d) h3
    nlinarith
  exact le_of_mul_le_mul_left h5 hM

namespace Lsqr

variable {tu Ru : Fin m → ℝ} {tv Rv p Z : Fin n → ℝ}

/-- `dnorm` grows by at most `1 / damp²` in each iteration -/
theorem dnorm_iterate {P : Products m n ℝ} (hP : IsProduct P A) {o : Settings ℝ} (hd : 0 < o.damp) {s : Lsqr m n ℝ}
    (h : Inv A b o.damp s PU PV tu Ru tv Rv p Z) (hs : o.damp ^ 2 * s.dnorm ^ 2 ≤ s.itn) :
    let t := iterate (real tiny) P o s
    o.damp ^ 2 * t.dnorm ^ 2 ≤ t.itn ∧ 0 ≤ t.dnorm ∧ t.Acond = t.Anorm * t.dnorm := by
  have hst := nextVectors_step (tiny := tiny) hP h.gk
  unfold iterate
  simp only
  generalize hvec : nextVectors (real tiny) P s.vec = vec at *
  have hrot : (rotateDamp (real tiny) o s).1 ^ 2 = s.rhobar ^ 2 + o.damp ^ 2 := by
    unfold rotateDamp
    rw [if_pos hd]
    simp only [d2norm_eq]
    exact Real.sq_sqrt (by positivity)
  have hrn : (rotateDamp (real tiny) o s).1 ≠ 0 := by
    intro e; rw [e] at hrot; nlinarith [sq_nonneg s.rhobar]
  generalize hrd : rotateDamp (real tiny) o s = rd at *
  obtain ⟨rhbar1, psi, phibar1⟩ := rd
  simp only at hrot hrn ⊢
  have hrho2 : (d2norm (real tiny) rhbar1 vec.beta) ^ 2 = s.rhobar ^ 2 + o.damp ^ 2 + vec.beta ^ 2 := by
    rw [d2norm_eq, Real.sq_sqrt (by positivity), hrot]
  have hrho : 0 < d2norm (real tiny) rhbar1 vec.beta := (rotation_facts hrn).1
  generalize d2norm (real tiny) rhbar1 vec.beta = rho at *
  have hAw : A *ᵥ s.w = s.rhobar • tu + vec.beta • vec.u := by rw [h.Aw, hst.bu]
  have hlen := stacked_length hAw h.dw h.tt (hst.uperp _ h.tuM) (h.gk.vp _ h.tvM) h.gk.vv (unit_beta hst)
  rw [← hrho2] at hlen
  have hdk : (real tiny).sqrt ((List.ofFn s.w).foldl (fun a t => (1 / rho * t) * (1 / rho * t) + a) 0) ^ 2 =
      (1 / rho) ^ 2 * (s.w ⬝ᵥ s.w) := by
    rw [dknorm_eq]
    exact Real.sq_sqrt (mul_nonneg (sq_nonneg _) (dot_nonneg _))
  generalize (real tiny).sqrt ((List.ofFn s.w).foldl (fun a t => (1 / rho * t) * (1 / rho * t) + a) 0) = dk at *
  refine ⟨?_, ?_, trivial⟩
  · rw [d2norm_eq, Real.sq_sqrt (by positivity), hdk]
    have h1 : o.damp ^ 2 * ((1 / rho) ^ 2 * (s.w ⬝ᵥ s.w)) ≤ 1 := by
      have h2 := dot_nonneg (A *ᵥ s.w)
      have e : o.damp ^ 2 * ((1 / rho) ^ 2 * (s.w ⬝ᵥ s.w)) = o.damp ^ 2 * (s.w ⬝ᵥ s.w) / rho ^ 2 := by field_simp
      rw [e, div_le_one (by positivity)]
      linarith
    push_cast
    linarith
  · rw [d2norm_eq]; exact Real.sqrt_nonneg _

theorem loop_cond {P : Products m n ℝ} (hP : IsProduct P A) {o : Settings ℝ} (hd : 0 < o.damp) (ha : 0 ≤ o.atol) :
    ∀ (fuel : Nat) (s t : Lsqr m n ℝ) (PU PV) (tu Ru tv Rv p Z),
      Inv A b o.damp s PU PV tu Ru tv Rv p Z → o.damp ^ 2 * s.dnorm ^ 2 ≤ s.itn →
      loop (real tiny) P o fuel s = some t →
      o.damp ^ 2 * t.dnorm ^ 2 ≤ t.itn ∧ 0 ≤ t.dnorm ∧ t.Acond = t.Anorm * t.dnorm := by
  intro fuel
  induction fuel with
  | zero => intro s t PU PV tu Ru tv Rv p Z h hs e; simp [loop] at e
  | succ fuel ih =>
    intro s t PU PV tu Ru tv Rv p Z h hs e
    have hD := dnorm_iterate (tiny := tiny) hP hd h hs
    obtain ⟨hA, hI⟩ := inv_iterate (tiny := tiny) hP hd.le h
    unfold loop at e
    simp only at e
    by_cases hz : (iterate (real tiny) P o s).istop = 0
    · rw [if_pos hz] at e
      rcases hI with ⟨tu', Ru', tv', Rv', p', Z', hI⟩ | h0
      · exact ih _ _ _ _ _ _ _ _ _ _ hI hD.1 e
      · exfalso
        have e : (iterate (real tiny) P o s).istop = stopReason o (s.itn + 1) _
          ((iterate (real tiny) P o s).Arnorm / ((iterate (real tiny) P o s).Anorm * (iterate (real tiny) P o s).rnorm)) _ _ _ := rfl
        rw [h0, zero_div] at e
        rw [e] at hz
        unfold stopReason at hz
        simp only [ha, if_true] at hz
        split at hz <;> omega
    · rw [if_neg hz] at e
      obtain rfl := Option.some.inj e
      exact hD

end Lsqr

namespace Lsmr

variable {tu Ru fu : Fin m → ℝ} {tv Rv fv p qb : Fin n → ℝ}

/-- the bounds of the quantities the condition number is made of, before each iteration -/
structure InvC (A : Matrix (Fin m) (Fin n) ℝ) (d lo hi : ℝ) (s : Lsmr m n ℝ) (PV : Submodule ℝ (Fin n → ℝ)) :
    Prop where
  hM : s.h ∈ PV ⊔ Submodule.span ℝ {s.vec.v}
  hh : s.cbar ^ 2 * (s.h ⬝ᵥ s.h) = 1
  c1 : s.cbar ≤ 1
  rbhi : s.rhobar ≤ hi
  rblo : 0 < s.itn → lo ≤ s.rhobar
  mx : s.maxrbar ≤ hi
  mn : lo ≤ s.minrbar

theorem cmax_le {a b c : ℝ} (h1 : a ≤ c) (h2 : b ≤ c) : cmax a b ≤ c := by unfold cmax; split <;> assumption

theorem le_cmin {a b c : ℝ} (h1 : c ≤ a) (h2 : c ≤ b) : c ≤ cmin a b := by unfold cmin; split <;> assumption

theorem invC_iterate {P : Products m n ℝ} (hP : IsProduct P A) {o : Settings ℝ} (hd : 0 < o.damp) {s : Lsmr m n ℝ}
    {lo hi : ℝ} (hlo : 0 < lo) (hlod : lo ≤ o.damp) (hhi : Real.sqrt (Spec.frobSq A + o.damp ^ 2) ≤ hi)
    (h : Inv A b o.damp s PU PV tu Ru fu tv Rv fv p qb) (hC : InvC A o.damp lo hi s PV) :
    let t := iterate (real tiny) P o s
    t.condA ≤ hi / lo ∧
    (GK A (PU ⊔ Submodule.span ℝ {s.vec.u}) (PV ⊔ Submodule.span ℝ {s.vec.v}) t.vec.alpha t.vec.u t.vec.v →
      InvC A o.damp lo hi t (PV ⊔ Submodule.span ℝ {s.vec.v})) := by
  have hst := nextVectors_step (tiny := tiny) hP h.gk
  unfold iterate
  simp only
  generalize hvec : nextVectors (real tiny) P s.vec = vec at *
  have hab := h.ab0
  have hah2 : (d2norm (real tiny) s.alphabar o.damp) ^ 2 = s.alphabar ^ 2 + o.damp ^ 2 := by
    rw [d2norm_eq]; exact Real.sq_sqrt (by positivity)
  have hah : 0 < d2norm (real tiny) s.alphabar o.damp := (Lsqr.rotation_facts h.ab0.ne').1
  generalize d2norm (real tiny) s.alphabar o.damp = alphahat at *
  have hrho2 : (d2norm (real tiny) alphahat vec.beta) ^ 2 = s.alphabar ^ 2 + o.damp ^ 2 + vec.beta ^ 2 := by
    rw [d2norm_eq, Real.sq_sqrt (by positivity), hah2]
  have hrho : 0 < d2norm (real tiny) alphahat vec.beta := (Lsqr.rotation_facts hah.ne').1
  generalize d2norm (real tiny) alphahat vec.beta = rho at *
  have hrt : 0 < s.cbar * rho := mul_pos h.cb0 hrho
  have hrb2 : (d2norm (real tiny) (s.cbar * rho) (vec.beta / rho * vec.alpha)) ^ 2 =
      (s.cbar * rho) ^ 2 + (vec.beta / rho * vec.alpha) ^ 2 := by
    rw [d2norm_eq]; exact Real.sq_sqrt (by positivity)
  have hrb : 0 < d2norm (real tiny) (s.cbar * rho) (vec.beta / rho * vec.alpha) := (Lsqr.rotation_facts hrt.ne').1
  generalize d2norm (real tiny) (s.cbar * rho) (vec.beta / rho * vec.alpha) = rhobar at *
  have hth : rho * (vec.beta / rho * vec.alpha) = vec.beta * vec.alpha := by field_simp
  generalize vec.beta / rho * vec.alpha = theta at *
  have hAh : A *ᵥ s.h = s.alphabar • tu + vec.beta • vec.u := by rw [h.Ah, hst.bu]
  have hlen := stacked_length hAh h.dh h.tt (hst.uperp _ h.tuM) (h.gk.vp _ h.tvM) h.gk.vv (unit_beta hst)
  rw [← hrho2] at hlen
  have hF := frob_nonneg A
  have hhi0 : 0 < hi := lt_of_lt_of_le (Real.sqrt_pos.2 (by positivity)) hhi
  have hcb := h.cb0
  -- the bounds of rhotemp
  have hlow : o.damp ≤ s.cbar * rho := by
    refine le_of_sq_le_sq ?_ hrt.le
    have h1 := dot_nonneg (A *ᵥ s.h)
    have h2 : o.damp ^ 2 * (s.h ⬝ᵥ s.h) ≤ rho ^ 2 := by linarith
    have h3 := mul_le_mul_of_nonneg_left h2 (sq_nonneg s.cbar)
    have h4 := hC.hh
    calc o.damp ^ 2 = s.cbar ^ 2 * (o.damp ^ 2 * (s.h ⬝ᵥ s.h)) := by linear_combination -(o.damp ^ 2) * h4
      _ ≤ _ := h3
      _ = _ := by ring
  have hhigh : s.cbar * rho ≤ hi := by
    refine le_trans (Real.le_sqrt_of_sq_le ?_) hhi
    have h1 := op_bound A s.h
    have h2 : rho ^ 2 ≤ (Spec.frobSq A + o.damp ^ 2) * (s.h ⬝ᵥ s.h) := by linarith
    have h3 := mul_le_mul_of_nonneg_left h2 (sq_nonneg s.cbar)
    have h4 := hC.hh
    calc (s.cbar * rho) ^ 2 = s.cbar ^ 2 * rho ^ 2 := by ring
      _ ≤ _ := h3
      _ = _ := by linear_combination (Spec.frobSq A + o.damp ^ 2) * h4
  have hmx := hC.mx
  have hmx' : cmax s.maxrbar s.rhobar ≤ hi := cmax_le hC.mx hC.rbhi
  have hmn' : lo ≤ (if 1 < s.itn + 1 then cmin s.minrbar s.rhobar else s.minrbar) := by
    split
    · exact le_cmin hC.mn (hC.rblo (by omega))
    · exact hC.mn
  refine ⟨?_, ?_⟩
  · exact div_le_div₀ hhi0.le (cmax_le hmx' hhigh) hlo (le_cmin hmn' (le_trans hlod hlow))
  · intro hgk
    have hh' : (fun i => vec.v i - theta / rho * s.h i) = vec.v - (theta / rho) • s.h := by
      funext i; simp
    have hvh : vec.v ⬝ᵥ s.h = 0 := hgk.vp _ hC.hM
    have hhv : s.h ⬝ᵥ vec.v = 0 := by rw [dotProduct_comm]; exact hvh
    have hnew : (vec.v - (theta / rho) • s.h) ⬝ᵥ (vec.v - (theta / rho) • s.h) = 1 + (theta / rho) ^ 2 * (s.h ⬝ᵥ s.h) := by
      simp only [sub_dotProduct, dotProduct_sub, smul_dotProduct, dotProduct_smul, smul_eq_mul, hvh, hhv, hgk.vv]
      ring
    have hrbd : s.cbar * rho ≤ rhobar := by
      refine le_of_sq_le_sq ?_ hrb.le
      rw [hrb2]; nlinarith [sq_nonneg theta]
    have hz : rho ^ 2 • s.vec.v + (rho * theta) • vec.v = Aᵀ *ᵥ (A *ᵥ s.h) + o.damp ^ 2 • s.h := by
      have e : o.damp ^ 2 • s.h = o.damp • (o.damp • s.h) := by module
      rw [e, hAh, h.dh]
      have e2 : Aᵀ *ᵥ (s.alphabar • tu + vec.beta • vec.u) + o.damp • (s.alphabar • tv + o.damp • s.vec.v) =
          s.alphabar • (Aᵀ *ᵥ tu + o.damp • tv) + vec.beta • (Aᵀ *ᵥ vec.u) + o.damp ^ 2 • s.vec.v := by
        simp only [mulVec_add, mulVec_smul]; module
      rw [e2, h.t0, hth, hrho2]
      rcases hst.beta0.lt_or_eq with hb | hb
      · have e' : Aᵀ *ᵥ vec.u = vec.alpha • vec.v + vec.beta • s.vec.v := by rw [hst.av hb]; module
        rw [e']; module
      · rw [← hb]; module
    have hsb := stacked_bound hd hz
    rw [hlen] at hsb
    have hvv : vec.v ⬝ᵥ s.vec.v = 0 := hgk.vp _ (Submodule.mem_sup_right (Submodule.mem_span_singleton_self _))
    have hvv' : s.vec.v ⬝ᵥ vec.v = 0 := by rw [dotProduct_comm]; exact hvv
    have hzz : (rho ^ 2 • s.vec.v + (rho * theta) • vec.v) ⬝ᵥ (rho ^ 2 • s.vec.v + (rho * theta) • vec.v) =
        rho ^ 2 * (rho ^ 2 + theta ^ 2) := by
      simp only [add_dotProduct, dotProduct_add, smul_dotProduct, dotProduct_smul, smul_eq_mul, hvv, hvv', hgk.vv, h.gk.vv]
      ring
    rw [hzz, mul_comm (Spec.frobSq A + o.damp ^ 2)] at hsb
    have hrt2 : rho ^ 2 + theta ^ 2 ≤ Spec.frobSq A + o.damp ^ 2 := le_of_mul_le_mul_left hsb (by positivity)
    have hc2 : s.cbar ^ 2 ≤ 1 := by have := hC.c1; nlinarith
    rw [hh']
    constructor
    · exact sub_mem (Submodule.mem_sup_right (Submodule.mem_span_singleton_self _))
        (Submodule.smul_mem _ _ (Submodule.mem_sup_left hC.hM))
    · show (s.cbar * rho / rhobar) ^ 2 * _ = 1
      rw [hnew]
      have h4 := hC.hh
      have h5 : rhobar ≠ 0 := hrb.ne'
      have h6 : rho ≠ 0 := hrho.ne'
      field_simp
      rw [hrb2]
      linear_combination (theta ^ 2) * h4
    · exact (div_le_one hrb).2 hrbd
    · refine le_trans (Real.le_sqrt_of_sq_le ?_) hhi
      rw [hrb2]
      have : (s.cbar * rho) ^ 2 ≤ rho ^ 2 := by
        have := mul_le_mul_of_nonneg_right hc2 (sq_nonneg rho)
        nlinarith
      linarith
    · intro _; exact le_trans hlod (le_trans hlow hrbd)
    · exact hmx'
    · exact hmn'

theorem invC_start {P : Products m n ℝ} (hP : IsProduct P A) {d lo hi : ℝ} (hhi : 1 ≤ hi) (hlo : lo ≤ big)
    (h : Inv A b d (start (real tiny) P big b) PU PV tu Ru fu tv Rv fv p qb) :
    InvC A d lo hi (start (real tiny) P big b) PV := by
  constructor
  · exact Submodule.mem_sup_right (Submodule.mem_span_singleton_self _)
  · have := h.gk.vv
    show (1 : ℝ) ^ 2 * _ = 1
    rw [one_pow, one_mul]
    exact this
  · exact le_refl _
  · exact hhi
  · intro h0; exact absurd h0 (lt_irrefl 0)
  · exact le_trans zero_le_one hhi
  · exact hlo

theorem loop_cond {P : Products m n ℝ} (hP : IsProduct P A) {o : Settings ℝ} (hd : 0 < o.damp) (ha : 0 ≤ o.atol)
    {lo hi : ℝ} (hlo : 0 < lo) (hlod : lo ≤ o.damp) (hhi : Real.sqrt (Spec.frobSq A + o.damp ^ 2) ≤ hi) :
    ∀ (fuel : Nat) (s t : Lsmr m n ℝ) (PU PV) (tu Ru fu tv Rv fv p qb),
      Inv A b o.damp s PU PV tu Ru fu tv Rv fv p qb → InvC A o.damp lo hi s PV →
      loop (real tiny) P o fuel s = some t → t.condA ≤ hi / lo := by
  intro fuel
  induction fuel with
  | zero => intro s t PU PV tu Ru fu tv Rv fv p qb h hs e; simp [loop] at e
  | succ fuel ih =>
    intro s t PU PV tu Ru fu tv Rv fv p qb h hs e
    have hD := invC_iterate (tiny := tiny) hP hd hlo hlod hhi h hs
    obtain ⟨hA, -, hI⟩ := inv_iterate (tiny := tiny) hP h
    unfold loop at e
    simp only at e
    by_cases hz : (iterate (real tiny) P o s).istop = 0
    · rw [if_pos hz] at e
      rcases hI with ⟨tu', Ru', fu', tv', Rv', fv', p', qb', hI⟩ | h0
      · exact ih _ _ _ _ _ _ _ _ _ _ _ _ hI (hD.2 hI.gk) e
      · exfalso
        have e : (iterate (real tiny) P o s).istop = stopReason o (s.itn + 1) _
          ((iterate (real tiny) P o s).normAr / ((iterate (real tiny) P o s).normA * (iterate (real tiny) P o s).normr)) _ _ _ := rfl
        rw [h0, zero_div] at e
        rw [e] at hz
        unfold stopReason at hz
        simp only [ha, if_true] at hz
        split at hz <;> omega
    · rw [if_neg hz] at e
      obtain rfl := Option.some.inj e
      exact hD.1

end Lsmr
end Verif.LeastSquares
