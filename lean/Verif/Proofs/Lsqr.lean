import Verif.Model.Lsqr
import Verif.Spec.LeastSquares
import Verif.Proofs.LeastSquares
import Mathlib.LinearAlgebra.FiniteDimensional.Lemmas
import Mathlib.Tactic.Linarith

/-! Lemmas about LSQR, over real numbers. -/

set_option linter.unusedSectionVars false
set_option linter.unusedSimpArgs false

namespace Verif.LeastSquares
open Matrix

variable {m n : Nat} {tiny : ℝ} {A : Matrix (Fin m) (Fin n) ℝ} {b : Fin m → ℝ}

theorem normSq_dot (x : Fin n → ℝ) : Spec.normSq x = x ⬝ᵥ x := by
  unfold Spec.normSq dotProduct
  exact Finset.sum_congr rfl (fun i _ => sq (x i))

namespace Lsqr

/-- what holds before each iteration -/
structure Inv (A : Matrix (Fin m) (Fin n) ℝ) (b : Fin m → ℝ) (d : ℝ) (s : Lsqr m n ℝ)
    (PU : Submodule ℝ (Fin m → ℝ)) (PV : Submodule ℝ (Fin n → ℝ)) (tu Ru : Fin m → ℝ) (tv Rv p Z : Fin n → ℝ) : Prop where
  gk : GK A PU PV s.vec.alpha s.vec.u s.vec.v
  bb : s.bnorm ^ 2 = b ⬝ᵥ b
  bpos : 0 < s.bnorm
  r1 : b - A *ᵥ s.x = s.phibar • tu + Ru
  r2 : -(d • s.x) = s.phibar • tv + Rv
  t0 : Aᵀ *ᵥ tu + d • tv = s.rhobar • s.vec.v
  R0 : Aᵀ *ᵥ Ru + d • Rv = 0
  tuM : tu ∈ PU ⊔ Submodule.span ℝ {s.vec.u}
  RuM : Ru ∈ PU ⊔ Submodule.span ℝ {s.vec.u}
  tvM : tv ∈ PV
  RvM : Rv ∈ PV
  tt : tu ⬝ᵥ tu + tv ⬝ᵥ tv = 1
  tR : tu ⬝ᵥ Ru + tv ⬝ᵥ Rv = 0
  RR : Ru ⬝ᵥ Ru + Rv ⬝ᵥ Rv = s.res2 ^ 2
  Aw : A *ᵥ s.w = s.rhobar • tu + (A *ᵥ s.vec.v - s.vec.alpha • s.vec.u)
  dw : d • s.w = s.rhobar • tv + d • s.vec.v
  rb : s.rhobar ≠ 0
  psi0 : d = 0 → s.psi = 0
  cs20 : s.cs2 ≠ 0
  pw : p = -(s.cs2 • s.w)
  xZ : s.x = Z + (s.sn2 * s.z / s.cs2) • p
  pM : p ∈ PV ⊔ Submodule.span ℝ {s.vec.v}
  ZM : Z ∈ PV ⊔ Submodule.span ℝ {s.vec.v}
  pp : p ⬝ᵥ p = 1
  pZ : p ⬝ᵥ Z = 0
  ZZ : Z ⬝ᵥ Z = s.xnorm1 ^ 2
  xM : s.x ∈ PV
  wM : s.w ∈ PV ⊔ Submodule.span ℝ {s.vec.v}
  dim : Module.finrank ℝ PV = s.itn
  an0 : 0 ≤ s.Anorm

/-- what holds after each iteration, even the last one -/
structure After (A : Matrix (Fin m) (Fin n) ℝ) (b : Fin m → ℝ) (tiny d : ℝ) (t : Lsqr m n ℝ)
    (PV : Submodule ℝ (Fin n → ℝ)) : Prop where
  nr : t.rnorm = Real.sqrt (Spec.misfit A b d t.x) + tiny
  ng : t.Arnorm = Real.sqrt (Spec.normSq (Spec.descent A b d t.x))
  nx : t.xnorm = Real.sqrt (Spec.normSq t.x)
  xM : t.x ∈ PV
  gM : ∀ q ∈ PV, Spec.descent A b d t.x ⬝ᵥ q = 0
  dim : Module.finrank ℝ PV = t.itn
  rho0 : 0 < t.rho
  gam0 : 0 < t.gamma
  gamb : t.gambar ≠ 0
  an0 : 0 < t.Anorm
  ac0 : 0 < t.Acond
  bb : t.bnorm ^ 2 = b ⬝ᵥ b
  bpos : 0 < t.bnorm

theorem rotateDamp_facts {o : Settings ℝ} {s : Lsqr m n ℝ} (hd : 0 ≤ o.damp) (rb : s.rhobar ≠ 0)
    (psi0 : o.damp = 0 → s.psi = 0) : ∃ cs1 sn1 rhbar1 psi phibar1,
    rotateDamp (real tiny) o s = (rhbar1, psi, phibar1) ∧ cs1 ^ 2 + sn1 ^ 2 = 1 ∧ rhbar1 ≠ 0 ∧ rhbar1 * cs1 = s.rhobar ∧
    rhbar1 * sn1 = o.damp ∧ psi = sn1 * s.phibar ∧ phibar1 = cs1 * s.phibar := by
  unfold rotateDamp
  by_cases h : 0 < o.damp
  · rw [if_pos h]
    simp only [d2norm_eq]
    have hp : 0 < s.rhobar ^ 2 + o.damp ^ 2 := by positivity
    have hq : 0 < Real.sqrt (s.rhobar ^ 2 + o.damp ^ 2) := Real.sqrt_pos.2 hp
    have hs := Real.sq_sqrt hp.le
    generalize Real.sqrt (s.rhobar ^ 2 + o.damp ^ 2) = r at *
    refine ⟨_, _, _, _, _, rfl, ?_, hq.ne', ?_, ?_, rfl, rfl⟩
    · rw [div_pow, div_pow, ← add_div, ← hs]; field_simp
    · field_simp
    · field_simp
  · rw [if_neg h]
    have h0 : o.damp = 0 := le_antisymm (not_lt.1 h) hd
    exact ⟨1, 0, _, _, _, rfl, by simp, rb, by simp, by simp [h0], by simp [psi0 h0], by simp⟩

theorem rotation_facts {a c : ℝ} (h : a ≠ 0) : 0 < d2norm (real tiny) a c ∧
    (a / d2norm (real tiny) a c) ^ 2 + (c / d2norm (real tiny) a c) ^ 2 = 1 ∧
    a / d2norm (real tiny) a c * d2norm (real tiny) a c = a ∧
    c / d2norm (real tiny) a c * d2norm (real tiny) a c = c ∧ a / d2norm (real tiny) a c ≠ 0 := by
  rw [d2norm_eq]
  have hp : 0 < a ^ 2 + c ^ 2 := by positivity
  have hq : 0 < Real.sqrt (a ^ 2 + c ^ 2) := Real.sqrt_pos.2 hp
  have hs := Real.sq_sqrt hp.le
  generalize Real.sqrt (a ^ 2 + c ^ 2) = r at *
  refine ⟨hq, ?_, by field_simp, by field_simp, div_ne_zero h hq.ne'⟩
  rw [div_pow, div_pow, ← add_div, ← hs]; field_simp

theorem dknorm_eq (t3 : ℝ) (w : Fin n → ℝ) :
    (List.ofFn w).foldl (fun a t => (t3 * t) * (t3 * t) + a) 0 = t3 ^ 2 * (w ⬝ᵥ w) := by
  have h : ∀ (l : List ℝ) (c : ℝ), l.foldl (fun a t => (t3 * t) * (t3 * t) + a) c =
      c + t3 ^ 2 * (l.map (fun x => x * x)).sum := by
    intro l
    induction l with
    | nil => intro c; simp
    | cons x l ih => intro c; rw [List.foldl_cons, ih, List.map_cons, List.sum_cons]; ring
  rw [h, List.map_ofFn, List.sum_ofFn]
  unfold dotProduct
  simp

theorem finrank_grow {S : Submodule ℝ (Fin n → ℝ)} {v : Fin n → ℝ} (hv : v ⬝ᵥ v = 1) (h : ∀ q ∈ S, v ⬝ᵥ q = 0) :
    Module.finrank ℝ (S ⊔ Submodule.span ℝ {v} : Submodule ℝ (Fin n → ℝ)) = Module.finrank ℝ S + 1 := by
  have hv0 : v ≠ 0 := by rintro rfl; simp at hv
  have hdis : S ⊓ Submodule.span ℝ {v} = ⊥ := by
    rw [Submodule.eq_bot_iff]
    intro x hx
    obtain ⟨c, rfl⟩ := Submodule.mem_span_singleton.1 hx.2
    have := h _ hx.1
    rw [dotProduct_smul, hv] at this
    simp at this
    simp [this]
  have := Submodule.finrank_sup_add_finrank_inf_eq S (Submodule.span ℝ {v})
  rw [hdis, finrank_bot, finrank_span_singleton hv0] at this
  simpa using this

variable {PU : Submodule ℝ (Fin m → ℝ)} {PV : Submodule ℝ (Fin n → ℝ)} {tu Ru : Fin m → ℝ} {tv Rv p Z : Fin n → ℝ}

theorem misfit_split {d : ℝ} {x : Fin n → ℝ} {f : ℝ} (h1 : b - A *ᵥ x = f • tu + Ru) (h2 : -(d • x) = f • tv + Rv) :
    Spec.misfit A b d x = f ^ 2 * (tu ⬝ᵥ tu + tv ⬝ᵥ tv) + 2 * f * (tu ⬝ᵥ Ru + tv ⬝ᵥ Rv) + (Ru ⬝ᵥ Ru + Rv ⬝ᵥ Rv) := by
  unfold Spec.misfit
  rw [normSq_dot, normSq_dot]
  have e : d ^ 2 * (x ⬝ᵥ x) = (-(d • x)) ⬝ᵥ (-(d • x)) := by
    simp only [neg_dotProduct, dotProduct_neg, smul_dotProduct, dotProduct_smul, smul_eq_mul]; ring
  rw [e, h1, h2]
  simp only [add_dotProduct, dotProduct_add, smul_dotProduct, dotProduct_smul, smul_eq_mul]
  rw [dotProduct_comm Ru tu, dotProduct_comm Rv tv]
  ring

theorem descent_split {d : ℝ} {x : Fin n → ℝ} {f : ℝ} (h1 : b - A *ᵥ x = f • tu + Ru) (h2 : -(d • x) = f • tv + Rv)
    (h3 : Aᵀ *ᵥ Ru + d • Rv = 0) : Spec.descent A b d x = f • (Aᵀ *ᵥ tu + d • tv) := by
  unfold Spec.descent
  rw [h1, mulVec_add, mulVec_smul]
  linear_combination (norm := module) d • h2 + h3

theorem perp_mem {S : Submodule ℝ (Fin n → ℝ)} {u x : Fin n → ℝ} (h : ∀ q ∈ S, u ⬝ᵥ q = 0) (hx : x ∈ S) : x ⬝ᵥ u = 0 := by
  rw [dotProduct_comm]; exact h x hx

/-- one iteration keeps what is known -/
theorem inv_iterate {P : Products m n ℝ} (hP : IsProduct P A) {o : Settings ℝ} (hd : 0 ≤ o.damp) {s : Lsqr m n ℝ}
    (h : Inv A b o.damp s PU PV tu Ru tv Rv p Z) :
    let t := iterate (real tiny) P o s
    After A b tiny o.damp t (PV ⊔ Submodule.span ℝ {s.vec.v}) ∧
    ((∃ tu' Ru' tv' Rv' p' Z', Inv A b o.damp t (PU ⊔ Submodule.span ℝ {s.vec.u}) (PV ⊔ Submodule.span ℝ {s.vec.v})
      tu' Ru' tv' Rv' p' Z') ∨ t.Arnorm = 0) := by
  have hst := nextVectors_step (tiny := tiny) hP h.gk
  obtain ⟨cs1, sn1, rhbar1, psi, phibar1, hrot, hc1, hr1, hrc1, hrs1, hpsi, hphi1⟩ :=
    rotateDamp_facts (tiny := tiny) (o := o) hd h.rb h.psi0
  unfold iterate
  simp only [hrot]
  generalize hvec : nextVectors (real tiny) P s.vec = vec at *
  obtain ⟨hrho, hcs, hcr, hsr, hc0⟩ := rotation_facts (tiny := tiny) (c := vec.beta) hr1
  generalize d2norm (real tiny) rhbar1 vec.beta = rho at *
  generalize hcse : rhbar1 / rho = cs at *
  generalize hsne : vec.beta / rho = sn at *
  have hgb0 : -s.cs2 * rho ≠ 0 := mul_ne_zero (neg_ne_zero.2 h.cs20) hrho.ne'
  obtain ⟨hgam, hcs2, hgc2, hgs2, hc20⟩ := rotation_facts (tiny := tiny) (c := sn * vec.alpha) hgb0
  generalize d2norm (real tiny) (-s.cs2 * rho) (sn * vec.alpha) = gamma at *
  generalize hgbe : -s.cs2 * rho = gambar at *
  generalize hcs2e : gambar / gamma = cs2 at *
  generalize hsn2e : sn * vec.alpha / gamma = sn2 at *
  have hx' : (fun i => cs * phibar1 / rho * s.w i + s.x i) = (cs * phibar1 / rho) • s.w + s.x := by
    funext i; simp
  have hw' : (fun i => -(sn * vec.alpha) / rho * s.w i + vec.v i) = (-(sn * vec.alpha) / rho) • s.w + vec.v := by
    funext i; simp
  rw [hx', hw']
  -- the coefficients, without division
  have ht1 : cs * phibar1 / rho * rho = cs * phibar1 := by field_simp
  have ht2 : -(sn * vec.alpha) / rho * rho = -(sn * vec.alpha) := by field_simp
  generalize cs * phibar1 / rho = t1 at *
  generalize -(sn * vec.alpha) / rho = t2 at *
  -- the products of the direction
  have hAw : A *ᵥ s.w = (rhbar1 * cs1) • tu + vec.beta • vec.u := by rw [h.Aw, hst.bu, hrc1]
  have hdw : o.damp • s.w = (rhbar1 * cs1) • tv + (rhbar1 * sn1) • s.vec.v := by rw [h.dw, hrs1, hrc1]
  have hr1' : b - A *ᵥ (t1 • s.w + s.x) =
      (sn * phibar1) • (sn • (cs1 • tu) - cs • vec.u) + (Ru + psi • (sn1 • tu)) := by
    have e : b - A *ᵥ (t1 • s.w + s.x) = (b - A *ᵥ s.x) - t1 • (A *ᵥ s.w) := by
      rw [mulVec_add, mulVec_smul]; module
    rw [e, h.r1, hAw, hpsi, hphi1, ← hcr, ← hsr]
    have ht1' := ht1
    rw [hphi1] at ht1'
    linear_combination (norm := module) (-(s.phibar * hc1)) • tu - (ht1' * (cs * cs1)) • tu - (ht1' * sn) • vec.u
      - (cs1 ^ 2 * s.phibar * hcs) • tu
  have hr2' : -(o.damp • (t1 • s.w + s.x)) =
      (sn * phibar1) • (sn • (cs1 • tv + sn1 • s.vec.v)) + (Rv + psi • (sn1 • tv - cs1 • s.vec.v)) := by
    have e : -(o.damp • (t1 • s.w + s.x)) = -(o.damp • s.x) - t1 • (o.damp • s.w) := by module
    rw [e, h.r2, hdw, hpsi, hphi1, ← hcr]
    have ht1' := ht1
    rw [hphi1] at ht1'
    linear_combination (norm := module) (-(s.phibar * hc1)) • tv - (ht1' * (cs * cs1)) • tv - (ht1' * (cs * sn1)) • s.vec.v
      - (cs1 ^ 2 * s.phibar * hcs) • tv - (cs1 * sn1 * s.phibar * hcs) • s.vec.v
  have hR0' : Aᵀ *ᵥ (Ru + psi • (sn1 • tu)) + o.damp • (Rv + psi • (sn1 • tv - cs1 • s.vec.v)) = 0 := by
    have e : Aᵀ *ᵥ (Ru + psi • (sn1 • tu)) + o.damp • (Rv + psi • (sn1 • tv - cs1 • s.vec.v)) =
        (Aᵀ *ᵥ Ru + o.damp • Rv) + (psi * sn1) • (Aᵀ *ᵥ tu + o.damp • tv) - (psi * cs1 * o.damp) • s.vec.v := by
      simp only [mulVec_add, mulVec_smul]; module
    rw [e, h.R0, h.t0, ← hrc1, ← hrs1]; module
  -- scalar products
  have e1 : vec.u ⬝ᵥ tu = 0 := hst.uperp _ h.tuM
  have e2 : vec.u ⬝ᵥ Ru = 0 := hst.uperp _ h.RuM
  have e3 : s.vec.v ⬝ᵥ tv = 0 := h.gk.vp _ h.tvM
  have e4 : s.vec.v ⬝ᵥ Rv = 0 := h.gk.vp _ h.RvM
  have e5 : tv ⬝ᵥ s.vec.v = 0 := by rw [dotProduct_comm]; exact e3
  have e6 : tu ⬝ᵥ vec.u = 0 := by rw [dotProduct_comm]; exact e1
  have e7 : Ru ⬝ᵥ tu = tu ⬝ᵥ Ru := dotProduct_comm _ _
  have e8 : Rv ⬝ᵥ tv = tv ⬝ᵥ Rv := dotProduct_comm _ _
  have e9 : Rv ⬝ᵥ s.vec.v = 0 := by rw [dotProduct_comm]; exact e4
  have hvv := h.gk.vv
  have htt := h.tt
  have htR := h.tR
  have hRR := h.RR
  have hRR' : (Ru + psi • (sn1 • tu)) ⬝ᵥ (Ru + psi • (sn1 • tu)) +
      (Rv + psi • (sn1 • tv - cs1 • s.vec.v)) ⬝ᵥ (Rv + psi • (sn1 • tv - cs1 • s.vec.v)) = s.res2 ^ 2 + psi ^ 2 := by
    simp only [add_dotProduct, dotProduct_add, sub_dotProduct, dotProduct_sub, smul_dotProduct, dotProduct_smul,
      smul_eq_mul, e1, e2, e3, e4, e5, e6, e7, e8, e9, hvv]
    linear_combination hRR + (2 * psi * sn1) * htR + (psi ^ 2 * sn1 ^ 2) * htt + psi ^ 2 * hc1
  have htt' : (sn • (cs1 • tu) - cs • vec.u) ⬝ᵥ (sn • (cs1 • tu) - cs • vec.u) +
      (sn • (cs1 • tv + sn1 • s.vec.v)) ⬝ᵥ (sn • (cs1 • tv + sn1 • s.vec.v)) = sn ^ 2 + cs ^ 2 * (vec.u ⬝ᵥ vec.u) := by
    simp only [add_dotProduct, dotProduct_add, sub_dotProduct, dotProduct_sub, smul_dotProduct, dotProduct_smul,
      smul_eq_mul, e1, e2, e3, e4, e5, e6, e7, e8, e9, hvv]
    linear_combination (sn ^ 2 * cs1 ^ 2) * htt + sn ^ 2 * hc1
  have htR' : (sn • (cs1 • tu) - cs • vec.u) ⬝ᵥ (Ru + psi • (sn1 • tu)) +
      (sn • (cs1 • tv + sn1 • s.vec.v)) ⬝ᵥ (Rv + psi • (sn1 • tv - cs1 • s.vec.v)) = 0 := by
    simp only [add_dotProduct, dotProduct_add, sub_dotProduct, dotProduct_sub, smul_dotProduct, dotProduct_smul,
      smul_eq_mul, e1, e2, e3, e4, e5, e6, e7, e8, e9, hvv]
    linear_combination (sn * cs1) * htR + (sn * cs1 * psi * sn1) * htt
  have hunit : sn * phibar1 ≠ 0 → vec.u ⬝ᵥ vec.u = 1 := by
    intro hne
    apply hst.unitu
    rcases hst.beta0.lt_or_eq with hb | hb
    · exact hb
    · exact absurd (by rw [← hsne, ← hb]; simp) hne
  have hmis : Spec.misfit A b o.damp (t1 • s.w + s.x) = (sn * phibar1) ^ 2 + (s.res2 ^ 2 + psi ^ 2) := by
    rw [misfit_split hr1' hr2', hRR', htR', htt']
    by_cases hne : sn * phibar1 = 0
    · rw [hne]; ring
    · rw [hunit hne]; linear_combination (sn * phibar1) ^ 2 * hcs
  -- the gradient
  have hgrad0 := descent_split hr1' hr2' hR0'
  have ht0' : 0 < vec.beta → Aᵀ *ᵥ (sn • (cs1 • tu) - cs • vec.u) + o.damp • (sn • (cs1 • tv + sn1 • s.vec.v)) =
      (-cs * vec.alpha) • vec.v := by
    intro hb
    have e : Aᵀ *ᵥ (sn • (cs1 • tu) - cs • vec.u) + o.damp • (sn • (cs1 • tv + sn1 • s.vec.v)) =
        (sn * cs1) • (Aᵀ *ᵥ tu + o.damp • tv) + (sn * sn1 * o.damp) • s.vec.v - cs • (Aᵀ *ᵥ vec.u) := by
      simp only [mulVec_sub, mulVec_smul]; module
    have e' : Aᵀ *ᵥ vec.u = vec.alpha • vec.v + vec.beta • s.vec.v := by rw [hst.av hb]; module
    rw [e, h.t0, e', ← hrc1, ← hrs1, ← hcr, ← hsr]
    linear_combination (norm := module) (sn * cs * rho * hc1) • s.vec.v
  have hgrad : Spec.descent A b o.damp (t1 • s.w + s.x) = (sn * phibar1 * (-cs * vec.alpha)) • vec.v := by
    rw [hgrad0]
    rcases hst.beta0.lt_or_eq with hb | hb
    · rw [ht0' hb]; module
    · have : sn = 0 := by rw [← hsne, ← hb]; simp
      rw [this]; simp
  -- the norm of the solution
  have hpw : s.w = -((1 / s.cs2) • p) := by
    rw [h.pw, smul_neg, neg_neg, smul_smul, one_div_mul_cancel h.cs20, one_smul]
  have hzb : (cs * phibar1 - s.sn2 * rho * s.z) / gambar = (s.sn2 * s.z - t1) / s.cs2 := by
    have := h.cs20
    rw [← ht1, ← hgbe]
    field_simp
    ring
  have hz : (cs * phibar1 - s.sn2 * rho * s.z) / gamma = cs2 * ((cs * phibar1 - s.sn2 * rho * s.z) / gambar) := by
    rw [← hcs2e]; field_simp
  have hxz : t1 • s.w + s.x = Z + ((cs * phibar1 - s.sn2 * rho * s.z) / gambar) • p := by
    rw [hzb, h.xZ, hpw]; module
  generalize (cs * phibar1 - s.sn2 * rho * s.z) / gamma = z at *
  generalize (cs * phibar1 - s.sn2 * rho * s.z) / gambar = zb at *
  have hZZ := h.ZZ
  have hpp := h.pp
  have hpZ := h.pZ
  have hZp : Z ⬝ᵥ p = 0 := by rw [dotProduct_comm]; exact hpZ
  have hxx : Spec.normSq (t1 • s.w + s.x) = s.xnorm1 ^ 2 + zb ^ 2 := by
    rw [normSq_dot, hxz]
    simp only [add_dotProduct, dotProduct_add, smul_dotProduct, dotProduct_smul, smul_eq_mul, hZZ, hpp, hpZ, hZp]
    ring
  have hxM : t1 • s.w + s.x ∈ PV ⊔ Submodule.span ℝ {s.vec.v} :=
    Submodule.add_mem _ (Submodule.smul_mem _ _ h.wM) (Submodule.mem_sup_left h.xM)
  have hdim : Module.finrank ℝ (PV ⊔ Submodule.span ℝ {s.vec.v} : Submodule ℝ (Fin n → ℝ)) = s.itn + 1 := by
    rw [finrank_grow hvv h.gk.vp, h.dim]
  have hAn : 0 < d2norm (real tiny) s.Anorm (d2norm (real tiny) (d2norm (real tiny) s.vec.alpha vec.beta) o.damp) := by
    have := h.gk.pos
    have h1 : 0 < d2norm (real tiny) s.vec.alpha vec.beta := by
      rw [d2norm_eq]; positivity
    have h2 : 0 < d2norm (real tiny) (d2norm (real tiny) s.vec.alpha vec.beta) o.damp := by
      rw [d2norm_eq _ o.damp]; positivity
    rw [d2norm_eq s.Anorm]; positivity
  have hww : 0 < s.w ⬝ᵥ s.w := by
    rcases (dot_nonneg s.w).lt_or_eq with h0 | h0
    · exact h0
    · have hw0 := dot_self_zero h0.symm
      have : p = 0 := by rw [h.pw, hw0]; simp
      rw [this] at hpp; simp at hpp
  have hDn : 0 < d2norm (real tiny) s.dnorm
      ((real tiny).sqrt (List.foldl (fun a t => 1 / rho * t * (1 / rho * t) + a) 0 (List.ofFn s.w))) := by
    rw [dknorm_eq, d2norm_eq]
    have : 0 < (real tiny).sqrt ((1 / rho) ^ 2 * (s.w ⬝ᵥ s.w)) := Real.sqrt_pos.2 (by positivity)
    positivity
  generalize d2norm (real tiny) s.dnorm
      ((real tiny).sqrt (List.foldl (fun a t => 1 / rho * t * (1 / rho * t) + a) 0 (List.ofFn s.w))) = dnorm at *
  generalize d2norm (real tiny) s.Anorm (d2norm (real tiny) (d2norm (real tiny) s.vec.alpha vec.beta) o.damp) = Anorm at *
  have hres : d2norm (real tiny) s.res2 psi ^ 2 = s.res2 ^ 2 + psi ^ 2 := by
    rw [d2norm_eq, Real.sq_sqrt (by positivity)]
  have hxn1 : d2norm (real tiny) s.xnorm1 z ^ 2 = s.xnorm1 ^ 2 + z ^ 2 := by
    rw [d2norm_eq, Real.sq_sqrt (by positivity)]
  have hvperp : 0 < vec.beta → ∀ q ∈ PV ⊔ Submodule.span ℝ {s.vec.v}, vec.v ⬝ᵥ q = 0 := hst.vperp
  have hsnb : vec.beta = 0 → sn = 0 := by intro h0; rw [← hsne, h0]; simp
  refine ⟨⟨?_, ?_, ?_, hxM, ?_, hdim, hrho, hgam, hgb0, hAn, mul_pos hAn hDn, h.bb, h.bpos⟩, ?_⟩
  · rw [hmis]
    simp only
    rw [d2norm_eq _ (sn * phibar1), hres, add_comm (_ + _)]
    rfl
  · simp only [hgrad]
    have h0 := hst.alpha0
    rw [normSq_dot, smul_dotProduct, dotProduct_smul, smul_eq_mul, smul_eq_mul]
    have hvu : sn * phibar1 * (-cs * vec.alpha) ≠ 0 → vec.v ⬝ᵥ vec.v = 1 := by
      intro hne
      apply hst.unitv
      rcases h0.lt_or_eq with h1 | h1
      · exact h1
      · exact absurd (by rw [← h1]; ring) hne
    by_cases hne : sn * phibar1 * (-cs * vec.alpha) = 0
    · rw [hne]
      have : vec.alpha * |sn * (cs * phibar1)| = |sn * phibar1 * (-cs * vec.alpha)| := by
        conv_lhs => rw [← abs_of_nonneg h0]
        rw [← abs_mul, ← abs_neg]; congr 1; ring
      simp only [real]
      rw [this, hne]; simp
    · rw [hvu hne]
      have e : sn * phibar1 * (-cs * vec.alpha) * (sn * phibar1 * (-cs * vec.alpha) * 1) =
          (vec.alpha * |sn * (cs * phibar1)|) ^ 2 := by
        rw [mul_pow, sq_abs]; ring
      rw [e, Real.sqrt_sq (by positivity)]
      rfl
  · simp only [hxx]
    rw [d2norm_eq]
  · intro q hq
    simp only [hgrad, smul_dotProduct, smul_eq_mul]
    rcases hst.beta0.lt_or_eq with hb | hb
    · rw [hvperp hb q hq, mul_zero]
    · rw [hsnb hb.symm]; ring
  · by_cases hb : 0 < vec.beta
    swap
    · right
      have : sn = 0 := hsnb (le_antisymm (not_lt.1 hb) hst.beta0)
      simp [this, real]
    by_cases ha : 0 < vec.alpha
    swap
    · right
      have : vec.alpha = 0 := le_antisymm (not_lt.1 ha) hst.alpha0
      simp [this]
    left
    have hn := hst.next hb ha
    have hun := hst.unitu hb
    have hvn := hst.unitv ha
    have hsM : ∀ q ∈ PV ⊔ Submodule.span ℝ {s.vec.v}, q ∈ PV ⊔ Submodule.span ℝ {s.vec.v} ⊔ Submodule.span ℝ {vec.v} :=
      fun q hq => Submodule.mem_sup_left hq
    have hvM : s.vec.v ∈ PV ⊔ Submodule.span ℝ {s.vec.v} := by simpa using self_mem_sup (S := PV) (y := s.vec.v) 1
    have hv'M : vec.v ∈ PV ⊔ Submodule.span ℝ {s.vec.v} ⊔ Submodule.span ℝ {vec.v} := by
      simpa using self_mem_sup (S := PV ⊔ Submodule.span ℝ {s.vec.v}) (y := vec.v) 1
    have hu'M : vec.u ∈ PU ⊔ Submodule.span ℝ {s.vec.u} ⊔ Submodule.span ℝ {vec.u} := by
      simpa using self_mem_sup (S := PU ⊔ Submodule.span ℝ {s.vec.u}) (y := vec.u) 1
    have htuM := Submodule.mem_sup_left (T := Submodule.span ℝ {vec.u}) h.tuM
    have hRuM := Submodule.mem_sup_left (T := Submodule.span ℝ {vec.u}) h.RuM
    have htvM := Submodule.mem_sup_left (T := Submodule.span ℝ {s.vec.v}) h.tvM
    have hRvM := Submodule.mem_sup_left (T := Submodule.span ℝ {s.vec.v}) h.RvM
    have hpv : vec.v ⬝ᵥ p = 0 := hvperp hb p h.pM
    have hvp : p ⬝ᵥ vec.v = 0 := by rw [dotProduct_comm]; exact hpv
    have hZv : vec.v ⬝ᵥ Z = 0 := hvperp hb Z h.ZM
    have hvZ : Z ⬝ᵥ vec.v = 0 := by rw [dotProduct_comm]; exact hZv
    refine ⟨sn • (cs1 • tu) - cs • vec.u, Ru + psi • (sn1 • tu), sn • (cs1 • tv + sn1 • s.vec.v),
      Rv + psi • (sn1 • tv - cs1 • s.vec.v), sn2 • p - cs2 • vec.v, Z + z • (cs2 • p + sn2 • vec.v),
      ⟨hn, h.bb, h.bpos, hr1', hr2', ht0' hb, hR0', ?_, ?_, ?_, ?_, ?_, htR', ?_, ?_, ?_, ?_, ?_, hc20, ?_, ?_, ?_, ?_,
        ?_, ?_, ?_, hxM, ?_, hdim, hAn.le⟩⟩
    · exact Submodule.sub_mem _ (Submodule.smul_mem _ _ (Submodule.smul_mem _ _ htuM)) (Submodule.smul_mem _ _ hu'M)
    · exact Submodule.add_mem _ hRuM (Submodule.smul_mem _ _ (Submodule.smul_mem _ _ htuM))
    · exact Submodule.smul_mem _ _ (Submodule.add_mem _ (Submodule.smul_mem _ _ htvM) (Submodule.smul_mem _ _ hvM))
    · exact Submodule.add_mem _ hRvM (Submodule.smul_mem _ _
        (Submodule.sub_mem _ (Submodule.smul_mem _ _ htvM) (Submodule.smul_mem _ _ hvM)))
    · rw [htt', hun]; linear_combination hcs
    · simp only; rw [hRR', hres]
    · simp only
      rw [mulVec_add, mulVec_smul, hAw, ← hcr, ← hsr]
      linear_combination (norm := module) (ht2 * (cs * cs1)) • tu + (ht2 * sn) • vec.u
        - (vec.alpha * hcs) • vec.u
    · simp only
      rw [smul_add, smul_comm, hdw, ← hcr]
      linear_combination (norm := module) (ht2 * (cs * cs1)) • tv + (ht2 * (cs * sn1)) • s.vec.v
    · exact mul_ne_zero (neg_ne_zero.2 hc0) ha.ne'
    · intro hd0
      simp only
      rw [hpsi]
      have : sn1 = 0 := by
        rw [hd0] at hrs1
        exact (mul_eq_zero.1 hrs1).resolve_left hr1
      rw [this]; ring
    · simp only
      rw [hpw]
      have e : sn2 = cs2 * t2 * (1 / s.cs2) := by
        have := h.cs20
        have h1 : gamma * (sn2 * s.cs2) = gamma * (cs2 * t2) := by
          linear_combination s.cs2 * hgs2 - t2 * hgc2 + s.cs2 * ht2 + t2 * hgbe
        have h2 := mul_left_cancel₀ hgam.ne' h1
        field_simp; linarith
      rw [e]
      have := h.cs20
      module
    · simp only
      rw [hxz, hz]
      have e : sn2 * (cs2 * zb) / cs2 = sn2 * zb := by field_simp
      rw [e]
      linear_combination (norm := module) (-(zb * hcs2)) • p
    · exact Submodule.sub_mem _ (Submodule.smul_mem _ _ (hsM _ h.pM)) (Submodule.smul_mem _ _ hv'M)
    · exact Submodule.add_mem _ (hsM _ h.ZM) (Submodule.smul_mem _ _
        (Submodule.add_mem _ (Submodule.smul_mem _ _ (hsM _ h.pM)) (Submodule.smul_mem _ _ hv'M)))
    · simp only [add_dotProduct, dotProduct_add, sub_dotProduct, dotProduct_sub, smul_dotProduct, dotProduct_smul,
        smul_eq_mul, hpp, hpv, hvp, hvn]
      linear_combination hcs2
    · simp only [add_dotProduct, dotProduct_add, sub_dotProduct, dotProduct_sub, smul_dotProduct, dotProduct_smul,
        smul_eq_mul, hpp, hpv, hvp, hvn, hpZ, hZv]
      ring
    · simp only [hxn1, add_dotProduct, dotProduct_add, sub_dotProduct, dotProduct_sub, smul_dotProduct, dotProduct_smul,
        smul_eq_mul, hpp, hpv, hvp, hvn, hpZ, hZp, hZv, hvZ, hZZ]
      linear_combination z ^ 2 * hcs2
    · exact Submodule.add_mem _ (hsM _ (Submodule.smul_mem _ _ h.wM)) hv'M

/-- the estimate of the matrix norm counts what the matrix does on `PV`; `pr` projects on it -/
structure InvN (A : Matrix (Fin m) (Fin n) ℝ) (d : ℝ) (s : Lsqr m n ℝ) (PV : Submodule ℝ (Fin n → ℝ))
    (pr : (Fin n → ℝ) → (Fin n → ℝ)) : Prop where
  prM : ∀ y, pr y ∈ PV
  prP : ∀ y, ∀ q ∈ PV, (y - pr y) ⬝ᵥ q = 0
  an : s.Anorm ^ 2 = (∑ i, pr (A i) ⬝ᵥ pr (A i)) + s.itn * d ^ 2

theorem InvN.bound {d : ℝ} {s : Lsqr m n ℝ} {pr} (h : InvN A d s PV pr) (h0 : 0 ≤ s.Anorm) :
    s.Anorm ≤ Real.sqrt (Spec.frobSq A + s.itn * d ^ 2) := by
  apply Real.le_sqrt_of_sq_le
  rw [h.an]
  unfold Spec.frobSq
  have : ∀ y, pr y ⬝ᵥ pr y ≤ Spec.normSq y := by
    intro y
    rw [normSq_dot]
    have h1 := h.prP y (pr y) (h.prM y)
    have h2 := dot_nonneg (y - pr y)
    have e : y ⬝ᵥ y = (y - pr y) ⬝ᵥ (y - pr y) + 2 * ((y - pr y) ⬝ᵥ pr y) + pr y ⬝ᵥ pr y := by
      simp only [sub_dotProduct, dotProduct_sub]
      rw [dotProduct_comm (pr y) y]; ring
    linarith
  have := Finset.sum_le_sum (fun i (_ : i ∈ Finset.univ) => this (A i))
  linarith

theorem invN_iterate {P : Products m n ℝ} (hP : IsProduct P A) {o : Settings ℝ} {s : Lsqr m n ℝ}
    (h : Inv A b o.damp s PU PV tu Ru tv Rv p Z) {pr} (hN : InvN A o.damp s PV pr) :
    InvN A o.damp (iterate (real tiny) P o s) (PV ⊔ Submodule.span ℝ {s.vec.v}) (fun y => pr y + (y ⬝ᵥ s.vec.v) • s.vec.v) := by
  have hst := nextVectors_step (tiny := tiny) hP h.gk
  have hvv := h.gk.vv
  have hvp := h.gk.vp
  have hpv : ∀ q ∈ PV, q ⬝ᵥ s.vec.v = 0 := fun q hq => by rw [dotProduct_comm]; exact hvp q hq
  refine ⟨fun y => mem_sup_span (hN.prM y) _, ?_, ?_⟩
  · intro y
    apply perp_sup
    · intro q hq
      have e : y - (pr y + (y ⬝ᵥ s.vec.v) • s.vec.v) = (y - pr y) - (y ⬝ᵥ s.vec.v) • s.vec.v := by module
      rw [e, sub_dotProduct, hN.prP y q hq, smul_dotProduct, hvp q hq]; simp
    · rw [sub_dotProduct, add_dotProduct, hpv _ (hN.prM y), smul_dotProduct, hvv]; simp
  · have e1 : ∀ y, (pr y + (y ⬝ᵥ s.vec.v) • s.vec.v) ⬝ᵥ (pr y + (y ⬝ᵥ s.vec.v) • s.vec.v) =
        pr y ⬝ᵥ pr y + (y ⬝ᵥ s.vec.v) ^ 2 := by
      intro y
      simp only [add_dotProduct, dotProduct_add, smul_dotProduct, dotProduct_smul, smul_eq_mul, hpv _ (hN.prM y),
        hvp _ (hN.prM y), hvv]
      ring
    simp only [e1]
    rw [Finset.sum_add_distrib]
    have e2 : ∑ i, (A i ⬝ᵥ s.vec.v) ^ 2 = A *ᵥ s.vec.v ⬝ᵥ A *ᵥ s.vec.v := by
      unfold dotProduct mulVec
      exact Finset.sum_congr rfl (fun i _ => sq _)
    have e3 : A *ᵥ s.vec.v = s.vec.alpha • s.vec.u + (nextVectors (real tiny) P s.vec).beta • (nextVectors (real tiny) P s.vec).u := by
      rw [hst.bu]; module
    have e4 : A *ᵥ s.vec.v ⬝ᵥ A *ᵥ s.vec.v = s.vec.alpha ^ 2 + (nextVectors (real tiny) P s.vec).beta ^ 2 := by
      have hu : (nextVectors (real tiny) P s.vec).u ⬝ᵥ s.vec.u = 0 :=
        hst.uperp _ (by simpa using self_mem_sup (S := PU) (y := s.vec.u) 1)
      have hu' : s.vec.u ⬝ᵥ (nextVectors (real tiny) P s.vec).u = 0 := by rw [dotProduct_comm]; exact hu
      rw [e3]
      simp only [add_dotProduct, dotProduct_add, smul_dotProduct, dotProduct_smul, smul_eq_mul, hu, hu', h.gk.uu]
      rcases hst.beta0.lt_or_eq with hb | hb
      · rw [hst.unitu hb]; ring
      · rw [← hb]; ring
    rw [e2, e4]
    have e5 : (iterate (real tiny) P o s).Anorm = d2norm (real tiny) s.Anorm
        (d2norm (real tiny) (d2norm (real tiny) s.vec.alpha (nextVectors (real tiny) P s.vec).beta) o.damp) := rfl
    have e6 : (iterate (real tiny) P o s).itn = s.itn + 1 := rfl
    rw [e5, e6, d2norm_eq, Real.sq_sqrt (by positivity), d2norm_eq _ o.damp, Real.sq_sqrt (by positivity), d2norm_eq,
      Real.sq_sqrt (by positivity), hN.an]
    push_cast
    ring

theorem invN_start {P : Products m n ℝ} (d : ℝ) : InvN A d (start (real tiny) P b) ⊥ (fun _ => 0) := by
  refine ⟨fun _ => Submodule.zero_mem _, ?_, ?_⟩
  · intro y q hq; rw [(Submodule.mem_bot ℝ).1 hq]; simp
  · simp [start]

/-- the state before the first iteration -/
theorem inv_start {P : Products m n ℝ} (hP : IsProduct P A) (d : ℝ) :
    let s := start (real tiny) P b
    (s.Arnorm = 0 → Spec.descent A b d 0 = 0) ∧
    (s.Arnorm ≠ 0 → Inv A b d s ⊥ ⊥ s.vec.u 0 0 0 s.vec.v 0) := by
  have hf := firstVectors_gk (tiny := tiny) hP b
  unfold start
  simp only at hf ⊢
  generalize firstVectors (real tiny) P b = s at *
  obtain ⟨ha0, hb0, hbb, hbu, hz, hgk⟩ := hf
  refine ⟨fun h0 => ?_, fun h0 => ?_⟩
  · unfold Spec.descent
    simp [hz h0]
  · have hg := hgk h0
    have hx0 : (fun _ => 0 : Fin n → ℝ) = 0 := rfl
    have hu : s.u ∈ (⊥ : Submodule ℝ (Fin m → ℝ)) ⊔ Submodule.span ℝ {s.u} := by
      simpa using self_mem_sup (S := (⊥ : Submodule ℝ (Fin m → ℝ))) (y := s.u) 1
    have hv : s.v ∈ (⊥ : Submodule ℝ (Fin n → ℝ)) ⊔ Submodule.span ℝ {s.v} := by
      simpa using self_mem_sup (S := (⊥ : Submodule ℝ (Fin n → ℝ))) (y := s.v) 1
    obtain ⟨q, hq, hAtu⟩ := hg.Atu
    rw [(Submodule.mem_bot ℝ).1 hq, add_zero] at hAtu
    refine ⟨hg, hbb, lt_of_le_of_ne hb0 (fun h => h0 (by have h' : 0 = s.beta := h; rw [← h']; ring)), ?_, ?_, ?_, ?_, hu, Submodule.zero_mem _,
      Submodule.zero_mem _, Submodule.zero_mem _, ?_, ?_, ?_, ?_, ?_, hg.pos.ne', ?_, ?_, ?_, ?_, hv,
      Submodule.zero_mem _, hg.vv, ?_, ?_, ?_, hv, ?_, ?_⟩ <;> try simp only [hx0]
    · simp [hbu]
    · simp
    · simpa using hAtu
    · simp
    · simp [hg.uu]
    · simp
    · simp
    · simp
    · simp
    · simp
    · simp
    · simp
    · simp
    · simp
    · simp
    · exact Submodule.zero_mem _
    · exact finrank_bot ℝ _
    · simp

/-- the solutions tried span the Krylov subspace -/
structure InvK (A : Matrix (Fin m) (Fin n) ℝ) (b : Fin m → ℝ) (s : Lsqr m n ℝ) (PV : Submodule ℝ (Fin n → ℝ)) : Prop where
  before : ∀ j < s.itn, Spec.krylov A b j ∈ PV
  now : Spec.krylov A b s.itn ∈ PV ⊔ Submodule.span ℝ {s.vec.v}

theorem gk_maps {alpha : ℝ} {u : Fin m → ℝ} {v : Fin n → ℝ} (h : GK A PU PV alpha u v) {q : Fin n → ℝ} (hq : q ∈ PV) :
    Aᵀ *ᵥ (A *ᵥ q) ∈ PV ⊔ Submodule.span ℝ {v} := by
  obtain ⟨y, hy, z, hz, e⟩ := Submodule.mem_sup.1 (h.Ap q hq)
  obtain ⟨c, rfl⟩ := Submodule.mem_span_singleton.1 hz
  obtain ⟨w, hw, hu⟩ := h.Atu
  rw [← e, mulVec_add, mulVec_smul, hu]
  have e2 : Aᵀ *ᵥ y + c • (alpha • v + w) = (Aᵀ *ᵥ y + c • w) + (c * alpha) • v := by module
  rw [e2]
  exact mem_sup_span (Submodule.add_mem _ (h.Atp y hy) (Submodule.smul_mem _ _ hw)) _

theorem invK_iterate {F : Fns ℝ} {P : Products m n ℝ} {o : Settings ℝ} {s : Lsqr m n ℝ} (h : InvK A b s PV) :
    (∀ j < (iterate F P o s).itn, Spec.krylov A b j ∈ PV ⊔ Submodule.span ℝ {s.vec.v}) ∧
    (∀ PU', GK A PU' (PV ⊔ Submodule.span ℝ {s.vec.v}) (iterate F P o s).vec.alpha (iterate F P o s).vec.u
      (iterate F P o s).vec.v → InvK A b (iterate F P o s) (PV ⊔ Submodule.span ℝ {s.vec.v})) := by
  have hitn : (iterate F P o s).itn = s.itn + 1 := rfl
  have h1 : ∀ j < (iterate F P o s).itn, Spec.krylov A b j ∈ PV ⊔ Submodule.span ℝ {s.vec.v} := by
    intro j hj
    rw [hitn] at hj
    rcases Nat.lt_succ_iff_lt_or_eq.1 hj with h2 | h2
    · exact Submodule.mem_sup_left (h.before j h2)
    · rw [h2]; exact h.now
  refine ⟨h1, fun PU' hg => ⟨h1, ?_⟩⟩
  rw [hitn]
  exact gk_maps hg h.now

theorem invK_start {P : Products m n ℝ} (hP : IsProduct P A) (h0 : (start (real tiny) P b).Arnorm ≠ 0) :
    InvK A b (start (real tiny) P b) ⊥ := by
  obtain ⟨-, hi⟩ := inv_start (tiny := tiny) (b := b) hP 0
  have hi := hi h0
  refine ⟨fun j hj => absurd hj (Nat.not_lt_zero j), ?_⟩
  have h1 := hi.r1
  have h2 := hi.t0
  have e1 : (start (real tiny) P b).x = 0 := rfl
  have e2 : (start (real tiny) P b).itn = 0 := rfl
  rw [e1, mulVec_zero, sub_zero, add_zero] at h1
  rw [smul_zero, add_zero] at h2
  have h3 := congrArg (fun z => Aᵀ *ᵥ z) h1
  simp only [mulVec_smul, h2, smul_smul] at h3
  rw [e2]
  unfold Spec.krylov
  rw [h3]
  exact self_mem_sup _

/-- the loop of a solve that met its limit of iterations or converged -/
theorem loop_spec {P : Products m n ℝ} (hP : IsProduct P A) {o : Settings ℝ} (hd : 0 ≤ o.damp) (ha : 0 ≤ o.atol)
    (ht : 0 < tiny) :
    ∀ (fuel : Nat) (s : Lsqr m n ℝ) (PU PV) (tu Ru tv Rv p Z),
      Inv A b o.damp s PU PV tu Ru tv Rv p Z → (∃ pr, InvN A o.damp s PV pr) → InvK A b s PV → n ≤ fuel + s.itn →
      ∃ t u, loop (real tiny) P o fuel s = some t ∧ t = iterate (real tiny) P o u ∧ t.istop ≠ 0 ∧
        t.itn ≤ n ∧ s.itn < t.itn ∧ (∀ q, s.itn < q → o.itnlim ≤ q → t.itn ≤ q) ∧
        ∃ PV', After A b tiny o.damp t PV' ∧ t.Anorm ≤ Real.sqrt (Spec.frobSq A + t.itn * o.damp ^ 2) ∧
          ∀ j < t.itn, Spec.krylov A b j ∈ PV' := by
  intro fuel
  induction fuel with
  | zero =>
    intro s PU PV tu Ru tv Rv p Z h hN hK hn
    exfalso
    have := finrank_grow h.gk.vv h.gk.vp
    rw [h.dim] at this
    have h2 := Submodule.finrank_le (PV ⊔ Submodule.span ℝ {s.vec.v})
    rw [this, Module.finrank_fin_fun] at h2
    omega
  | succ fuel ih =>
    intro s PU PV tu Ru tv Rv p Z h hN hK hn
    obtain ⟨pr, hN⟩ := hN
    have hN' := invN_iterate (tiny := tiny) hP h hN
    obtain ⟨hA, hI⟩ := inv_iterate (tiny := tiny) hP hd h
    have hle : (iterate (real tiny) P o s).itn ≤ n := by
      rw [← hA.dim]
      have h2 := Submodule.finrank_le (PV ⊔ Submodule.span ℝ {s.vec.v})
      rwa [Module.finrank_fin_fun] at h2
    have hitn : (iterate (real tiny) P o s).itn = s.itn + 1 := rfl
    unfold loop
    simp only
    by_cases hs : (iterate (real tiny) P o s).istop = 0
    · rw [if_pos hs]
      rcases hI with ⟨tu', Ru', tv', Rv', p', Z', hI⟩ | h0
      · obtain ⟨t, u, h1, h2, h3, h4, h5, h6, h7⟩ := ih _ _ _ _ _ _ _ _ _ hI ⟨_, hN'⟩ ((invK_iterate hK).2 _ hI.gk) (by rw [hitn]; omega)
        have hlim : ¬ o.itnlim ≤ s.itn + 1 := by
          intro hc
          have : (iterate (real tiny) P o s).istop = stopReason o (s.itn + 1) _ _ _ _ _ := rfl
          rw [this] at hs
          unfold stopReason at hs
          simp only [hc, if_true] at hs
          split at hs <;> try omega
          split at hs <;> try omega
          split at hs <;> try omega
          split at hs <;> try omega
          split at hs <;> try omega
          split at hs <;> omega
        refine ⟨t, u, h1, h2, h3, h4, by omega, ?_, h7⟩
        intro q hq1 hq2
        exact h6 q (by omega) hq2
      · exfalso
        have e : (iterate (real tiny) P o s).istop = stopReason o (s.itn + 1) _
          ((iterate (real tiny) P o s).Arnorm / ((iterate (real tiny) P o s).Anorm * (iterate (real tiny) P o s).rnorm)) _ _ _ := rfl
        rw [h0, zero_div] at e
        rw [e] at hs
        unfold stopReason at hs
        simp only [ha, if_true] at hs
        split at hs <;> omega
    · rw [if_neg hs]
      exact ⟨_, s, rfl, rfl, hs, hle, by omega, fun q hq _ => by omega, _, hA, hN'.bound hA.an0.le, (invK_iterate hK).1⟩

/-- more fuel changes nothing -/
theorem loop_more {K : Type} [Add K] [Sub K] [Mul K] [Div K] [Neg K] [Zero K] [One K] [BEq K] [LT K] [LE K]
    [DecidableLT K] [DecidableLE K] (F : Fns K) (P : Products m n K) (o : Settings K) :
    ∀ (k : Nat) (s t : Lsqr m n K), loop F P o k s = some t → ∀ j, loop F P o (k + j) s = some t := by
  intro k
  induction k with
  | zero => intro s t h; cases h
  | succ k ih =>
    intro s t h j
    rw [Nat.add_right_comm]
    unfold loop at h ⊢
    simp only at h ⊢
    by_cases hs : (iterate F P o s).istop = 0
    · rw [if_pos hs] at h ⊢; exact ih _ _ h j
    · rw [if_neg hs] at h ⊢; exact h

/-- the limit of iterations ends the loop, whatever the numbers -/
theorem loop_ends {K : Type} [Add K] [Sub K] [Mul K] [Div K] [Neg K] [Zero K] [One K] [BEq K] [LT K] [LE K]
    [DecidableLT K] [DecidableLE K] (F : Fns K) (P : Products m n K) (o : Settings K) :
    ∀ (k : Nat) (s : Lsqr m n K), 0 < k → o.itnlim ≤ s.itn + k →
      ∃ t, loop F P o k s = some t ∧ s.itn < t.itn ∧ t.itn ≤ s.itn + k ∧ 1 ≤ t.istop ∧ t.istop ≤ 5 ∧ t.istop ≠ 3 ∧
        (t.istop = 5 → o.itnlim ≤ t.itn) := by
  intro k
  induction k with
  | zero => intro s h; omega
  | succ k ih =>
    intro s _ hlim
    unfold loop
    simp only
    have hitn : (iterate F P o s).itn = s.itn + 1 := rfl
    have e : ∃ a1 a2 a3 a4 a5, (iterate F P o s).istop = stopReason o (s.itn + 1) a1 a2 a3 a4 a5 := ⟨_, _, _, _, _, rfl⟩
    obtain ⟨a1, a2, a3, a4, a5, e⟩ := e
    have hval : ∀ x, x = stopReason o (s.itn + 1) a1 a2 a3 a4 a5 → (x = 0 → ¬ o.itnlim ≤ s.itn + 1) ∧ x ≤ 5 ∧ x ≠ 3 ∧
        (x = 5 → o.itnlim ≤ s.itn + 1) := by
      intro x hx
      unfold stopReason at hx
      repeat' split at hx
      all_goals subst hx; simp_all
    obtain ⟨v1, v2, v3, v4⟩ := hval _ e
    by_cases hs : (iterate F P o s).istop = 0
    · rw [if_pos hs]
      have hk : 0 < k := by
        rcases Nat.eq_zero_or_pos k with h0 | h0
        · subst h0; exact absurd hlim (v1 hs)
        · exact h0
      obtain ⟨t, h1, h2, h3, h4⟩ := ih (iterate F P o s) hk (by rw [hitn]; omega)
      exact ⟨t, h1, by omega, by omega, h4⟩
    · rw [if_neg hs]
      exact ⟨_, rfl, by omega, by omega, by omega, v2, v3, v4⟩

end Lsqr

/-- the misfit elsewhere -/
theorem misfit_add (d : ℝ) (x y : Fin n → ℝ) : Spec.misfit A b d (x + y) =
    Spec.misfit A b d x - 2 * (Spec.descent A b d x ⬝ᵥ y) + (A *ᵥ y ⬝ᵥ A *ᵥ y + d ^ 2 * (y ⬝ᵥ y)) := by
  unfold Spec.misfit Spec.descent
  simp only [normSq_dot]
  have e : b - A *ᵥ (x + y) = (b - A *ᵥ x) - A *ᵥ y := by rw [mulVec_add]; module
  have e2 : (Aᵀ *ᵥ (b - A *ᵥ x)) ⬝ᵥ y = (b - A *ᵥ x) ⬝ᵥ A *ᵥ y := by
    rw [dotProduct_comm, ← adj, dotProduct_comm]
  rw [e]
  simp only [sub_dotProduct, dotProduct_sub, add_dotProduct, dotProduct_add, smul_dotProduct, dotProduct_smul, smul_eq_mul] at *
  rw [e2]
  rw [dotProduct_comm (A *ᵥ y) b, dotProduct_comm (A *ᵥ y) (A *ᵥ x), dotProduct_comm y x]
  ring

theorem quad_nonneg (d : ℝ) (y : Fin n → ℝ) : 0 ≤ A *ᵥ y ⬝ᵥ A *ᵥ y + d ^ 2 * (y ⬝ᵥ y) := by
  have := dot_nonneg (A *ᵥ y)
  have := dot_nonneg y
  positivity

theorem minimises_of {d : ℝ} {x : Fin n → ℝ} (h : Spec.descent A b d x = 0) : Spec.Minimises A b d x := by
  intro y
  have := misfit_add (A := A) (b := b) d x (y - x)
  rw [h, zero_dotProduct, add_sub_cancel] at this
  have := quad_nonneg (A := A) d (y - x)
  linarith

end Verif.LeastSquares
