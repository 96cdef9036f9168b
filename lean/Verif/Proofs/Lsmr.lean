import Verif.Model.Lsmr
import Verif.Proofs.Lsqr

/-! Lemmas about LSMR, over real numbers. -/

set_option linter.unusedSectionVars false
set_option linter.unusedSimpArgs false

namespace Verif.LeastSquares
open Matrix

variable {m n : Nat} {tiny big : ℝ} {A : Matrix (Fin m) (Fin n) ℝ} {b : Fin m → ℝ}

namespace Lsmr

/-- `taud` of the last iteration (lsmr.cpp:528) -/
noncomputable def taud (s : Lsmr m n ℝ) : ℝ := (s.zeta - s.thetatilde * s.tautildeold) / s.rhodold

/-- what holds before each iteration -/
structure Inv (A : Matrix (Fin m) (Fin n) ℝ) (b : Fin m → ℝ) (d : ℝ) (s : Lsmr m n ℝ)
    (PU : Submodule ℝ (Fin m → ℝ)) (PV : Submodule ℝ (Fin n → ℝ)) (tu Ru fu : Fin m → ℝ) (tv Rv fv p qb : Fin n → ℝ) :
    Prop where
  gk : GK A PU PV s.vec.alpha s.vec.u s.vec.v
  bb : s.normb ^ 2 = b ⬝ᵥ b
  bpos : 0 < s.normb
  r1 : b - A *ᵥ s.x = (s.betad - s.taud) • fu + s.betadd • tu + Ru
  r2 : -(d • s.x) = (s.betad - s.taud) • fv + s.betadd • tv + Rv
  t0 : Aᵀ *ᵥ tu + d • tv = s.alphabar • s.vec.v
  R0 : Aᵀ *ᵥ Ru + d • Rv = 0
  f0 : Aᵀ *ᵥ fu + d • fv = s.rhodold • qb
  tuM : tu ∈ PU ⊔ Submodule.span ℝ {s.vec.u}
  RuM : Ru ∈ PU ⊔ Submodule.span ℝ {s.vec.u}
  fuM : fu ∈ PU ⊔ Submodule.span ℝ {s.vec.u}
  tvM : tv ∈ PV
  RvM : Rv ∈ PV
  fvM : fv ∈ PV
  tt : tu ⬝ᵥ tu + tv ⬝ᵥ tv = 1
  tR : tu ⬝ᵥ Ru + tv ⬝ᵥ Rv = 0
  ft : fu ⬝ᵥ tu + fv ⬝ᵥ tv = 0
  fR : fu ⬝ᵥ Ru + fv ⬝ᵥ Rv = 0
  RR : Ru ⬝ᵥ Ru + Rv ⬝ᵥ Rv = s.d
  ff : s.sbar * (fu ⬝ᵥ fu + fv ⬝ᵥ fv) = s.sbar
  Ah : A *ᵥ s.h = s.alphabar • tu + (A *ᵥ s.vec.v - s.vec.alpha • s.vec.u)
  dh : d • s.h = s.alphabar • tv + d • s.vec.v
  Ahb : A *ᵥ s.hbar = (s.rho * s.rhobar / s.rhodold) • fu
  dhb : d • s.hbar = (s.rho * s.rhobar / s.rhodold) • fv
  vq : s.vec.v = s.sbar • qb + s.cbar • p
  pM : p ∈ PV ⊔ Submodule.span ℝ {s.vec.v}
  pp : p ⬝ᵥ p = 1
  N : s.rhodold * (s.betad - s.taud) + s.betadd * s.alphabar * s.sbar = 0
  g : Spec.descent A b d s.x = s.zetabar • p
  ab0 : 0 < s.alphabar
  rho0 : 0 < s.rho
  rb0 : 0 < s.rhobar
  cb0 : 0 < s.cbar
  rd0 : 0 < s.rhodold
  min0 : 0 < s.minrbar
  dim : Module.finrank ℝ PV = s.itn
  ar : s.normAr = |s.zetabar|

/-- what holds after each iteration, even the last one; `before` is the gradient before it -/
structure After (A : Matrix (Fin m) (Fin n) ℝ) (b : Fin m → ℝ) (d : ℝ) (t : Lsmr m n ℝ) : Prop where
  nr : t.normr = Real.sqrt (Spec.misfit A b d t.x)
  ng : t.normAr = Real.sqrt (Spec.normSq (Spec.descent A b d t.x))
  nx : t.normx = Real.sqrt (Spec.normSq t.x)
  rho0 : 0 < t.rho
  rb0 : 0 < t.rhobar
  rd0 : 0 < t.rhodold
  ac0 : 0 < t.condA
  bb : t.normb ^ 2 = b ⬝ᵥ b
  bpos : 0 < t.normb

variable {PU : Submodule ℝ (Fin m → ℝ)} {PV : Submodule ℝ (Fin n → ℝ)} {tu Ru fu : Fin m → ℝ} {tv Rv fv p qb : Fin n → ℝ}

theorem misfit_split3 {d : ℝ} {x : Fin n → ℝ} {e f : ℝ} (h1 : b - A *ᵥ x = e • fu + f • tu + Ru)
    (h2 : -(d • x) = e • fv + f • tv + Rv) (tR : tu ⬝ᵥ Ru + tv ⬝ᵥ Rv = 0) (ft : fu ⬝ᵥ tu + fv ⬝ᵥ tv = 0)
    (fR : fu ⬝ᵥ Ru + fv ⬝ᵥ Rv = 0) :
    Spec.misfit A b d x = e ^ 2 * (fu ⬝ᵥ fu + fv ⬝ᵥ fv) + f ^ 2 * (tu ⬝ᵥ tu + tv ⬝ᵥ tv) + (Ru ⬝ᵥ Ru + Rv ⬝ᵥ Rv) := by
  unfold Spec.misfit
  rw [normSq_dot, normSq_dot]
  have e' : d ^ 2 * (x ⬝ᵥ x) = (-(d • x)) ⬝ᵥ (-(d • x)) := by
    simp only [neg_dotProduct, dotProduct_neg, smul_dotProduct, dotProduct_smul, smul_eq_mul]; ring
  rw [e', h1, h2]
  simp only [add_dotProduct, dotProduct_add, smul_dotProduct, dotProduct_smul, smul_eq_mul]
  rw [dotProduct_comm Ru tu, dotProduct_comm Rv tv, dotProduct_comm Ru fu, dotProduct_comm Rv fv,
    dotProduct_comm tu fu, dotProduct_comm tv fv]
  linear_combination (2 * f) * tR + (2 * e * f) * ft + (2 * e) * fR

theorem descent_split3 {d : ℝ} {x : Fin n → ℝ} {e f : ℝ} (h1 : b - A *ᵥ x = e • fu + f • tu + Ru)
    (h2 : -(d • x) = e • fv + f • tv + Rv) (h3 : Aᵀ *ᵥ Ru + d • Rv = 0) :
    Spec.descent A b d x = e • (Aᵀ *ᵥ fu + d • fv) + f • (Aᵀ *ᵥ tu + d • tv) := by
  unfold Spec.descent
  rw [h1, mulVec_add, mulVec_add, mulVec_smul, mulVec_smul]
  linear_combination (norm := module) d • h2 + h3

theorem descent_add (d : ℝ) (x y : Fin n → ℝ) (k : ℝ) :
    Spec.descent A b d (x + k • y) = Spec.descent A b d x - k • (Aᵀ *ᵥ (A *ᵥ y) + d • (d • y)) := by
  unfold Spec.descent
  simp only [mulVec_add, mulVec_smul, mulVec_sub]
  module

theorem rotation_pos {a c : ℝ} (h : 0 < a) : 0 < a / d2norm (real tiny) a c :=
  div_pos h (Lsqr.rotation_facts h.ne').1

theorem cmax_pos {a c : ℝ} (h : 0 < c) : 0 < cmax a c := by
  unfold cmax; split <;> linarith

theorem cmin_pos {a c : ℝ} (h1 : 0 < a) (h : 0 < c) : 0 < cmin a c := by
  unfold cmin; split <;> assumption

theorem shrink {c s : ℝ} (h : c ^ 2 + s ^ 2 = 1) (z : ℝ) : |s| * |z| ≤ |z| := by
  have h1 : |s| ≤ 1 := by
    rw [← sq_le_one_iff_abs_le_one]; linarith [sq_nonneg c]
  exact mul_le_of_le_one_left (abs_nonneg z) h1

set_option maxHeartbeats 1600000 in
/-- one iteration keeps what is known -/
theorem inv_iterate {P : Products m n ℝ} (hP : IsProduct P A) {o : Settings ℝ} {s : Lsmr m n ℝ}
    (h : Inv A b o.damp s PU PV tu Ru fu tv Rv fv p qb) :
    let t := iterate (real tiny) P o s
    After A b o.damp t ∧ t.normAr ≤ s.normAr ∧
    ((∃ tu' Ru' fu' tv' Rv' fv' p' qb', Inv A b o.damp t (PU ⊔ Submodule.span ℝ {s.vec.u})
      (PV ⊔ Submodule.span ℝ {s.vec.v}) tu' Ru' fu' tv' Rv' fv' p' qb') ∨ t.normAr = 0) := by
  have hst := nextVectors_step (tiny := tiny) hP h.gk
  unfold iterate
  simp only
  generalize hvec : nextVectors (real tiny) P s.vec = vec at *
  obtain ⟨hah, hc1, hrc1, hrs1, hchat0⟩ := Lsqr.rotation_facts (tiny := tiny) (c := o.damp) h.ab0.ne'
  have hchatp := rotation_pos (tiny := tiny) (c := o.damp) h.ab0
  generalize d2norm (real tiny) s.alphabar o.damp = alphahat at *
  generalize hche : s.alphabar / alphahat = chat at *
  generalize hshe : o.damp / alphahat = shat at *
  obtain ⟨hrho, hcs, hcr, hsr, -⟩ := Lsqr.rotation_facts (tiny := tiny) (c := vec.beta) hah.ne'
  have hcp := rotation_pos (tiny := tiny) (c := vec.beta) hah
  generalize d2norm (real tiny) alphahat vec.beta = rho at *
  generalize hcse : alphahat / rho = cs at *
  generalize hsne : vec.beta / rho = sn at *
  have hrt : 0 < s.cbar * rho := mul_pos h.cb0 hrho
  obtain ⟨hrb, hcb, hcbr, hsbr, -⟩ := Lsqr.rotation_facts (tiny := tiny) (c := sn * vec.alpha) hrt.ne'
  have hcbp := rotation_pos (tiny := tiny) (c := sn * vec.alpha) hrt
  generalize d2norm (real tiny) (s.cbar * rho) (sn * vec.alpha) = rhobar at *
  generalize hcbe : s.cbar * rho / rhobar = cbar at *
  generalize hsbe : sn * vec.alpha / rhobar = sbar at *
  obtain ⟨hrtil, hct, hctr, hstr, -⟩ := Lsqr.rotation_facts (tiny := tiny) (c := s.sbar * rho) h.rd0.ne'
  have hctp := rotation_pos (tiny := tiny) (c := s.sbar * rho) h.rd0
  generalize d2norm (real tiny) s.rhodold (s.sbar * rho) = rhotil at *
  generalize hcte : s.rhodold / rhotil = ct at *
  generalize hste : s.sbar * rho / rhotil = st at *
  have hrd' : 0 < ct * rhobar := mul_pos hctp hrb
  have hhb' : (fun i => s.h i - s.sbar * rho * rho / (s.rho * s.rhobar) * s.hbar i) =
      s.h - (s.sbar * rho * rho / (s.rho * s.rhobar)) • s.hbar := by funext i; simp
  have hx' : (fun i => s.x i + cbar * s.zetabar / (rho * rhobar) * (s.h i - s.sbar * rho * rho / (s.rho * s.rhobar) * s.hbar i)) =
      s.x + (cbar * s.zetabar / (rho * rhobar)) • (s.h - (s.sbar * rho * rho / (s.rho * s.rhobar)) • s.hbar) := by
    funext i; simp
  have hh' : (fun i => vec.v i - sn * vec.alpha / rho * s.h i) = vec.v - (sn * vec.alpha / rho) • s.h := by
    funext i; simp
  rw [hhb', hx', hh']
  -- the direction of the rows
  have hAh : A *ᵥ s.h = rho • (cs • (chat • tu) + sn • vec.u) := by
    rw [h.Ah, ← hst.bu, ← hrc1, ← hcr, ← hsr]; module
  have hdh : o.damp • s.h = rho • (cs • (chat • tv + shat • s.vec.v)) := by
    rw [h.dh, ← hrc1]
    have : o.damp • s.vec.v = (shat * alphahat) • s.vec.v := by rw [hrs1]
    rw [this, ← hcr]; module
  have hq0 : Aᵀ *ᵥ (cs • (chat • tu) + sn • vec.u) + o.damp • (cs • (chat • tv + shat • s.vec.v)) =
      rho • s.vec.v + (sn * vec.alpha) • vec.v := by
    have e : Aᵀ *ᵥ (cs • (chat • tu) + sn • vec.u) + o.damp • (cs • (chat • tv + shat • s.vec.v)) =
        (cs * chat) • (Aᵀ *ᵥ tu + o.damp • tv) + (cs * shat * o.damp) • s.vec.v + sn • (Aᵀ *ᵥ vec.u) := by
      simp only [mulVec_add, mulVec_smul]; module
    rw [e, h.t0]
    have e1 : o.damp = shat * alphahat := hrs1.symm
    rw [e1, ← hrc1]
    rcases hst.beta0.lt_or_eq with hb | hb
    · have e' : Aᵀ *ᵥ vec.u = vec.alpha • vec.v + vec.beta • s.vec.v := by rw [hst.av hb]; module
      rw [e', ← hsr, ← hcr]
      linear_combination (norm := module) (cs ^ 2 * rho * hc1) • s.vec.v + (rho * hcs) • s.vec.v
    · have hs0 : sn = 0 := by rw [← hsne, ← hb]; simp
      have hcs' : cs ^ 2 = 1 := by rw [hs0] at hcs; linear_combination hcs
      rw [hs0, ← hcr]
      linear_combination (norm := module) (cs ^ 2 * rho * hc1) • s.vec.v + (rho * hcs') • s.vec.v
  generalize hqu : cs • (chat • tu) + sn • vec.u = qu at *
  generalize hqv : cs • (chat • tv + shat • s.vec.v) = qv at *
  -- the vectors f, qb
  have hst' : st * s.rhodold = ct * (s.sbar * rho) := by
    have h1 := hrtil.ne'
    rw [← hcte, ← hste]; field_simp
  have hf0' : Aᵀ *ᵥ (ct • qu - st • fu) + o.damp • (ct • qv - st • fv) =
      (ct * rhobar) • (cbar • p + sbar • vec.v) := by
    have e : Aᵀ *ᵥ (ct • qu - st • fu) + o.damp • (ct • qv - st • fv) =
        ct • (Aᵀ *ᵥ qu + o.damp • qv) - st • (Aᵀ *ᵥ fu + o.damp • fv) := by
      simp only [mulVec_sub, mulVec_smul]; module
    rw [e, hq0, h.f0]
    have hvq := h.vq
    linear_combination (norm := module) (ct * rho) • hvq - hst' • qb - (ct * hcbr) • p - (ct * hsbr) • vec.v
  have hrr : s.rho * s.rhobar ≠ 0 := (mul_pos h.rho0 h.rb0).ne'
  have hk : s.sbar * rho * rho / (s.rho * s.rhobar) * (s.rho * s.rhobar / s.rhodold) * ct = rho * st := by
    have h1 := h.rho0.ne'
    have h2 := h.rb0.ne'
    have h3 := h.rd0.ne'
    field_simp
    linear_combination -hst'
  have hk2 : rho * rhobar / (ct * rhobar) * ct = rho := by
    have h1 := hctp.ne'
    have h2 := hrb.ne'
    field_simp
  have hk3 : s.sbar * rho * rho / (s.rho * s.rhobar) * (s.rho * s.rhobar / s.rhodold) = rho * rhobar / (ct * rhobar) * st := by
    apply mul_right_cancel₀ hctp.ne'
    rw [hk]; linear_combination -st * hk2
  have hAhb : A *ᵥ (s.h - (s.sbar * rho * rho / (s.rho * s.rhobar)) • s.hbar) =
      (rho * rhobar / (ct * rhobar)) • (ct • qu - st • fu) := by
    rw [mulVec_sub, mulVec_smul, h.Ahb, hAh]
    linear_combination (norm := module) (-hk2) • qu - hk3 • fu
  have hdhb : o.damp • (s.h - (s.sbar * rho * rho / (s.rho * s.rhobar)) • s.hbar) =
      (rho * rhobar / (ct * rhobar)) • (ct • qv - st • fv) := by
    rw [smul_sub, smul_comm o.damp, h.dhb, hdh]
    linear_combination (norm := module) (-hk2) • qv - hk3 • fv
  -- the gradient
  have hgrad : Spec.descent A b o.damp
      (s.x + (cbar * s.zetabar / (rho * rhobar)) • (s.h - (s.sbar * rho * rho / (s.rho * s.rhobar)) • s.hbar)) =
      (-sbar * s.zetabar) • (cbar • vec.v - sbar • p) := by
    rw [descent_add, h.g, hAhb, hdhb, mulVec_smul, smul_comm o.damp, ← smul_add, hf0']
    have e1 : cbar * s.zetabar / (rho * rhobar) * (rho * rhobar / (ct * rhobar)) * (ct * rhobar) = cbar * s.zetabar := by
      have h1 := hctp.ne'
      have h2 := hrb.ne'
      field_simp
    linear_combination (norm := module) (-e1 * cbar) • p - (e1 * sbar) • vec.v - (s.zetabar * hcb) • p
  -- the residual
  have hE0 : ct * (s.betad - s.taud) + st * (cs * (chat * s.betadd)) = 0 := by
    have h1 : rhotil * (ct * (s.betad - s.taud) + st * (cs * (chat * s.betadd))) = 0 := by
      linear_combination (s.betad - s.taud) * hctr + (cs * (chat * s.betadd)) * hstr + h.N +
        (s.sbar * chat * s.betadd) * hcr + (s.sbar * s.betadd) * hrc1
    exact (mul_eq_zero.1 h1).resolve_left hrtil.ne'
  have htau : (cbar * s.zetabar - st * rhobar * ((s.zeta - s.thetatilde * s.tautildeold) / rhotil)) / (ct * rhobar) =
      cbar * s.zetabar / (ct * rhobar) - st * s.taud := by
    have h1 := hctp.ne'
    have h2 := hrb.ne'
    have h3 := hrtil.ne'
    have h4 := h.rd0.ne'
    unfold taud
    rw [← hctr]
    field_simp
  have hkz : cbar * s.zetabar / (rho * rhobar) * (rho * rhobar / (ct * rhobar)) = cbar * s.zetabar / (ct * rhobar) := by
    have h1 := hctp.ne'
    have h2 := hrb.ne'
    field_simp
  have hr1' : b - A *ᵥ (s.x + (cbar * s.zetabar / (rho * rhobar)) • (s.h - (s.sbar * rho * rho / (s.rho * s.rhobar)) • s.hbar)) =
      (-st * s.betad + ct * (cs * (chat * s.betadd)) -
        (cbar * s.zetabar - st * rhobar * ((s.zeta - s.thetatilde * s.tautildeold) / rhotil)) / (ct * rhobar)) • (ct • qu - st • fu) +
      (-sn * (chat * s.betadd)) • (cs • vec.u - sn • (chat • tu)) + (Ru - (-shat * s.betadd) • (shat • tu)) := by
    rw [mulVec_add, mulVec_smul, hAhb, htau]
    have e : b - (A *ᵥ s.x + (cbar * s.zetabar / (rho * rhobar)) • (rho * rhobar / (ct * rhobar)) • (ct • qu - st • fu)) =
        (b - A *ᵥ s.x) - (cbar * s.zetabar / (rho * rhobar) * (rho * rhobar / (ct * rhobar))) • (ct • qu - st • fu) := by
      module
    rw [e, h.r1, hkz, ← hqu]
    linear_combination (norm := module) (hE0 * ct) • fu + (hE0 * st) • (cs • (chat • tu) + sn • vec.u)
      - ((s.betad - s.taud) * hct) • fu - (cs * chat * s.betadd * hct) • (cs • (chat • tu) + sn • vec.u)
      - (chat * s.betadd * hcs * chat) • tu - (s.betadd * hc1) • tu
  have hr2' : -(o.damp • (s.x + (cbar * s.zetabar / (rho * rhobar)) • (s.h - (s.sbar * rho * rho / (s.rho * s.rhobar)) • s.hbar))) =
      (-st * s.betad + ct * (cs * (chat * s.betadd)) -
        (cbar * s.zetabar - st * rhobar * ((s.zeta - s.thetatilde * s.tautildeold) / rhotil)) / (ct * rhobar)) • (ct • qv - st • fv) +
      (-sn * (chat * s.betadd)) • (-(sn • (chat • tv + shat • s.vec.v))) + (Rv + (-shat * s.betadd) • (chat • s.vec.v - shat • tv)) := by
    rw [smul_add, smul_comm o.damp, hdhb, htau]
    have e : -(o.damp • s.x + (cbar * s.zetabar / (rho * rhobar)) • (rho * rhobar / (ct * rhobar)) • (ct • qv - st • fv)) =
        -(o.damp • s.x) - (cbar * s.zetabar / (rho * rhobar) * (rho * rhobar / (ct * rhobar))) • (ct • qv - st • fv) := by
      module
    rw [e, h.r2, hkz, ← hqv]
    linear_combination (norm := module) (hE0 * ct) • fv + (hE0 * st) • (cs • (chat • tv + shat • s.vec.v))
      - ((s.betad - s.taud) * hct) • fv - (cs * chat * s.betadd * hct) • (cs • (chat • tv + shat • s.vec.v))
      - (chat * s.betadd * hcs) • (chat • tv + shat • s.vec.v) - (s.betadd * hc1) • tv
  have hR0' : Aᵀ *ᵥ (Ru - (-shat * s.betadd) • (shat • tu)) + o.damp • (Rv + (-shat * s.betadd) • (chat • s.vec.v - shat • tv)) = 0 := by
    have e : Aᵀ *ᵥ (Ru - (-shat * s.betadd) • (shat • tu)) + o.damp • (Rv + (-shat * s.betadd) • (chat • s.vec.v - shat • tv)) =
        (Aᵀ *ᵥ Ru + o.damp • Rv) + (-shat * s.betadd) • ((chat * o.damp) • s.vec.v - shat • (Aᵀ *ᵥ tu + o.damp • tv)) := by
      simp only [mulVec_add, mulVec_sub, mulVec_smul]; module
    rw [e, h.R0, h.t0, ← hrc1]
    have e1 : o.damp = shat * alphahat := hrs1.symm
    rw [e1]; module
  -- scalar products
  have e1 : vec.u ⬝ᵥ tu = 0 := hst.uperp _ h.tuM
  have e2 : vec.u ⬝ᵥ Ru = 0 := hst.uperp _ h.RuM
  have e3 : vec.u ⬝ᵥ fu = 0 := hst.uperp _ h.fuM
  have e4 : s.vec.v ⬝ᵥ tv = 0 := h.gk.vp _ h.tvM
  have e5 : s.vec.v ⬝ᵥ Rv = 0 := h.gk.vp _ h.RvM
  have e6 : s.vec.v ⬝ᵥ fv = 0 := h.gk.vp _ h.fvM
  have e7 : tu ⬝ᵥ vec.u = 0 := by rw [dotProduct_comm]; exact e1
  have e8 : Ru ⬝ᵥ vec.u = 0 := by rw [dotProduct_comm]; exact e2
  have e9 : fu ⬝ᵥ vec.u = 0 := by rw [dotProduct_comm]; exact e3
  have e10 : tv ⬝ᵥ s.vec.v = 0 := by rw [dotProduct_comm]; exact e4
  have e11 : Rv ⬝ᵥ s.vec.v = 0 := by rw [dotProduct_comm]; exact e5
  have e12 : fv ⬝ᵥ s.vec.v = 0 := by rw [dotProduct_comm]; exact e6
  have e13 : Ru ⬝ᵥ tu = tu ⬝ᵥ Ru := dotProduct_comm _ _
  have e14 : Rv ⬝ᵥ tv = tv ⬝ᵥ Rv := dotProduct_comm _ _
  have e15 : tu ⬝ᵥ fu = fu ⬝ᵥ tu := dotProduct_comm _ _
  have e16 : tv ⬝ᵥ fv = fv ⬝ᵥ tv := dotProduct_comm _ _
  have e17 : Ru ⬝ᵥ fu = fu ⬝ᵥ Ru := dotProduct_comm _ _
  have e18 : Rv ⬝ᵥ fv = fv ⬝ᵥ Rv := dotProduct_comm _ _
  have hvv := h.gk.vv
  have htt := h.tt
  have htR := h.tR
  have hft := h.ft
  have hfR := h.fR
  have hRR := h.RR
  have hff : st * (fu ⬝ᵥ fu + fv ⬝ᵥ fv) = st := by
    have h1 : rhotil * (st * (fu ⬝ᵥ fu + fv ⬝ᵥ fv)) = rhotil * st := by
      linear_combination (fu ⬝ᵥ fu + fv ⬝ᵥ fv - 1) * hstr + rho * h.ff
    exact mul_left_cancel₀ hrtil.ne' h1
  have hsu : sn * (vec.u ⬝ᵥ vec.u) = sn := by
    rcases hst.beta0.lt_or_eq with hb | hb
    · rw [hst.unitu hb, mul_one]
    · have : sn = 0 := by rw [← hsne, ← hb]; simp
      rw [this]; ring
  have hFF : (ct • qu - st • fu) ⬝ᵥ (ct • qu - st • fu) + (ct • qv - st • fv) ⬝ᵥ (ct • qv - st • fv) = 1 := by
    rw [← hqu, ← hqv]
    simp only [add_dotProduct, dotProduct_add, sub_dotProduct, dotProduct_sub, neg_dotProduct, dotProduct_neg, smul_dotProduct,
      dotProduct_smul, smul_eq_mul, e1, e2, e3, e4, e5, e6, e7, e8, e9, e10, e11, e12, e13, e14, e15, e16, e17, e18, hvv]
    linear_combination (ct ^ 2 * cs ^ 2 * chat ^ 2) * htt + (ct ^ 2 * sn) * hsu + (ct ^ 2 * cs ^ 2) * hc1 + ct ^ 2 * hcs
      - (2 * ct * st * cs * chat) * hft + st * hff + hct
  have hTT : (cs • vec.u - sn • (chat • tu)) ⬝ᵥ (cs • vec.u - sn • (chat • tu)) +
      (-(sn • (chat • tv + shat • s.vec.v))) ⬝ᵥ (-(sn • (chat • tv + shat • s.vec.v))) = cs ^ 2 * (vec.u ⬝ᵥ vec.u) + sn ^ 2 := by
    simp only [add_dotProduct, dotProduct_add, sub_dotProduct, dotProduct_sub, neg_dotProduct, dotProduct_neg, smul_dotProduct,
      dotProduct_smul, smul_eq_mul, e1, e2, e3, e4, e5, e6, e7, e8, e9, e10, e11, e12, e13, e14, e15, e16, e17, e18, hvv]
    linear_combination (sn ^ 2 * chat ^ 2) * htt + sn ^ 2 * hc1
  have hTR : (cs • vec.u - sn • (chat • tu)) ⬝ᵥ (Ru - (-shat * s.betadd) • (shat • tu)) +
      (-(sn • (chat • tv + shat • s.vec.v))) ⬝ᵥ (Rv + (-shat * s.betadd) • (chat • s.vec.v - shat • tv)) = 0 := by
    simp only [add_dotProduct, dotProduct_add, sub_dotProduct, dotProduct_sub, neg_dotProduct, dotProduct_neg, smul_dotProduct,
      dotProduct_smul, smul_eq_mul, e1, e2, e3, e4, e5, e6, e7, e8, e9, e10, e11, e12, e13, e14, e15, e16, e17, e18, hvv]
    linear_combination (-sn * chat) * htR + (sn * chat * shat * (-shat * s.betadd)) * htt
  have hFT : (ct • qu - st • fu) ⬝ᵥ (cs • vec.u - sn • (chat • tu)) +
      (ct • qv - st • fv) ⬝ᵥ (-(sn • (chat • tv + shat • s.vec.v))) = 0 := by
    rw [← hqu, ← hqv]
    simp only [add_dotProduct, dotProduct_add, sub_dotProduct, dotProduct_sub, neg_dotProduct, dotProduct_neg, smul_dotProduct,
      dotProduct_smul, smul_eq_mul, e1, e2, e3, e4, e5, e6, e7, e8, e9, e10, e11, e12, e13, e14, e15, e16, e17, e18, hvv]
    linear_combination (ct * cs) * hsu - (ct * cs * sn * chat ^ 2) * htt - (ct * cs * sn) * hc1 + (st * sn * chat) * hft
  have hFR : (ct • qu - st • fu) ⬝ᵥ (Ru - (-shat * s.betadd) • (shat • tu)) +
      (ct • qv - st • fv) ⬝ᵥ (Rv + (-shat * s.betadd) • (chat • s.vec.v - shat • tv)) = 0 := by
    rw [← hqu, ← hqv]
    simp only [add_dotProduct, dotProduct_add, sub_dotProduct, dotProduct_sub, neg_dotProduct, dotProduct_neg, smul_dotProduct,
      dotProduct_smul, smul_eq_mul, e1, e2, e3, e4, e5, e6, e7, e8, e9, e10, e11, e12, e13, e14, e15, e16, e17, e18, hvv]
    linear_combination (ct * cs * chat) * htR - (ct * cs * chat * shat * (-shat * s.betadd)) * htt - st * hfR
      + (st * shat * (-shat * s.betadd)) * hft
  have hRR' : (Ru - (-shat * s.betadd) • (shat • tu)) ⬝ᵥ (Ru - (-shat * s.betadd) • (shat • tu)) +
      (Rv + (-shat * s.betadd) • (chat • s.vec.v - shat • tv)) ⬝ᵥ (Rv + (-shat * s.betadd) • (chat • s.vec.v - shat • tv)) =
      s.d + -shat * s.betadd * (-shat * s.betadd) := by
    simp only [add_dotProduct, dotProduct_add, sub_dotProduct, dotProduct_sub, neg_dotProduct, dotProduct_neg, smul_dotProduct,
      dotProduct_smul, smul_eq_mul, e1, e2, e3, e4, e5, e6, e7, e8, e9, e10, e11, e12, e13, e14, e15, e16, e17, e18, hvv]
    linear_combination hRR - (2 * (-shat * s.betadd) * shat) * htR + ((-shat * s.betadd) ^ 2 * shat ^ 2) * htt
      + (-shat * s.betadd) ^ 2 * hc1
  have hmis := misfit_split3 hr1' hr2' hTR hFT hFR
  rw [hFF, hTT, hRR'] at hmis
  generalize hX : s.x + (cbar * s.zetabar / (rho * rhobar)) • (s.h - (s.sbar * rho * rho / (s.rho * s.rhobar)) • s.hbar) = X at *
  generalize htd : (cbar * s.zetabar - st * rhobar * ((s.zeta - s.thetatilde * s.tautildeold) / rhotil)) / (ct * rhobar) = td at *
  have hmin : 0 < (if 1 < s.itn + 1 then cmin s.minrbar s.rhobar else s.minrbar) := by
    split
    · exact cmin_pos h.min0 h.rb0
    · exact h.min0
  have hcond : 0 < cmax (cmax s.maxrbar s.rhobar) (s.cbar * rho) /
      cmin (if 1 < s.itn + 1 then cmin s.minrbar s.rhobar else s.minrbar) (s.cbar * rho) :=
    div_pos (cmax_pos hrt) (cmin_pos hmin hrt)
  have hsb : sbar ≠ 0 → 0 < vec.beta ∧ 0 < vec.alpha := by
    intro hne
    refine ⟨?_, ?_⟩
    · rcases hst.beta0.lt_or_eq with hb | hb
      · exact hb
      · exact absurd (by rw [← hsbe, ← hsne, ← hb]; simp) hne
    · rcases hst.alpha0.lt_or_eq with hb | hb
      · exact hb
      · exact absurd (by rw [← hsbe, ← hb]; simp) hne
  have hpv : 0 < vec.beta → vec.v ⬝ᵥ p = 0 := fun hb => hst.vperp hb p h.pM
  have hpp := h.pp
  have hnp : 0 < vec.beta → 0 < vec.alpha → (cbar • vec.v - sbar • p) ⬝ᵥ (cbar • vec.v - sbar • p) = 1 := by
    intro hb ha
    have h1 := hpv hb
    have h2 : p ⬝ᵥ vec.v = 0 := by rw [dotProduct_comm]; exact h1
    simp only [sub_dotProduct, dotProduct_sub, smul_dotProduct, dotProduct_smul, smul_eq_mul, h1, h2, hpp, hst.unitv ha]
    linear_combination hcb
  refine ⟨⟨?_, ?_, ?_, hrho, hrb, hrd', hcond, h.bb, h.bpos⟩, ?_, ?_⟩
  · simp only [hmis]
    simp only [real]
    congr 1
    linear_combination (-(chat * s.betadd) ^ 2 * sn * cs ^ 2) * hsu - (-sn * (chat * s.betadd)) ^ 2 * hcs
  · simp only [hgrad]
    rw [normSq_dot, smul_dotProduct, dotProduct_smul, smul_eq_mul, smul_eq_mul]
    by_cases hne : sbar = 0
    · rw [hne]; simp [real]
    · obtain ⟨hb, ha⟩ := hsb hne
      rw [hnp hb ha, mul_one, ← sq, Real.sqrt_sq_eq_abs]
      rfl
  · simp only
    rw [dnrm2_eq, normSq_dot]
  · simp only [real]
    rw [h.ar, abs_mul, abs_neg]
    exact shrink hcb _
  · by_cases hne : sbar = 0
    · right; rw [hne]; simp [real]
    left
    obtain ⟨hb, ha⟩ := hsb hne
    have hn := hst.next hb ha
    have hun := hst.unitu hb
    have hvn := hst.unitv ha
    have h1 := hpv hb
    have h2 : p ⬝ᵥ vec.v = 0 := by rw [dotProduct_comm]; exact h1
    have hsM : ∀ q ∈ PV ⊔ Submodule.span ℝ {s.vec.v}, q ∈ PV ⊔ Submodule.span ℝ {s.vec.v} ⊔ Submodule.span ℝ {vec.v} :=
      fun q hq => Submodule.mem_sup_left hq
    have hvM : s.vec.v ∈ PV ⊔ Submodule.span ℝ {s.vec.v} := by simpa using self_mem_sup (S := PV) (y := s.vec.v) 1
    have hv'M : vec.v ∈ PV ⊔ Submodule.span ℝ {s.vec.v} ⊔ Submodule.span ℝ {vec.v} := by
      simpa using self_mem_sup (S := PV ⊔ Submodule.span ℝ {s.vec.v}) (y := vec.v) 1
    have hu'M : vec.u ∈ PU ⊔ Submodule.span ℝ {s.vec.u} ⊔ Submodule.span ℝ {vec.u} := by
      simpa using self_mem_sup (S := PU ⊔ Submodule.span ℝ {s.vec.u}) (y := vec.u) 1
    have htuM := Submodule.mem_sup_left (T := Submodule.span ℝ {vec.u}) h.tuM
    have hRuM := Submodule.mem_sup_left (T := Submodule.span ℝ {vec.u}) h.RuM
    have hfuM := Submodule.mem_sup_left (T := Submodule.span ℝ {vec.u}) h.fuM
    have htvM := Submodule.mem_sup_left (T := Submodule.span ℝ {s.vec.v}) h.tvM
    have hRvM := Submodule.mem_sup_left (T := Submodule.span ℝ {s.vec.v}) h.RvM
    have hfvM := Submodule.mem_sup_left (T := Submodule.span ℝ {s.vec.v}) h.fvM
    have hquM : qu ∈ PU ⊔ Submodule.span ℝ {s.vec.u} ⊔ Submodule.span ℝ {vec.u} := by
      rw [← hqu]
      exact Submodule.add_mem _ (Submodule.smul_mem _ _ (Submodule.smul_mem _ _ htuM)) (Submodule.smul_mem _ _ hu'M)
    have hqvM : qv ∈ PV ⊔ Submodule.span ℝ {s.vec.v} := by
      rw [← hqv]
      exact Submodule.smul_mem _ _ (Submodule.add_mem _ (Submodule.smul_mem _ _ htvM) (Submodule.smul_mem _ _ hvM))
    have ht0' : Aᵀ *ᵥ (cs • vec.u - sn • (chat • tu)) + o.damp • (-(sn • (chat • tv + shat • s.vec.v))) =
        (cs * vec.alpha) • vec.v := by
      have e : Aᵀ *ᵥ (cs • vec.u - sn • (chat • tu)) + o.damp • (-(sn • (chat • tv + shat • s.vec.v))) =
          cs • (Aᵀ *ᵥ vec.u) - (sn * chat) • (Aᵀ *ᵥ tu + o.damp • tv) - (sn * shat * o.damp) • s.vec.v := by
        simp only [mulVec_sub, mulVec_smul]; module
      have e' : Aᵀ *ᵥ vec.u = vec.alpha • vec.v + vec.beta • s.vec.v := by rw [hst.av hb]; module
      have ed : o.damp = shat * alphahat := hrs1.symm
      rw [e, h.t0, e', ed, ← hrc1, ← hsr, ← hcr]
      linear_combination (norm := module) (-(sn * cs * rho * hc1)) • s.vec.v
    refine ⟨cs • vec.u - sn • (chat • tu), Ru - (-shat * s.betadd) • (shat • tu), ct • qu - st • fu,
      -(sn • (chat • tv + shat • s.vec.v)), Rv + (-shat * s.betadd) • (chat • s.vec.v - shat • tv), ct • qv - st • fv,
      cbar • vec.v - sbar • p, cbar • p + sbar • vec.v,
      ⟨hn, h.bb, h.bpos, ?_, ?_, ht0', hR0', hf0', ?_, ?_, ?_, ?_, ?_, ?_, ?_, hTR, hFT, hFR, hRR', ?_, ?_, ?_, hAhb,
        hdhb, ?_, ?_, hnp hb ha, ?_, hgrad, ?_, hrho, hrb, hcbp, hrd', hmin, ?_, rfl⟩⟩
    · unfold taud; simp only; rw [htd]; exact hr1'
    · unfold taud; simp only; rw [htd]; exact hr2'
    · exact Submodule.sub_mem _ (Submodule.smul_mem _ _ hu'M) (Submodule.smul_mem _ _ (Submodule.smul_mem _ _ htuM))
    · exact Submodule.sub_mem _ hRuM (Submodule.smul_mem _ _ (Submodule.smul_mem _ _ htuM))
    · exact Submodule.sub_mem _ (Submodule.smul_mem _ _ hquM) (Submodule.smul_mem _ _ hfuM)
    · exact Submodule.neg_mem _ (Submodule.smul_mem _ _ (Submodule.add_mem _ (Submodule.smul_mem _ _ htvM)
        (Submodule.smul_mem _ _ hvM)))
    · exact Submodule.add_mem _ hRvM (Submodule.smul_mem _ _ (Submodule.sub_mem _ (Submodule.smul_mem _ _ hvM)
        (Submodule.smul_mem _ _ htvM)))
    · exact Submodule.sub_mem _ (Submodule.smul_mem _ _ hqvM) (Submodule.smul_mem _ _ hfvM)
    · rw [hTT, hun]; linear_combination hcs
    · rw [hFF, mul_one]
    · simp only
      rw [mulVec_sub, mulVec_smul, hAh, ← hqu]
      have er : sn * vec.alpha / rho * rho = sn * vec.alpha := by
        have h1 := hrho.ne'
        field_simp
      linear_combination (norm := module) (-(er * cs * chat)) • tu - (er * sn) • vec.u - (vec.alpha * hcs) • vec.u
    · simp only
      rw [smul_sub, smul_comm o.damp, hdh, ← hqv]
      have er : sn * vec.alpha / rho * rho = sn * vec.alpha := by
        have h1 := hrho.ne'
        field_simp
      linear_combination (norm := module) (-(er * cs)) • (chat • tv + shat • s.vec.v)
    · simp only
      linear_combination (norm := module) (-hcb) • vec.v
    · exact Submodule.sub_mem _ (Submodule.smul_mem _ _ hv'M) (Submodule.smul_mem _ _ (hsM _ h.pM))
    · -- the component of the gradient along the earlier directions vanishes
      have hg2 := descent_split3 hr1' hr2' hR0'
      rw [hgrad, hf0', ht0'] at hg2
      have hd := congrArg (fun z => (cbar • p + sbar • vec.v) ⬝ᵥ z) hg2
      simp only [add_dotProduct, dotProduct_add, sub_dotProduct, dotProduct_sub, smul_dotProduct, dotProduct_smul,
        smul_eq_mul, h1, h2, hpp, hvn] at hd
      unfold taud
      simp only
      rw [htd]
      linear_combination -hd - ((-st * s.betad + ct * (cs * (chat * s.betadd)) - td) * (ct * rhobar)) * hcb
    · exact mul_pos hcp ha
    · rw [Lsqr.finrank_grow hvv h.gk.vp, h.dim]

/-- the estimate of the matrix norm counts what the matrix does on `PV`; `pr` projects on it -/
structure InvN (A : Matrix (Fin m) (Fin n) ℝ) (s : Lsmr m n ℝ) (PV : Submodule ℝ (Fin n → ℝ))
    (pr : (Fin n → ℝ) → (Fin n → ℝ)) : Prop where
  prM : ∀ y, pr y ∈ PV
  prP : ∀ y, ∀ q ∈ PV, (y - pr y) ⬝ᵥ q = 0
  an : s.normA2 = (∑ i, pr (A i) ⬝ᵥ pr (A i)) + s.vec.alpha ^ 2

theorem invN_iterate {P : Products m n ℝ} (hP : IsProduct P A) {o : Settings ℝ} {s : Lsmr m n ℝ}
    (h : Inv A b o.damp s PU PV tu Ru fu tv Rv fv p qb) {pr} (hN : InvN A s PV pr) :
    InvN A (iterate (real tiny) P o s) (PV ⊔ Submodule.span ℝ {s.vec.v}) (fun y => pr y + (y ⬝ᵥ s.vec.v) • s.vec.v) ∧
    0 < (iterate (real tiny) P o s).normA ∧ (iterate (real tiny) P o s).normA ≤ Real.sqrt (Spec.frobSq A) := by
  have hst := nextVectors_step (tiny := tiny) hP h.gk
  have hvv := h.gk.vv
  have hvp := h.gk.vp
  have hpv : ∀ q ∈ PV, q ⬝ᵥ s.vec.v = 0 := fun q hq => by rw [dotProduct_comm]; exact hvp q hq
  have k1 : ∀ y, pr y + (y ⬝ᵥ s.vec.v) • s.vec.v ∈ PV ⊔ Submodule.span ℝ {s.vec.v} := fun y => mem_sup_span (hN.prM y) _
  have k2 : ∀ y, ∀ q ∈ PV ⊔ Submodule.span ℝ {s.vec.v}, (y - (pr y + (y ⬝ᵥ s.vec.v) • s.vec.v)) ⬝ᵥ q = 0 := by
    intro y
    apply perp_sup
    · intro q hq
      have e : y - (pr y + (y ⬝ᵥ s.vec.v) • s.vec.v) = (y - pr y) - (y ⬝ᵥ s.vec.v) • s.vec.v := by module
      rw [e, sub_dotProduct, hN.prP y q hq, smul_dotProduct, hvp q hq]; simp
    · rw [sub_dotProduct, add_dotProduct, hpv _ (hN.prM y), smul_dotProduct, hvv]; simp
  have k3 : (∑ i, (pr (A i) + (A i ⬝ᵥ s.vec.v) • s.vec.v) ⬝ᵥ (pr (A i) + (A i ⬝ᵥ s.vec.v) • s.vec.v)) =
      (∑ i, pr (A i) ⬝ᵥ pr (A i)) + (s.vec.alpha ^ 2 + (nextVectors (real tiny) P s.vec).beta ^ 2) := by
    have e1 : ∀ y, (pr y + (y ⬝ᵥ s.vec.v) • s.vec.v) ⬝ᵥ (pr y + (y ⬝ᵥ s.vec.v) • s.vec.v) =
        pr y ⬝ᵥ pr y + (y ⬝ᵥ s.vec.v) ^ 2 := by
      intro y
      simp only [add_dotProduct, dotProduct_add, smul_dotProduct, dotProduct_smul, smul_eq_mul, hpv _ (hN.prM y),
        hvp _ (hN.prM y), hvv]
      ring
    simp only [e1]
    rw [Finset.sum_add_distrib]
    have e2 : ∑ i, (A i ⬝ᵥ s.vec.v) ^ 2 = A *ᵥ s.vec.v ⬝ᵥ A *ᵥ s.vec.v := by
      unfold dotProduct mulVec
      exact Finset.sum_congr rfl (fun i _ => sq _)
    have e3 : A *ᵥ s.vec.v = s.vec.alpha • s.vec.u + (nextVectors (real tiny) P s.vec).beta • (nextVectors (real tiny) P s.vec).u := by
      rw [hst.bu]; module
    have e4 : A *ᵥ s.vec.v ⬝ᵥ A *ᵥ s.vec.v = s.vec.alpha ^ 2 + (nextVectors (real tiny) P s.vec).beta ^ 2 := by
      have hu : (nextVectors (real tiny) P s.vec).u ⬝ᵥ s.vec.u = 0 :=
        hst.uperp _ (by simpa using self_mem_sup (S := PU) (y := s.vec.u) 1)
      have hu' : s.vec.u ⬝ᵥ (nextVectors (real tiny) P s.vec).u = 0 := by rw [dotProduct_comm]; exact hu
      rw [e3]
      simp only [add_dotProduct, dotProduct_add, smul_dotProduct, dotProduct_smul, smul_eq_mul, hu, hu', h.gk.uu]
      rcases hst.beta0.lt_or_eq with hb | hb
      · rw [hst.unitu hb]; ring
      · rw [← hb]; ring
    rw [e2, e4]
  have e6 : (iterate (real tiny) P o s).normA = Real.sqrt (s.normA2 +
      (nextVectors (real tiny) P s.vec).beta * (nextVectors (real tiny) P s.vec).beta) := rfl
  have e7 : s.normA2 + (nextVectors (real tiny) P s.vec).beta * (nextVectors (real tiny) P s.vec).beta =
      ∑ i, (pr (A i) + (A i ⬝ᵥ s.vec.v) • s.vec.v) ⬝ᵥ (pr (A i) + (A i ⬝ᵥ s.vec.v) • s.vec.v) := by
    rw [k3, hN.an]; ring
  refine ⟨⟨k1, k2, ?_⟩, ?_, ?_⟩
  · have e5 : (iterate (real tiny) P o s).normA2 = s.normA2 +
        (nextVectors (real tiny) P s.vec).beta * (nextVectors (real tiny) P s.vec).beta +
        (nextVectors (real tiny) P s.vec).alpha * (nextVectors (real tiny) P s.vec).alpha := rfl
    have e8 : (iterate (real tiny) P o s).vec = nextVectors (real tiny) P s.vec := rfl
    rw [e5, e7, e8]
    ring
  · rw [e6]
    apply Real.sqrt_pos.2
    rw [hN.an]
    have h1 : 0 ≤ ∑ i, pr (A i) ⬝ᵥ pr (A i) := Finset.sum_nonneg (fun i _ => dot_nonneg _)
    have h2 := pow_pos h.gk.pos 2
    have h3 := mul_self_nonneg (nextVectors (real tiny) P s.vec).beta
    linarith
  · rw [e6, e7]
    apply Real.sqrt_le_sqrt
    unfold Spec.frobSq
    apply Finset.sum_le_sum
    intro i _
    rw [normSq_dot]
    have h1 := k2 (A i) _ (k1 (A i))
    generalize pr (A i) + (A i ⬝ᵥ s.vec.v) • s.vec.v = z at *
    have h2 := dot_nonneg (A i - z)
    have e : A i ⬝ᵥ A i = (A i - z) ⬝ᵥ (A i - z) + 2 * ((A i - z) ⬝ᵥ z) + z ⬝ᵥ z := by
      simp only [sub_dotProduct, dotProduct_sub]
      rw [dotProduct_comm z (A i)]; ring
    linarith

theorem invN_start {P : Products m n ℝ} : InvN A (start (real tiny) P big b) ⊥ (fun _ => 0) := by
  refine ⟨fun _ => Submodule.zero_mem _, ?_, ?_⟩
  · intro y q hq; rw [(Submodule.mem_bot ℝ).1 hq]; simp
  · simp [start, sq]

/-- the state before the first iteration -/
theorem inv_start {P : Products m n ℝ} (hP : IsProduct P A) (d : ℝ) (hbig : 0 < big) :
    let s := start (real tiny) P big b
    (s.normAr = 0 → Spec.descent A b d 0 = 0) ∧
    (s.normAr ≠ 0 → Inv A b d s ⊥ ⊥ s.vec.u 0 0 0 0 0 s.vec.v 0) := by
  have hb' : scale (-1) (P.aprod1 (fun _ => 0) (scale (-1) b)) = b := by
    rw [hP.p1, scale_eq, scale_eq]
    have : A *ᵥ (fun _ => 0 : Fin n → ℝ) = 0 := mulVec_zero A
    rw [this]; module
  have hf := firstVectors_gk (tiny := tiny) hP b
  unfold start
  rw [hb']
  simp only at hf ⊢
  generalize firstVectors (real tiny) P b = s at *
  obtain ⟨ha0, hb0, hbb, hbu, hz, hgk⟩ := hf
  refine ⟨fun h0 => ?_, fun h0 => ?_⟩
  · unfold Spec.descent
    simp [hz h0]
  · have hg := hgk h0
    have hx0 : (fun _ => 0 : Fin n → ℝ) = 0 := rfl
    have hu : s.u ∈ (⊥ : Submodule ℝ (Fin m → ℝ)) ⊔ Submodule.span ℝ {s.u} := by
      simpa using self_mem_sup (S := (⊥ : Submodule ℝ (Fin m → ℝ))) (y := s.u) 1
    have hv : s.v ∈ (⊥ : Submodule ℝ (Fin n → ℝ)) ⊔ Submodule.span ℝ {s.v} := by
      simpa using self_mem_sup (S := (⊥ : Submodule ℝ (Fin n → ℝ))) (y := s.v) 1
    obtain ⟨q, hq, hAtu⟩ := hg.Atu
    rw [(Submodule.mem_bot ℝ).1 hq, add_zero] at hAtu
    refine ⟨hg, hbb, lt_of_le_of_ne hb0 (fun h => h0 (by have h' : 0 = s.beta := h; rw [← h']; ring)), ?_, ?_, ?_, ?_,
      ?_, hu, Submodule.zero_mem _, Submodule.zero_mem _, Submodule.zero_mem _, Submodule.zero_mem _, Submodule.zero_mem _,
      ?_, ?_, ?_, ?_, ?_, ?_, ?_, ?_, ?_, ?_, ?_, hv, hg.vv, ?_, ?_, hg.pos, one_pos, one_pos, one_pos, one_pos, hbig,
      finrank_bot ℝ _, ?_⟩ <;> try simp only [hx0]
    · simp [hbu]
    · simp
    · simpa using hAtu
    · simp
    · simp
    · simp [hg.uu]
    · simp
    · simp
    · simp
    · simp
    · simp
    · simp
    · simp
    · simp
    · simp
    · simp
    · simp [taud]
    · unfold Spec.descent
      have e : Aᵀ *ᵥ b = (s.alpha * s.beta) • s.v := by
        conv_lhs => rw [← hbu]
        rw [mulVec_smul, hAtu]; module
      simp [e]
    · rw [abs_of_nonneg (mul_nonneg ha0 hb0)]

/-- the loop in exact arithmetic -/
theorem loop_spec {P : Products m n ℝ} (hP : IsProduct P A) {o : Settings ℝ} (ha : 0 ≤ o.atol) :
    ∀ (fuel : Nat) (s : Lsmr m n ℝ) (PU PV) (tu Ru fu tv Rv fv p qb),
      Inv A b o.damp s PU PV tu Ru fu tv Rv fv p qb → (∃ pr, InvN A s PV pr) → n ≤ fuel + s.itn →
      ∃ t u, loop (real tiny) P o fuel s = some t ∧ t = iterate (real tiny) P o u ∧ t.istop ≠ 0 ∧
        t.itn ≤ n ∧ s.itn < t.itn ∧ After A b o.damp t ∧ t.normAr ≤ s.normAr ∧
        0 < t.normA ∧ t.normA ≤ Real.sqrt (Spec.frobSq A) := by
  intro fuel
  induction fuel with
  | zero =>
    intro s PU PV tu Ru fu tv Rv fv p qb h hN hn
    exfalso
    have := Lsqr.finrank_grow h.gk.vv h.gk.vp
    rw [h.dim] at this
    have h2 := Submodule.finrank_le (PV ⊔ Submodule.span ℝ {s.vec.v})
    rw [this, Module.finrank_fin_fun] at h2
    omega
  | succ fuel ih =>
    intro s PU PV tu Ru fu tv Rv fv p qb h hN hn
    obtain ⟨pr, hN⟩ := hN
    obtain ⟨hN', hA0, hAf⟩ := invN_iterate (tiny := tiny) hP h hN
    obtain ⟨hA, hmono, hI⟩ := inv_iterate (tiny := tiny) hP h
    have hle : s.itn + 1 ≤ n := by
      have := Lsqr.finrank_grow h.gk.vv h.gk.vp
      rw [h.dim] at this
      have h2 := Submodule.finrank_le (PV ⊔ Submodule.span ℝ {s.vec.v})
      rwa [this, Module.finrank_fin_fun] at h2
    have hitn : (iterate (real tiny) P o s).itn = s.itn + 1 := rfl
    unfold loop
    simp only
    by_cases hs : (iterate (real tiny) P o s).istop = 0
    · rw [if_pos hs]
      rcases hI with ⟨tu', Ru', fu', tv', Rv', fv', p', qb', hI⟩ | h0
      · obtain ⟨t, u, h1, h2, h3, h4, h5, h6, h7, h8⟩ := ih _ _ _ _ _ _ _ _ _ _ _ hI ⟨_, hN'⟩ (by rw [hitn]; omega)
        exact ⟨t, u, h1, h2, h3, h4, by omega, h6, le_trans h7 hmono, h8⟩
      · exfalso
        have e : (iterate (real tiny) P o s).istop = stopReason o (s.itn + 1) _
          ((iterate (real tiny) P o s).normAr / ((iterate (real tiny) P o s).normA * (iterate (real tiny) P o s).normr)) _ _ _ := rfl
        rw [h0, zero_div] at e
        rw [e] at hs
        unfold stopReason at hs
        simp only [ha, if_true] at hs
        split at hs <;> omega
    · rw [if_neg hs]
      exact ⟨_, s, rfl, rfl, hs, by omega, by omega, hA, hmono, hA0, hAf⟩

/-- more fuel changes nothing -/
theorem loop_more {K : Type} [Add K] [Sub K] [Mul K] [Div K] [Neg K] [Zero K] [One K] [BEq K] [LT K] [LE K]
    [DecidableLT K] [DecidableLE K] (F : Fns K) (P : Products m n K) (o : Settings K) :
    ∀ (k : Nat) (s t : Lsmr m n K), loop F P o k s = some t → ∀ j, loop F P o (k + j) s = some t := by
  intro k
  induction k with
  | zero => intro s t h; cases h
  | succ k ih =>
    intro s t h j
    rw [Nat.add_right_comm]
    unfold loop at h ⊢
    simp only at h ⊢
    by_cases hs : (iterate F P o s).istop = 0
    · rw [if_pos hs] at h ⊢; exact ih _ _ h j
    · rw [if_neg hs] at h ⊢; exact h

/-- the limit of iterations ends the loop, whatever the numbers -/
theorem loop_ends {K : Type} [Add K] [Sub K] [Mul K] [Div K] [Neg K] [Zero K] [One K] [BEq K] [LT K] [LE K]
    [DecidableLT K] [DecidableLE K] (F : Fns K) (P : Products m n K) (o : Settings K) :
    ∀ (k : Nat) (s : Lsmr m n K), 0 < k → o.itnlim ≤ s.itn + k →
      ∃ t, loop F P o k s = some t ∧ s.itn < t.itn ∧ t.itn ≤ s.itn + k ∧ 1 ≤ t.istop ∧ t.istop ≤ 7 ∧
        (t.istop = 7 → o.itnlim ≤ t.itn) := by
  intro k
  induction k with
  | zero => intro s h; omega
  | succ k ih =>
    intro s _ hlim
    unfold loop
    simp only
    have hitn : (iterate F P o s).itn = s.itn + 1 := rfl
    have e : ∃ a1 a2 a3 a4 a5, (iterate F P o s).istop = stopReason o (s.itn + 1) a1 a2 a3 a4 a5 := ⟨_, _, _, _, _, rfl⟩
    obtain ⟨a1, a2, a3, a4, a5, e⟩ := e
    have hval : ∀ x, x = stopReason o (s.itn + 1) a1 a2 a3 a4 a5 → (x = 0 → ¬ o.itnlim ≤ s.itn + 1) ∧ x ≤ 7 ∧
        (x = 7 → o.itnlim ≤ s.itn + 1) := by
      intro x hx
      unfold stopReason at hx
      repeat' split at hx
      all_goals subst hx; simp_all
    obtain ⟨v1, v2, v3⟩ := hval _ e
    by_cases hs : (iterate F P o s).istop = 0
    · rw [if_pos hs]
      have hk : 0 < k := by
        rcases Nat.eq_zero_or_pos k with h0 | h0
        · subst h0; exact absurd hlim (v1 hs)
        · exact h0
      obtain ⟨t, h1, h2, h3, h4⟩ := ih (iterate F P o s) hk (by rw [hitn]; omega)
      exact ⟨t, h1, by omega, by omega, h4⟩
    · rw [if_neg hs]
      exact ⟨_, rfl, by omega, by omega, by omega, v2, v3⟩

end Lsmr
end Verif.LeastSquares
