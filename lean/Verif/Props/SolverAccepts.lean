import Verif.Props.Iteration
import Verif.Proofs.SolverCond
import Verif.Proofs.IterationSolved
import Verif.Props.RelocateTotal

/-!
# With enough damping the solvers do not give up (C103)

The specification is `Verif.Iteration.Damped`.
-/

set_option linter.unusedSectionVars false
set_option linter.unusedSimpArgs false

namespace Verif.LeastSquares
open Matrix

variable {m n : Nat} {tiny big : ℝ} {A : Matrix (Fin m) (Fin n) ℝ}

/-- **C103a.** LSQR does not stop because of the condition number (reason 4) when the damping is strong enough relative to the
norm of the matrix, the number of unknowns and the limit. -/
theorem lsqr_accepts {P : Products m n ℝ} (hP : IsProduct P A) (o : Settings ℝ) (hd : 0 < o.damp) (ha : 0 ≤ o.atol)
    (ht : 0 < tiny) (hl : 0 < o.conlim)
    (hc : (Spec.frobSq A + n * o.damp ^ 2) * n < (o.conlim * o.damp) ^ 2) (b : Fin m → ℝ) :
    ∃ s, (∀ fuel, n ≤ fuel → Lsqr.solve (real tiny) P o b fuel = some s) ∧ s.istop ≠ 4 := by
  obtain ⟨hs1, hs2⟩ := Lsqr.inv_start (tiny := tiny) (b := b) hP o.damp
  unfold Lsqr.solve
  simp only
  by_cases h0 : (Lsqr.start (real tiny) P b).Arnorm = 0
  · refine ⟨Lsqr.start (real tiny) P b, fun fuel _ => ?_, by simp [Lsqr.start]⟩
    rw [if_pos (by simpa using h0)]
    unfold Lsqr.finish
    rw [if_neg]
    simp [Lsqr.start]
  · have hI := hs2 h0
    obtain ⟨t, u, h1, h2, h3, h4, h5, h6, PV', hA, hAn, hK⟩ := Lsqr.loop_spec (tiny := tiny) hP hd.le ha ht n _ _ _ _ _ _ _ _ _ hI
      ⟨_, Lsqr.invN_start o.damp⟩ (Lsqr.invK_start hP h0) (by omega)
    obtain ⟨c1, c2, c3⟩ := Lsqr.loop_cond (tiny := tiny) hP hd ha n _ _ _ _ _ _ _ _ _ _ hI
      (by simp [Lsqr.start]) h1
    refine ⟨Lsqr.finish o t, fun fuel hf => ?_, ?_⟩
    · rw [if_neg (by simpa using h0)]
      have := Lsqr.loop_more (real tiny) P o _ _ _ h1 (fuel - n)
      rw [Nat.add_sub_cancel' hf] at this
      rw [this]; rfl
    · have hreason : t.istop = Lsqr.stopReason o t.itn (t.rnorm / t.bnorm) (t.Arnorm / (t.Anorm * t.rnorm)) (1 / t.Acond)
          (t.rnorm / t.bnorm / (1 + t.Anorm * t.xnorm / t.bnorm)) (o.btol + o.atol * t.Anorm * t.xnorm / t.bnorm) := by
        rw [h2]; rfl
      have hac := hA.ac0
      have hF := frob_nonneg A
      have hle : t.Acond < o.conlim := by
        refine lt_of_mul_lt_mul_right ?_ hd.le
        refine lt_of_pow_lt_pow_left₀ 2 (by positivity) (lt_of_le_of_lt ?_ hc)
        have e1 : t.Anorm ^ 2 ≤ Spec.frobSq A + n * o.damp ^ 2 := by
          have h7 : t.Anorm ^ 2 ≤ Spec.frobSq A + t.itn * o.damp ^ 2 := by
            have := pow_le_pow_left₀ hA.an0.le hAn 2
            rwa [Real.sq_sqrt (by positivity)] at this
          have h8 : (t.itn : ℝ) ≤ n := by exact_mod_cast h4
          have := mul_le_mul_of_nonneg_right h8 (sq_nonneg o.damp)
          linarith
        have e2 : o.damp ^ 2 * t.dnorm ^ 2 ≤ n := le_trans c1 (by exact_mod_cast h4)
        calc (t.Acond * o.damp) ^ 2 = t.Anorm ^ 2 * (o.damp ^ 2 * t.dnorm ^ 2) := by rw [c3]; ring
          _ ≤ _ := mul_le_mul e1 e2 (by positivity) (by positivity)
      have hctol : ¬ 1 / t.Acond ≤ Lsqr.ctol o := by
        unfold Lsqr.ctol
        rw [if_pos hl, not_le]
        exact one_div_lt_one_div_of_lt hac hle
      have hp : ¬ 1 + 1 / t.Acond ≤ 1 := by
        have : 0 < 1 / t.Acond := by positivity
        linarith
      have ht4 : t.istop ≠ 4 := by
        rw [hreason]
        unfold Lsqr.stopReason
        rw [if_neg hctol, if_neg hp]
        repeat' split
        all_goals decide
      unfold Lsqr.finish
      split
      · simp
      · exact ht4

/-- **C103b.** LSMR does not stop because of the condition number (reasons 3 and 6) when the damping is strong enough relative
to the norm of the matrix and the limit. -/
theorem lsmr_accepts {P : Products m n ℝ} (hP : IsProduct P A) (o : Settings ℝ) (hd : 0 < o.damp) (ha : 0 ≤ o.atol)
    (hl : 0 < o.conlim) (hbig : o.damp ≤ big) (h1c : 1 < o.conlim * o.damp)
    (hc : Spec.frobSq A + o.damp ^ 2 < (o.conlim * o.damp) ^ 2) (b : Fin m → ℝ) :
    ∃ s, (∀ fuel, n ≤ fuel → Lsmr.solve (real tiny) P big o b fuel = some s) ∧ s.istop ≠ 3 ∧ s.istop ≠ 6 := by
  obtain ⟨hs1, hs2⟩ := Lsmr.inv_start (tiny := tiny) (b := b) hP o.damp (lt_of_lt_of_le hd hbig)
  by_cases h0 : (Lsmr.start (real tiny) P big b).normAr = 0
  · refine ⟨Lsmr.start (real tiny) P big b, fun fuel _ => ?_, by simp [Lsmr.start], by simp [Lsmr.start]⟩
    unfold Lsmr.solve
    simp only
    rw [if_pos (by simpa using h0)]
  · have hI := hs2 h0
    obtain ⟨t, u, h1, h2, h3, h4, h5, hA, hdec, hAn, hAn'⟩ := Lsmr.loop_spec (tiny := tiny) hP ha n _ _ _ _ _ _ _ _ _ _ _ hI
      ⟨_, Lsmr.invN_start⟩ (by omega)
    have hcond := Lsmr.loop_cond (tiny := tiny) (lo := o.damp) (hi := max 1 (Real.sqrt (Spec.frobSq A + o.damp ^ 2))) hP hd ha hd (le_refl _)
      (le_max_right _ _) n _ _ _ _ _ _ _ _ _ _ _ _ hI (Lsmr.invC_start hP (le_max_left _ _) hbig hI) h1
    refine ⟨t, fun fuel hf => ?_, ?_⟩
    · unfold Lsmr.solve
      simp only
      rw [if_neg (by simpa using h0)]
      have := Lsmr.loop_more (real tiny) P o _ _ _ h1 (fuel - n)
      rwa [Nat.add_sub_cancel' hf] at this
    · have hreason : t.istop = Lsmr.stopReason o t.itn (t.normr / t.normb) (t.normAr / (t.normA * t.normr)) (1 / t.condA)
          (t.normr / t.normb / (1 + t.normA * t.normx / t.normb)) (o.btol + o.atol * t.normA * t.normx / t.normb) := by
        rw [h2]; rfl
      have hac := hA.ac0
      have hle : t.condA < o.conlim := by
        refine lt_of_le_of_lt hcond ?_
        rw [div_lt_iff₀ hd, max_lt_iff]
        refine ⟨h1c, ?_⟩
        rw [Real.sqrt_lt' (by positivity)]
        exact hc
      have hctol : ¬ 1 / t.condA ≤ Lsmr.ctol o := by
        unfold Lsmr.ctol
        rw [if_pos hl, not_le]
        exact one_div_lt_one_div_of_lt hac hle
      have hp : ¬ 1 + 1 / t.condA ≤ 1 := by
        have : 0 < 1 / t.condA := by positivity
        linarith
      rw [hreason]
      unfold Lsmr.stopReason
      rw [if_neg hctol, if_neg hp]
      constructor <;> (repeat' split) <;> decide

theorem conlim_eq (k j : Nat) (d : ℝ) : (settings k j d).conlim = 2 ^ 26 / 10 := by
  unfold settings
  simp only
  have : √(1 / 2 ^ 52 : ℝ) = 1 / 2 ^ 26 := by
    rw [show (1 / 2 ^ 52 : ℝ) = (1 / 2 ^ 26) ^ 2 by norm_num, Real.sqrt_sq (by positivity)]
  rw [this]
  norm_num

/-- the solution of a damped system is accepted -/
theorem solve_accepted (method : Method) (dd : DDSystem ℝ) (hr : dd.EventsInRange) (numIterations : Nat) {damp : ℝ}
    (hd : 0 < damp) (nz : Bool) (hn : nz = true → Normalizable dd)
    (hq : method = .lsqr → (size dd nz + dd.numCols * damp ^ 2) * dd.numCols < (2 ^ 26 / 10 * damp) ^ 2)
    (hm : method = .lsmr → damp ≤ 10 ^ 100 ∧ 1 < 2 ^ 26 / 10 * damp ∧ size dd nz + damp ^ 2 < (2 ^ 26 / 10 * damp) ^ 2) :
    ∃ reason m, solveDD method dd numIterations damp nz = .ok (reason, m) := by
  have ht : 0 < tiny30 := by unfold tiny30; positivity
  have hP := ddProducts_is _ (final_range dd nz hr)
  have e2 := (final_size dd nz).2
  generalize ho : settings (final dd nz).numCols numIterations damp = o
  have od : o.damp = damp := by rw [← ho]; rfl
  have oa : o.atol = 1 / 10 ^ 6 := by rw [← ho]; rfl
  have oc : o.conlim = 2 ^ 26 / 10 := by rw [← ho]; exact conlim_eq _ _ _
  have hsz := frobSq_size dd nz hn
  suffices h : ∃ r, runSolver method (final dd nz) o = some r ∧ rejected method r.reason = false by
    obtain ⟨r, h1, h2⟩ := h
    refine ⟨r.reason, up dd nz r.x, ?_⟩
    rw [solveDD_eq, ho, h1]
    simp only [h2]
    rfl
  cases method with
  | lsqr =>
    obtain ⟨s, h1, h2⟩ := lsqr_accepts (tiny := tiny30) hP o (by rw [od]; exact hd) (by rw [oa]; positivity) ht
      (by rw [oc]; positivity) (by rw [hsz, od, oc, e2]; exact hq rfl) (first _ (final dd nz).d)
    obtain ⟨s', k1, -⟩ := lsqr_ends (real tiny30) (ddProducts (final dd nz)) o (first _ (final dd nz).d)
    have hs : s' = s := by
      have := h1 (max (final dd nz).numCols (max 1 o.itnlim)) (le_max_left _ _)
      rw [k1 _ (le_max_right _ _)] at this
      exact Option.some.inj this
    subst hs
    refine ⟨⟨s'.istop, s'.itn, s'.x⟩, ?_, by simpa [rejected] using h2⟩
    unfold runSolver
    have := k1 _ (le_refl _)
    show Option.map _ (Lsqr.solve (real tiny30) _ o _ _) = _
    rw [this]; rfl
  | lsmr =>
    obtain ⟨m1, m2, m3⟩ := hm rfl
    obtain ⟨s, h1, h2⟩ := lsmr_accepts (tiny := tiny30) (big := big100) hP o (by rw [od]; exact hd) (by rw [oa]; positivity)
      (by rw [oc]; positivity) (by rw [od]; exact m1) (by rw [od, oc]; exact m2) (by rw [hsz, od, oc]; exact m3) (first _ (final dd nz).d)
    obtain ⟨s', k1, -⟩ := lsmr_ends (real tiny30) (ddProducts (final dd nz)) big100 o (first _ (final dd nz).d)
    have hs : s' = s := by
      have := h1 (max (final dd nz).numCols (max 1 o.itnlim)) (le_max_left _ _)
      rw [k1 _ (le_max_right _ _)] at this
      exact Option.some.inj this
    subst hs
    refine ⟨⟨s'.istop, s'.itn, s'.x⟩, ?_, by simpa [rejected] using h2⟩
    unfold runSolver
    have := k1 _ (le_refl _)
    show Option.map _ (Lsmr.solve (real tiny30) _ _ o _ _) = _
    rw [this]; rfl

end Verif.LeastSquares

namespace Verif.Iteration
open Verif.Solver Verif.LeastSquares Verif.Catalog Verif.Relocate

/-- **C103c.** With enough damping, an iteration has no solution only if there is nothing to move: no event that may move is
in an observation with a weight. -/
theorem iteration_solved {su : SolverSetup} (hv : su.Visits) {so : SolverOptions ℝ} {it : Nat} {ops : List (SolverOp ℝ)}
    (hb : Fits ops) (hs : NoSeparator ops) (hc : Complete ops) (hne : ∀ o ∈ obsOf ops, o.e1 ≠ o.e2)
    (hreg : Regular (goalAt su so it) ops) {method : Method} (hm : su.method = some method)
    (hd : Damped (goalAt su so it) ops method) :
    (realSolver su so).solve it ops (goalAt su so it).damp = none ↔ ∀ k, ¬ Active (goalAt su so it) ops k := by
  generalize hgo : goalAt su so it = g at *
  have hnth : g.nth = su.nth := by rw [← hgo]; rfl
  have hnz : g.normalize = su.normalize := by rw [← hgo]; rfl
  have ha : g.absLoc = interpolate so.algoIterations it so.absLocConstraintStart so.absLocConstraintEnd := by rw [← hgo]; rfl
  have hw : g.down = interpolate so.algoIterations it so.downWeightingByResidualStart so.downWeightingByResidualEnd := by rw [← hgo]; rfl
  have hne' : ∀ o ∈ distinctObs ops, o.e1 ≠ o.e2 := fun o ho => hne o (firstBy_subset _ _ ho)
  obtain ⟨p, hp, hsys⟩ := prepared_some hv hb hs hc hnth hreg.deviation
  have hn := prepare_events (show (run ops).prepare _ _ _ _ _ = _ from hp)
  unfold realSolver
  simp only [← ha, ← hw, hp]
  unfold SolverSetup.solved
  by_cases he : (run ops).observations.isEmpty = true
  · rw [if_pos he]
    simp only [true_iff]
    rintro k ⟨o, ho, -⟩
    exact no_observations hb hs he ho
  · rw [if_neg he, hm]
    simp only
    rw [if_neg (fun hcon => not_degenerate hb hs hsys hn hreg hne' (by rw [hnz]; exact hcon.1) hcon.2), ← hnz]
    have hsz : LeastSquares.size p.dd g.normalize = total g ops := size_eq hb hs hsys hn hreg.deviation hne'
    have hnc : (p.dd.numCols : ℝ) = (events ops).card * 4 := by rw [columns_card hb hn]; push_cast; ring
    obtain ⟨reason, m, hsol⟩ := solve_accepted method p.dd (prepared_in_range hsys) su.iterations hd.1 g.normalize
      (normalizable hb hs hsys hn hreg hne')
      (by rintro rfl; rw [hsz, hnc]; exact hd.2) (by rintro rfl; rw [hsz]; exact hd.2)
    rw [hsol]
    simp only
    exact answer_none_iff hv hb hs hc hreg.deviation hnth hp hsys m

/-- **C103e.** With normalisation, a damping factor of 0.01 (the smallest default) or more is enough for both solvers as long as
there are no more than 16000 events. -/
theorem usual_damping {g : Goal} {ops : List (SolverOp ℝ)} (hnz : g.normalize = true) (h1 : 1 / 100 ≤ g.damp)
    (h2 : g.damp ≤ 10 ^ 100) (hc : (events ops).card ≤ 16000) (method : Method) : Damped g ops method := by
  have ht : total g ops ≤ (events ops).card * 4 := by
    unfold total
    have : ∀ k c, influence g ops (single k c) / unitOf g ops k c ^ 2 ≤ 1 := by
      intro k c
      have hnn : 0 ≤ influence g ops (single k c) := by
        unfold influence
        refine add_nonneg (List.sum_nonneg ?_) (List.sum_nonneg ?_) <;>
        · intro x hx
          obtain ⟨-, -, rfl⟩ := List.mem_map.1 hx
          positivity
      unfold unitOf
      rw [if_pos hnz, Real.sq_sqrt hnn]
      exact div_self_le_one _
    calc ∑ k ∈ events ops, ∑ c, influence g ops (single k c) / unitOf g ops k c ^ 2 ≤ ∑ k ∈ events ops, ∑ c : Fin 4, (1 : ℝ) :=
          Finset.sum_le_sum (fun k _ => Finset.sum_le_sum (fun c _ => this k c))
      _ = (events ops).card * 4 := by simp
  have hcr : ((events ops).card : ℝ) ≤ 16000 := by exact_mod_cast hc
  have hc0 : (0 : ℝ) ≤ (events ops).card := by positivity
  unfold Damped
  generalize ((events ops).card : ℝ) = n at *
  generalize total g ops = t at *
  generalize g.damp = d at *
  have hd2 : 1 / 10000 ≤ d ^ 2 := by nlinarith
  refine ⟨by linarith, ?_⟩
  cases method with
  | lsqr =>
    show (t + n * 4 * d ^ 2) * (n * 4) < (2 ^ 26 / 10 * d) ^ 2
    have e1 : t + n * 4 * d ^ 2 ≤ 64000 * (1 + d ^ 2) := by nlinarith
    have e2 : (t + n * 4 * d ^ 2) * (n * 4) ≤ 64000 * (1 + d ^ 2) * 64000 := by
      have : 0 ≤ 64000 * (1 + d ^ 2) := by positivity
      nlinarith
    have e3 : (2 ^ 26 / 10 * d) ^ 2 = (2 ^ 26 / 10) ^ 2 * d ^ 2 := by ring
    rw [e3]
    norm_num
    linarith
  | lsmr =>
    show d ≤ 10 ^ 100 ∧ 1 < 2 ^ 26 / 10 * d ∧ t + d ^ 2 < (2 ^ 26 / 10 * d) ^ 2
    refine ⟨h2, by linarith, ?_⟩
    have e3 : (2 ^ 26 / 10 * d) ^ 2 = (2 ^ 26 / 10) ^ 2 * d ^ 2 := by ring
    rw [e3]
    norm_num
    linarith

/-- **C103d.** A relocation whose iterations are damped enough, and in which some event with a weighted observation is left in
every iteration, makes all the iterations that were asked for. -/
theorem relocation_all_iterations {a : Args ℝ} (hg : GoodArgs a) (hself : ∀ kv ∈ a.cluster, kv.1 ∉ kv.2.ids) {su : SolverSetup}
    (hv : su.Visits) (hsol : a.sol = realSolver su a.so) {cat r : Catalog ℝ} (hs : cat.Sound) (hn : NoAt cat)
    {log : List (IterLog ℝ)} (h : relocate a cat = .ok (r, log)) {method : Method} (hm : su.method = some method)
    (hlog : ∀ i x, log[i]? = some x → i < a.so.algoIterations →
      Regular (goalAt su a.so i) x.ops ∧ Damped (goalAt su a.so i) x.ops method ∧ ∃ k, Active (goalAt su a.so i) x.ops k) :
    log.length = a.so.algoIterations + 1 ∧ ∀ i x, log[i]? = some x → i < a.so.algoIterations → x.answer.isSome = true := by
  obtain ⟨n, last, h1, h2, h3, h4, h5⟩ := relocation_iterations h
  have hn' : n = a.so.algoIterations := by
    rcases h4 with h4 | ⟨h4, h6⟩
    · exact h4
    · exfalso
      obtain ⟨hreg, hdm, k, hk⟩ := hlog n last h2 h4
      obtain ⟨hdp, -⟩ := (relocation_parameters h).2 n last h2
      obtain ⟨o1, o2, o3, o4, o5⟩ := iteration_ops hg hs hn h h2
      have hne : ∀ o ∈ obsOf last.ops, o.e1 ≠ o.e2 := by
        intro o ho he
        obtain ⟨kv, hkv, e1, e2⟩ := o4 o ho
        exact hself kv hkv (by rw [← e1, he]; exact e2)
      have hdamp : last.damping = (goalAt su a.so n).damp := hdp
      rw [hsol, hdamp] at h6
      exact (iteration_solved hv o1 o2 o3 hne hreg hm hdm).1 h6 k hk
  refine ⟨by omega, ?_⟩
  intro i x hx hi
  obtain ⟨x', ans, e1, e2, -⟩ := h5 i (by omega)
  rw [hx] at e1
  cases e1
  rw [e2]; rfl

end Verif.Iteration

/-! ## Examples -/

namespace Verif.Iteration.Example
open Verif.Solver Verif.LeastSquares Verif.Relocate Verif.Catalog

noncomputable def obs1 : ObsArg ℝ := ⟨1, 2, "N.A.".toList, "Pg".toList, durToSec 2000000, 1, false, 0⟩
noncomputable def par (k : Nat) (t : Int) : ParArg ℝ := ⟨k, "N.A.".toList, "Pg".toList, true, 3, durToSec t - 3, 1 / 1 * -1, 1 / 1 * -1, -1⟩
noncomputable def par1 : ParArg ℝ := par 1 5000000
noncomputable def par2 : ParArg ℝ := par 2 3000000

/-- two events that may move, and one observation -/
noncomputable def ops : List (SolverOp ℝ) :=
  [.event 1 46 7 5, .station "N.A.".toList 1 2 0, .params par1, .event 2 46 7 5, .station "N.A.".toList 1 2 0, .params par2, .obs obs1]

noncomputable def setup (method : Method) : SolverSetup := ⟨some method, 0, true, .sorting _, fun m => m, fun m => m, fun _ _ => none⟩

theorem setup_visits (method : Method) : (setup method).Visits := ⟨fun _ => .refl _, fun _ => .refl _⟩

/-- one iteration with the damping factor 1/100, without residual weights, with absolute locations -/
noncomputable def options : SolverOptions ℝ := ⟨1, 1 / 100, 1 / 100, 0, 0, 1 / 2, 1 / 2⟩

noncomputable def goal (method : Method) (it : Nat) : Goal := goalAt (setup method) options it

theorem distinct : distinctObs ops = [obs1] := rfl
theorem distinctP : distinctPars ops = [par1, par2] := by
  simp [distinctPars, ops, parOf, firstBy, ParArg.triple, par1, par2, par]
theorem p1 : paramsOf ops 1 "N.A.".toList "Pg".toList = some par1 := by simp [paramsOf, ops, parOf, ParArg.triple, par1, par2, par]
theorem p2 : paramsOf ops 2 "N.A.".toList "Pg".toList = some par2 := by simp [paramsOf, ops, parOf, ParArg.triple, par1, par2, par]
theorem weight (method : Method) (it : Nat) : obsWeight (goal method it) ops obs1 = 1 := by
  have : (goal method it).down = 0 := by simp [goal, goalAt, options, interpolate]
  simp [obsWeight, this, obs1]

theorem active (method : Method) (it : Nat) (k : Nat) (hk : k = 1 ∨ k = 2) : Active (goal method it) ops k := by
  refine ⟨obs1, by rw [distinct]; simp, by rw [weight]; exact one_ne_zero, ?_⟩
  rcases hk with rfl | rfl
  · exact ⟨par1, p1, rfl, .inl rfl⟩
  · exact ⟨par2, p2, rfl, .inr rfl⟩

theorem influence_ne (method : Method) (it : Nat) (k : Nat) (hk : k = 1 ∨ k = 2) (c : Fin 4) :
    influence (goal method it) ops (single k c) ≠ 0 := by
  have h1 : predicted ops (single k c) obs1 ≠ 0 := by
    unfold predicted effectAt
    simp only [obs1, p1, p2]
    rcases hk with rfl | rfl <;> fin_cases c <;> simp [effect, par1, par2, par, single, Fin.ext_iff]
  have h2 : 0 < (obsWeight (goal method it) ops obs1 * predicted ops (single k c) obs1) ^ 2 := by
    rw [weight, one_mul]; positivity
  unfold influence
  rw [distinct, distinctP]
  simp only [List.map_cons, List.map_nil, List.sum_cons, List.sum_nil]
  positivity

theorem mem_events (k : Nat) : k ∈ events ops ↔ k = 1 ∨ k = 2 := by
  simp [events, ops, mentioned, obs1, par1, par2, par]

theorem regular (method : Method) (it : Nat) : Regular (goal method it) ops := by
  constructor
  · intro h
    have : (goal method it).down = 0 := by simp [goal, goalAt, options, interpolate]
    rw [this] at h
    exact absurd h (lt_irrefl 0)
  · rintro - k ⟨o, ho, -, q, hq, hf, he⟩ c
    rw [distinct, List.mem_singleton] at ho
    subst ho
    refine influence_ne method it k ?_ c
    rcases he with rfl | rfl
    · exact .inl rfl
    · exact .inr rfl

theorem events_eq : events ops = {1, 2} := by
  ext k; rw [mem_events]; simp

theorem total_eq (method : Method) (it : Nat) : total (goal method it) ops = 8 := by
  have hu : ∀ k, k = 1 ∨ k = 2 → ∀ c, influence (goal method it) ops (single k c) / unitOf (goal method it) ops k c ^ 2 = 1 := by
    intro k hk c
    have hne := influence_ne method it k hk c
    have hnn : 0 ≤ influence (goal method it) ops (single k c) := by
      unfold influence
      rw [distinct, distinctP]
      simp only [List.map_cons, List.map_nil, List.sum_cons, List.sum_nil]
      positivity
    unfold unitOf
    rw [if_pos (by rfl), Real.sq_sqrt hnn, div_self hne]
  unfold total
  rw [events_eq]
  rw [Finset.sum_pair (by decide)]
  simp only [hu 1 (.inl rfl), hu 2 (.inr rfl)]
  simp
  norm_num

theorem damp (method : Method) (it : Nat) : (goal method it).damp = 1 / 100 := by
  simp [goal, goalAt, options, interpolate]

theorem damped (method : Method) (it : Nat) : Damped (goal method it) ops method := by
  refine ⟨by rw [damp]; norm_num, ?_⟩
  have hc : (events ops).card = 2 := by rw [events_eq]; rfl
  cases method with
  | lsqr => simp only [total_eq, damp, hc]; norm_num
  | lsmr => simp only [total_eq, damp]; norm_num

theorem good : Fits ops ∧ NoSeparator ops ∧ Complete ops ∧ ∀ o ∈ obsOf ops, o.e1 ≠ o.e2 := by
  refine ⟨by simp [Fits, ops, IdToIndex.uintMod], ?_, ?_, ?_⟩
  · simp [NoSeparator, ops, obsOf, parOf, obs1, par1, par2, par]
  · simp [Complete, ops, obsOf, parOf, eventsOf, ParArg.triple, obs1, par1, par2, par]
  · simp [ops, obsOf, obs1]

/-- both solvers find a solution, which moves both events and is as good as promised (C102a, C103c) -/
example (method : Method) (it : Nat) : ∃ ans, (realSolver (setup method) options).solve it ops (1 / 100) = some ans ∧
    (ans.changes 1).isSome = true ∧ (ans.changes 2).isSome = true ∧ (ans.changes 3).isSome = false ∧
    ∃ reason, Guarantee (goal method it) ops method reason (changes ans) := by
  obtain ⟨h1, h2, h3, h4⟩ := good
  have hs := iteration_solved (setup_visits method) (so := options) (it := it) h1 h2 h3 h4 (regular method it) rfl (damped method it)
  cases hans : (realSolver (setup method) options).solve it ops (goalAt (setup method) options it).damp with
  | none => exact absurd (active method it 1 (.inl rfl)) (hs.1 hans 1)
  | some ans =>
    obtain ⟨m1, method', reason, m2, m3⟩ := iteration_minimises (setup_visits method) h1 h2 h3 h4
      (by show 0 ≤ (goal method it).damp; rw [damp]; norm_num) (regular method it) hans
    cases m2
    refine ⟨ans, ?_, (m1 1).2 (active method it 1 (.inl rfl)), (m1 2).2 (active method it 2 (.inr rfl)), ?_, reason, m3⟩
    · rw [← damp method it]; exact hans
    · rw [← Bool.not_eq_true, m1 3]
      rintro ⟨o, ho, -, q, hq, hf, he⟩
      rw [distinct, List.mem_singleton] at ho
      subst ho
      simp [obs1] at he

/-- without an observation that counts there is nothing to solve -/
example (method : Method) (it : Nat) : (realSolver (setup method) options).solve it [.event 1 46 7 5] (1 / 100) = none := by
  have hs := (iteration_solved (setup_visits method) (so := options) (it := it) (ops := [.event 1 46 7 5]) (method := method)
    (by simp [Fits, IdToIndex.uintMod]) (by simp [NoSeparator, obsOf, parOf]) (by simp [Complete, obsOf]) (by simp [obsOf])
    ⟨fun h => absurd h (by simp [goalAt, options, interpolate]),
      by rintro - k ⟨o, ho, -⟩; simp [distinctObs, obsOf, firstBy] at ho⟩ rfl ?_).2 ?_
  · have h : (goalAt (setup method) options it).damp = 1 / 100 := damp method it
    rw [h] at hs; exact hs
  · have ht : total (goalAt (setup method) options it) [.event 1 46 7 5] = 0 := by
      unfold total influence
      simp [distinctObs, distinctPars, obsOf, parOf, firstBy]
    have hd : (goalAt (setup method) options it).damp = 1 / 100 := damp method it
    have hc : (events [SolverOp.event 1 (46 : ℝ) 7 5]).card = 1 := by simp [events, mentioned]
    refine ⟨by rw [hd]; norm_num, ?_⟩
    cases method with
    | lsqr => simp only [ht, hd, hc]; norm_num
    | lsmr => simp only [ht, hd]; norm_num
  · rintro k ⟨o, ho, -⟩
    simp [distinctObs, obsOf, firstBy] at ho

/-! a relocation of two events, with one iteration -/

noncomputable def env : Env ℝ :=
  ⟨fun _ _ _ => some ⟨3, 0, 0, 1, 1⟩, false, fun _ => 1, fun _ => 1, 1, fun x y lat lon _ => (lat + y, lon + x),
    fun t => ⌊t * 1000000⌋, Real.sqrt⟩

noncomputable def args (method : Method) : Args ℝ where
  env := env
  so := options
  o := ⟨false, false, 2, fun _ => some (1 / 2)⟩
  xc := []
  cluster := RealExample.pair
  sol := realSolver (setup method) options

theorem args_good (method : Method) : GoodArgs (args method) := by
  have h : (args method).cluster = RealExample.pair := rfl
  exact ⟨by rw [h]; exact ⟨by decide, by decide⟩, by rw [h]; decide⟩

/-- what the solver is told in the first iteration -/
theorem first_ops (method : Method) : ∃ ob, observe env (args method).o [] RealExample.pair Catalog.init RealExample.bg = .ok ob ∧ ob.ops = ops :=
  ⟨_, rfl, rfl⟩

/-- both events are moved, by almost the best changes (C102b, C103d) -/
example (method : Method) : ∃ (r : Catalog ℝ) (x y : IterLog ℝ) (δ : Changes) (reason : Nat),
    relocate (args method) RealExample.bg = .ok (r, [x, y]) ∧ Guarantee (goal method 0) x.ops method reason δ ∧
    ∀ k, k = 1 ∨ k = 2 → ∀ ev, x.after.events.find? k = some ev → ∃ ev', y.before.events.find? k = some ev' ∧
      ev'.depth = ev.depth - δ k 2 := by
  have hpair : Pairable RealExample.bg (args method).o.minCoef (args method).cluster :=
    ⟨RealExample.pairable.event, RealExample.pairable.pairs, fun _ _ _ _ _ _ _ => rfl⟩
  have hself : ∀ kv ∈ (args method).cluster, kv.1 ∉ kv.2.ids := by
    show ∀ kv ∈ RealExample.pair, kv.1 ∉ kv.2.ids
    decide
  have hin : ∀ kv ∈ (args method).cluster, ∀ n ∈ kv.2.ids, n ∈ (args method).cluster.map (·.1) := by
    show ∀ kv ∈ RealExample.pair, ∀ n ∈ kv.2.ids, n ∈ RealExample.pair.map (·.1)
    decide
  obtain ⟨⟨r, log⟩, h⟩ := relocate_total (args_good method) RealExample.bg_sound RealExample.bg_noAt hpair
    (realSolver_prepares (setup_visits method) options)
  · have hops : ∀ x, log[0]? = some x → x.ops = ops := by
      intro x hx
      obtain ⟨prev, hok, -, hcase⟩ := entry_facts (args_good method) RealExample.bg_sound RealExample.bg_noAt h hx
      obtain ⟨ob, h1, h2, -⟩ := hok.observe
      rcases hcase with ⟨-, e1, e2⟩ | ⟨w, ans, h0, -⟩
      · rw [e1, e2] at h1
        obtain ⟨ob', h3, h4⟩ := first_ops method
        have := h3.symm.trans h1
        cases this
        rw [← h2, h4]
      · exact absurd h0 (lt_irrefl 0)
    obtain ⟨hlen, -⟩ := relocation_all_iterations (args_good method) hself (setup_visits method) rfl RealExample.bg_sound
      RealExample.bg_noAt h rfl (by
        intro i x hx hi
        obtain rfl : i = 0 := by have : i < 1 := hi; omega
        rw [hops x hx]
        exact ⟨regular method 0, damped method 0, 1, active method 0 1 (.inl rfl)⟩)
    have hl2 : log.length = 2 := hlen
    match log, hl2, h, hops with
    | [x, y], _, h, hops =>
      obtain ⟨δ, method', reason, hm, hgu, hmv⟩ := relocation_minimises (args_good method) hself (.inr hin) (setup_visits method) rfl
        RealExample.bg_sound RealExample.bg_noAt h (i := 0) (x := x) (y := y) rfl rfl
        (by show 0 ≤ (goal method 0).damp; rw [damp]; norm_num) (by rw [hops x rfl]; exact regular method 0)
      cases hm
      refine ⟨r, x, y, δ, reason, h, hgu, ?_⟩
      intro k hk ev hev
      obtain ⟨ev', g1, g2, -⟩ := hmv k ev hev
      refine ⟨ev', g1, (g2 ?_).2.1⟩
      rw [hops x rfl]
      exact active method 0 k hk

end Verif.Iteration.Example
