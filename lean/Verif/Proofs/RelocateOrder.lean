import Verif.Proofs.AnswerOrder
import Verif.Proofs.RelocateTotalMulti

/-! Helper lemmas for C107: relocations with solvers that give the same answers. -/

set_option linter.unusedSectionVars false
set_option linter.unusedSimpArgs false

namespace Verif.Relocate
open Verif.Catalog Verif.Solver

variable {K : Type} [Field K] [LinearOrder K]

/-- the same answers for every history that can be prepared -/
def SameAnswers (sol sol' : SolverAnswers K) : Prop :=
  ∀ it ops damping, Fits ops → NoSeparator ops → Complete ops → sol.solve it ops damping = sol'.solve it ops damping

theorem loop_answers {a : Args K} {sol' : SolverAnswers K} (hg : GoodArgs a) {cat : Catalog K}
    (hpair : Pairable cat a.o.minCoef a.cluster) (hsol : Prepares a.sol) (hsol' : Prepares sol') (hsame : SameAnswers a.sol sol')
    (n it : Nat) (s : LoopState K) (hs : Rel a.cluster cat s.cur) (hp : s.prev = Catalog.init ∨ Rel a.cluster cat s.prev) :
    loop a n it s = loop { a with sol := sol' } n it s := by
  induction n generalizing it s with
  | zero => rfl
  | succ n ih =>
    obtain ⟨ob, h1, h2⟩ := observe_total (env := a.env) (o := a.o) (xc := a.xc) hg.cluster hpair hp hs
    obtain ⟨p1, p2, p3⟩ := prev_ok hs hp
    have hinv := observe_inv hs.sound hs.noAt p1 p2 p3 hg.cluster hg.fits h1
    have hops := observe_ops hs.sound hs.noAt p1 p2 p3 hg.cluster hg.fits h1
    obtain ⟨cur, h3⟩ := computeEventResiduals_total (env := a.env) (u := a.o.usePickUncertainties) (first := decide (it = 0))
      (ops := ob.ops) hg.cluster hpair.event h2
    have hcur := h2.residuals hg.cluster h3
    have hfit : Fits ob.ops := by
      have := hinv.len
      have := hg.fits
      unfold Fits
      omega
    have hprep := fun x y => hsol it ob.ops x y hfit hinv.sep hops.complete
    have hprep' := fun x y => hsol' it ob.ops x y hfit hinv.sep hops.complete
    have hsv := fun d => hsame it ob.ops d hfit hinv.sep hops.complete
    unfold loop iteration
    simp only [h1, h3, hprep, hprep', Outcome.bind_ok]
    by_cases hl : it = a.so.algoIterations
    · rw [if_pos hl, if_pos hl]
      rfl
    · rw [if_neg hl, if_neg hl, ← hsv]
      cases a.sol.solve it ob.ops (interpolate a.so.algoIterations it a.so.dampingFactorStart a.so.dampingFactorEnd) with
      | none => rfl
      | some ans =>
        obtain ⟨new, h4⟩ := updateRelocatedEvents_total (env := a.env) (first := decide (it = 0)) (ans := ans) hg.cluster hpair.event hcur
        simp only [h4, Outcome.bind_ok, if_true]
        exact ih (it + 1) _ (hcur.updated hg.cluster h4) (Or.inr hcur)

theorem relocate_answers {a : Args K} {sol' : SolverAnswers K} (hg : GoodArgs a) {cat : Catalog K} (hs : cat.Sound) (hn : NoAt cat)
    (hpair : Pairable cat a.o.minCoef a.cluster) (hsol : Prepares a.sol) (hsol' : Prepares sol') (hsame : SameAnswers a.sol sol') :
    relocate a cat = relocate { a with sol := sol' } cat := by
  unfold relocate
  rw [loop_answers hg hpair hsol hsol' hsame _ _ _ (Rel.refl hs hn) (Or.inl rfl)]

end Verif.Relocate
