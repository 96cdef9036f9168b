import Verif.Proofs.DataFactor
import Verif.Props.WeightFactor

/-!
# C137: the corrections are proportional to the residuals
-/

namespace Verif.LeastSquares

variable {c : ℝ}

/-- **C137a** LSMR: if all residuals of a double-difference system are multiplied by a positive factor, the solver stops after the same
steps for the same reason, is rejected or not alike, and all corrections are multiplied by the factor. With or without normalisation, for
every damping factor, every limit of the iterations and all weights. -/
theorem corrections_proportional (hc : 0 < c) (dd : DDSystem ℝ) (iterations : Nat) (damping : ℝ) (normalize : Bool) :
    solveDD .lsmr { dd with d := fun r => c * dd.d r } iterations damping normalize =
      (solveDD .lsmr dd iterations damping normalize).map (fun x => (x.1, fun i => c * x.2 i)) :=
  solveDD_of_run dd iterations damping normalize (run_times hc)

/-- **C137b** LSQR and LSMR: residuals of the other sign give corrections of the other sign, exactly. -/
theorem corrections_odd (method : Method) (dd : DDSystem ℝ) (iterations : Nat) (damping : ℝ) (normalize : Bool) :
    solveDD method { dd with d := fun r => -dd.d r } iterations damping normalize =
      (solveDD method dd iterations damping normalize).map (fun x => (x.1, fun i => -x.2 i)) := by
  have h := solveDD_of_run (c := -1) dd iterations damping normalize (run_minus method)
  unfold dataTimes at h
  simpa only [neg_mul, one_mul] using h

/-- **C137c** LSMR: the corrections are multiplied by every factor other than zero the residuals are multiplied by. -/
theorem corrections_homogeneous (hc : c ≠ 0) (dd : DDSystem ℝ) (iterations : Nat) (damping : ℝ) (normalize : Bool) :
    solveDD .lsmr { dd with d := fun r => c * dd.d r } iterations damping normalize =
      (solveDD .lsmr dd iterations damping normalize).map (fun x => (x.1, fun i => c * x.2 i)) := by
  rcases lt_or_gt_of_ne hc with h | h
  · have h1 := corrections_odd .lsmr { dd with d := fun r => -c * dd.d r } iterations damping normalize
    rw [corrections_proportional (neg_pos.2 h)] at h1
    simp only [neg_mul, neg_neg] at h1
    rw [h1]
    cases solveDD .lsmr dd iterations damping normalize with
    | ok x => simp [Outcome.map]
    | throws => rfl
    | ub => rfl
  · exact corrections_proportional h dd iterations damping normalize

/-! ## Concrete cases -/

/-- residuals three times as large, and of the other sign -/
example (n : Nat) (damping : ℝ) :
    solveDD .lsmr { Example.system with d := fun r => -3 * Example.system.d r } n damping true =
      (solveDD .lsmr Example.system n damping true).map (fun x => (x.1, fun i => -3 * x.2 i)) :=
  corrections_homogeneous (by norm_num) _ _ _ _

example (method : Method) (n : Nat) (damping : ℝ) :
    solveDD method { Example.system with d := fun r => -Example.system.d r } n damping true =
      (solveDD method Example.system n damping true).map (fun x => (x.1, fun i => -x.2 i)) := corrections_odd _ _ _ _ _

end Verif.LeastSquares
