import Verif.Proofs.FloatSolve
import Mathlib.Tactic.Linarith
set_option linter.unusedSimpArgs false
set_option linter.unusedSectionVars false

/-!
# C119: what becomes of values that are not numbers in the solver
-/

namespace Verif.FloatSolve
open Verif.LeastSquares

section
variable {K : Type} [Add K] [Sub K] [Mul K] [Div K] [Neg K] [Zero K] [One K] [BEq K] [LT K] [LE K]
  [DecidableLT K] [DecidableLE K] {F : Fns K} {bad : K → Prop}

theorem scaled_W (dd : DDSystem K) (normalize : Bool) : (scaled F dd normalize).W = dd.W := by
  unfold scaled; split <;> rfl
theorem scaled_d (dd : DDSystem K) (normalize : Bool) : (scaled F dd normalize).d = (adapter dd).d := by
  unfold scaled; split <;> rfl
theorem scaled_rows (dd : DDSystem K) (normalize : Bool) : numRows (scaled F dd normalize) = numRows dd := by
  unfold scaled; split <;> rfl
theorem scaled_cols (dd : DDSystem K) (normalize : Bool) : numCols (scaled F dd normalize) = numCols dd := by
  unfold scaled; split <;> rfl

/-- the data the solver works on contain a value that is not a number -/
theorem data_bad (h : NaN F bad) {dd : DDSystem K} {ob : Nat} (hrow : BadRow bad dd ob) (normalize : Bool) :
    bad ((scaled F dd normalize).d ob) := by
  obtain ⟨h1, h2, h3⟩ := hrow
  rw [scaled_d]
  unfold adapter
  simp only
  rw [if_pos (show ob < numRows dd from h1), if_neg (by rw [h2]; simp)]
  exact h.mul _ _ h3.symm

theorem firstVectors_bad (h : NaN F bad) {m n : Nat} (P : Products m n K) {b : Fin m → K} {i : Fin m} (hb : bad (b i)) :
    (firstVectors F P b).alpha = 0 ∧ bad (firstVectors F P b).beta := by
  have hn := dnrm2_bad h hb
  unfold firstVectors
  simp only
  rw [if_neg (h.lt _ _ (.inr hn))]
  exact ⟨rfl, hn⟩

/-- the solver ends -/
theorem runs (F : Fns K) (big : K) (method : Method) (dd : DDSystem K) (o : Settings K) : ∃ r, runSolver F big method dd o = some r := by
  cases method with
  | lsqr =>
    obtain ⟨s, h, -⟩ := lsqr_ends F (products dd) o (first _ dd.d)
    exact ⟨(s.istop, s.x), by unfold runSolver; simp only; rw [h _ le_rfl]; rfl⟩
  | lsmr =>
    obtain ⟨s, h, -⟩ := lsmr_ends F (products dd) big o (first _ dd.d)
    exact ⟨(s.istop, s.x), by unfold runSolver; simp only; rw [h _ le_rfl]; rfl⟩

/-- **C119a.** If the weight or the datum of one row with a weight is not a number, then nothing in the solution is a number: whatever the
method, the damping, the settings, the scaling, and however the arithmetic rounds. -/
theorem nan_spoils_all (h : NaN F bad) {big : K} {method : Method} {dd : DDSystem K} {o : Settings K} {normalize : Bool} {reason : Nat}
    {m : Nat → K} {ob : Nat} (hrow : BadRow bad dd ob) (hs : solve F big method dd o normalize = .ok (reason, m)) {c : Nat}
    (hc : c < dd.nEvts * 4) : bad (m c) := by
  have hc' : c < numCols (scaled F dd normalize) := by rw [scaled_cols]; exact hc
  have hob : ob < numRows (scaled F dd normalize) := by rw [scaled_rows]; exact hrow.1
  have hd := data_bad h hrow normalize
  unfold solve at hs
  generalize scaled F dd normalize = a at *
  have hx : ∀ r x, runSolver F big method a o = some (r, x) → ∀ i, bad (x i) := by
    intro r x hr
    cases method with
    | lsqr =>
      obtain ⟨t, h1, h2⟩ := Option.map_eq_some_iff.1 hr
      cases h2
      have hf := firstVectors_bad h (products a) (b := first _ a.d) (i := ⟨ob, hob⟩) hd
      rcases lsqr_solve_bad h (fun i => lsqr_step_bad h (.inl hf.2) i) h1 with ⟨h0, -⟩ | h2
      · exact absurd (h0.symm.trans (h.eq _ _ (.inl (h.mul _ _ (.inr hf.2))))) (by simp)
      · exact h2
    | lsmr =>
      obtain ⟨t, h1, h2⟩ := Option.map_eq_some_iff.1 hr
      cases h2
      have hf := firstVectors_bad h (products a) (b := scale (-1) ((products a).aprod1 (fun _ => 0) (scale (-1) (first _ a.d))))
        (i := ⟨ob, hob⟩) (by
          refine h.mul _ _ (.inl ?_)
          refine aprod1_keeps h a _ ob _ _ ?_
          unfold array
          rw [dif_pos hob]
          exact h.mul _ _ (.inl hd))
      rcases lsmr_solve_bad h (fun i => lsmr_step_bad h (.inl (h.mul _ _ (.inr hf.2))) i) h1 with ⟨h0, -⟩ | h2
      · exact absurd (h0.symm.trans (h.eq _ _ (.inl (h.mul _ _ (.inr hf.2))))) (by simp)
      · exact h2
  cases hr : runSolver F big method a o with
  | none => rw [hr] at hs; cases hs
  | some rx =>
    obtain ⟨r, x⟩ := rx
    rw [hr] at hs
    unfold deliver at hs
    simp only at hs
    split at hs
    · cases hs
    · cases hs
      have hx' : bad (array x c) := by
        unfold array
        rw [dif_pos hc']
        exact hx _ x hr ⟨c, hc'⟩
      split
      · unfold l2denormalize
        rw [if_pos hc']
        exact h.mul _ _ (.inl hx')
      · exact hx'

/-- **C119b.** If a scaled derivative of an observation with a weight is not a number (a scaling factor that is an infinity, because
nothing depends on the coordinate), then nothing in the solution is a number either, unless the solver finds nothing to improve before
its first step, and then no coordinate is changed. -/
theorem bad_derivative_spoils_all (h : NaN F bad) {big : K} {method : Method} {dd : DDSystem K} {o : Settings K} {normalize : Bool}
    {reason : Nat} {m : Nat → K} {ob : Nat} (hrow : BadDerivative bad (scaled F dd normalize) ob)
    (hs : solve F big method dd o normalize = .ok (reason, m)) :
    (∀ c < dd.nEvts * 4, bad (m c)) ∨ ∀ c < dd.nEvts * 4, m c = if normalize then 0 * (scaled F dd normalize).scaler c else 0 := by
  have hc' : ∀ c, c < dd.nEvts * 4 → c < numCols (scaled F dd normalize) := by intro c hc; rw [scaled_cols]; exact hc
  unfold solve at hs
  generalize scaled F dd normalize = a at *
  have hob : ob < numRows a := hrow.1
  have hbeta : ∀ v : Vectors (numRows a) (numCols a) K, bad (nextVectors F (products a) v).beta := by
    intro v
    have hu : bad (dnrm2 F ((products a).aprod1 v.v (scale (-v.alpha) v.u))) := by
      refine dnrm2_bad h (i := ⟨ob, hob⟩) ?_
      exact aprod1_spoils h a _ ob hrow.2.1 (h.mul _ _ (.inr (rowSum_bad h hrow _))) _ _ (List.mem_range.2 hob)
    unfold nextVectors
    simp only
    rw [if_neg (h.lt _ _ (.inr hu))]
    exact hu
  have hx : ∀ r x, runSolver F big method a o = some (r, x) → (∀ i, bad (x i)) ∨ ∀ i, x i = 0 := by
    intro r x hr
    cases method with
    | lsqr =>
      obtain ⟨t, h1, h2⟩ := Option.map_eq_some_iff.1 hr
      cases h2
      rcases lsqr_solve_bad h (fun i => lsqr_step_bad h (.inr (.inr (hbeta _))) i) h1 with ⟨-, h0⟩ | h2
      · exact .inr h0
      · exact .inl h2
    | lsmr =>
      obtain ⟨t, h1, h2⟩ := Option.map_eq_some_iff.1 hr
      cases h2
      rcases lsmr_solve_bad h (fun i => lsmr_step_bad h (.inr (hbeta _)) i) h1 with ⟨-, h0⟩ | h2
      · exact .inr h0
      · exact .inl h2
  cases hr : runSolver F big method a o with
  | none => rw [hr] at hs; cases hs
  | some rx =>
    obtain ⟨r, x⟩ := rx
    rw [hr] at hs
    unfold deliver at hs
    simp only at hs
    split at hs
    · cases hs
    · cases hs
      have ha : ∀ c (hc : c < dd.nEvts * 4), array x c = x ⟨c, hc' c hc⟩ := by
        intro c hc
        unfold array
        rw [dif_pos (hc' c hc)]
      rcases hx _ x hr with hx | hx
      · refine .inl (fun c hc => ?_)
        split
        · unfold l2denormalize
          rw [if_pos (hc' c hc), ha c hc]
          exact h.mul _ _ (.inl (hx _))
        · rw [ha c hc]; exact hx _
      · refine .inr (fun c hc => ?_)
        split
        · unfold l2denormalize
          rw [if_pos (hc' c hc), ha c hc, hx]
        · rw [ha c hc, hx]

end

/-! ## Numbers, infinities and NaN -/

/-- the values of `Fl` that are not numbers are so in the sense of the specification -/
theorem fl_nan : NaN flFns (fun x : Fl ℝ => x = .nan) := by
  constructor
  · rintro a b (rfl | rfl)
    · rfl
    · cases a <;> rfl
  · rintro a b (rfl | rfl)
    · rfl
    · cases a <;> rfl
  · rintro a b (rfl | rfl)
    · rfl
    · cases a <;> rfl
  · rintro a b (rfl | rfl)
    · rfl
    · cases a <;> rfl
  · rintro a rfl; rfl
  · rintro a rfl; rfl
  · rintro a rfl; rfl
  · rintro a b (rfl | rfl) h
    · cases b <;> cases h
    · cases a <;> cases h
  · rintro a b (rfl | rfl) h
    · cases b <;> cases h
    · cases a <;> cases h
  · rintro a b (rfl | rfl)
    · rfl
    · cases a <;> rfl

/-- the events of the statistics -/
theorem loaded_events (stats : Solver.StatsMap ℝ) (n : Nat) : (∀ x ∈ stats, x.1.1 < n) → ∀ acc : AMap Nat (Solver.Delta ℝ),
    (∀ x ∈ acc, x.1 < n) → ∀ x ∈ stats.foldl (fun (acc : AMap Nat (Solver.Delta ℝ)) x =>
      if x.2.1 > 0 then acc.set x.1.1 ⟨.num 0, .num 0, .num 0, .num 0⟩ else acc) acc, x.1 < n := by
  induction stats with
  | nil => exact fun _ _ ha => ha
  | cons y l ih =>
    intro hs acc ha
    refine ih (fun x hx => hs x (List.mem_cons_of_mem _ hx)) _ ?_
    simp only
    split
    · intro x hx
      rcases List.mem_cons.1 hx with rfl | hx
      · exact hs y (List.mem_cons_self ..)
      · exact ha x (List.mem_of_mem_filter hx)
    · exact ha

/-- **C119c.** The solver gives up if a weight or a datum with a weight is not a number: there is no event with a change. -/
theorem nan_refused {method : Method} {dd : DDSystem (Fl ℝ)} {stats : Solver.StatsMap ℝ} (hst : ∀ x ∈ stats, x.1.1 < dd.nEvts) {ob : Nat}
    (hrow : ob < dd.nObs + dd.nTT) (hbad : dd.W ob = .nan ∨ dd.W ob ≠ .num 0 ∧ dd.d ob = .nan) (numIterations : Nat) (damp : Fl ℝ)
    (normalize : Bool) : solveFl method dd stats numIterations damp normalize = .throws := by
  have hb : BadRow (fun x : Fl ℝ => x = .nan) dd ob := by
    refine ⟨hrow, ?_, ?_⟩
    · show eqFl (dd.W ob) (.num 0) = false
      rcases hbad with h | ⟨h, -⟩
      · rw [h]; rfl
      · cases hw : dd.W ob with
        | nan => rfl
        | inf s => rfl
        | num x => exact decide_eq_false (by rw [← hw]; exact h)
    · rcases hbad with h | ⟨-, h⟩
      · exact .inl h
      · exact .inr h
  unfold solveFl
  cases hs : solve flFns (.num big100) method dd (flSettings (numCols dd) numIterations damp) normalize with
  | throws => rfl
  | ub =>
    exfalso
    unfold solve at hs
    obtain ⟨r, hr⟩ := runs flFns (.num big100) method (scaled flFns dd normalize) (flSettings (numCols dd) numIterations damp)
    rw [hr] at hs
    unfold deliver at hs
    simp only at hs
    split at hs <;> cases hs
  | ok rm =>
    obtain ⟨r, m⟩ := rm
    simp only [Outcome.bind_ok]
    rw [if_pos]
    rw [List.isEmpty_iff]
    unfold Solver.loadSolutions
    simp only
    rw [List.filterMap_eq_nil_iff]
    intro x hx
    have hlt := loaded_events stats dd.nEvts hst [] (by simp) x hx
    have hm : m (x.1 * 4 + 0) = .nan := nan_spoils_all fl_nan hb hs (by omega)
    unfold Solver.fetchDelta
    simp only [hm]
    rfl

namespace Example

/-- an arithmetic that computes: rational numbers, infinities and NaN, with a crude square root -/
def crude : Fns (Fl ℚ) := ⟨fun x => match x with | .num x => if x < 0 then .nan else .num x | .inf false => .inf false | _ => .nan,
  fun x => match x with | .num x => .num |x| | .inf _ => .inf false | .nan => .nan, .num (1 / 10 ^ 30)⟩

theorem crude_nan : NaN crude (fun x : Fl ℚ => x = .nan) := by
  constructor
  case neg => rintro a rfl; rfl
  case sqrt => rintro a rfl; rfl
  case abs => rintro a rfl; rfl
  case lt =>
    rintro a b (rfl | rfl) h
    · cases b <;> cases h
    · cases a <;> cases h
  case le =>
    rintro a b (rfl | rfl) h
    · cases b <;> cases h
    · cases a <;> cases h
  all_goals
    rintro a b (rfl | rfl)
    · rfl
    · cases a <;> rfl

/-- two events observed at one station; `w` is the weight and `g` the derivative with respect to the first coordinate of the first event -/
def system {R : Type} [Field R] (w : Fl R) (g : R) (d : R) : DDSystem (Fl R) where
  nObs := 1
  nEvts := 2
  nPhStas := 1
  nTT := 0
  W := fun _ => w
  G := fun i k => if i = 0 ∧ k = 0 then .num g else .num 1
  d := fun _ => .num d
  scaler := fun _ => .num 1
  ev1 := fun _ => some 0
  ev2 := fun _ => some 1
  phSta := fun _ => 0

def settings : Settings (Fl ℚ) := ⟨.num (1 / 100), .num (1 / 10 ^ 6), .num (1 / 10 ^ 6), .num (10 ^ 7), 2⟩

/-- the stopping reason and the values of the eight unknowns -/
def shown : Outcome (Nat × (Nat → Fl ℚ)) → Option (Nat × List (Fl ℚ))
  | .ok (r, m) => some (r, (List.range 8).map m)
  | _ => none

/-- a weight that is not a number: the solvers run to the limit of iterations and return nothing but NaN (C119a) -/
example : BadRow (fun x : Fl ℚ => x = .nan) (system .nan 1 1) 0 ∧
    shown (solve crude (.num (10 ^ 100)) .lsqr (system .nan 1 1) settings true) = some (5, List.replicate 8 .nan) ∧
    shown (solve crude (.num (10 ^ 100)) .lsmr (system .nan 1 1) settings false) = some (7, List.replicate 8 .nan) :=
  ⟨⟨by decide, rfl, .inl rfl⟩, by decide +kernel, by decide +kernel⟩

/-- with the weight 1 they are numbers -/
example : (shown (solve crude (.num (10 ^ 100)) .lsqr (system (.num 1) 0 1) settings false)).map (fun x => x.2.all (fun y => y != .nan)) =
    some true := by decide +kernel

/-- a coordinate without a derivative: the scaling factor is an infinity (C119b) -/
example : BadDerivative (fun x : Fl ℚ => x = .nan) (scaled crude (system (.num 1) 0 1) true) 0 ∧
    (scaled crude (system (.num 1) 0 1) true).scaler 0 = .inf false ∧
    shown (solve crude (.num (10 ^ 100)) .lsqr (system (.num 1) 0 1) settings true) = some (5, List.replicate 8 .nan) ∧
    shown (solve crude (.num (10 ^ 100)) .lsqr (system (.num 1) 0 0) settings true) = some (0, .nan :: List.replicate 7 (.num 0)) :=
  ⟨⟨by decide, by decide +kernel, 0, 0, by decide, .inl rfl, by decide +kernel⟩, by decide +kernel, by decide +kernel, by decide +kernel⟩

/-- one observation with a residual weight that is not a number (C119c) -/
example (method : Method) (normalize : Bool) :
    solveFl method (system .nan 1 1) [((0, 0), (1, 1)), ((1, 0), (1, 1))] 0 (.num (1 / 100)) normalize = .throws :=
  nan_refused (ob := 0) (by simp [system]) (by simp [system]) (.inl rfl) 0 _ _

end Example

end Verif.FloatSolve
