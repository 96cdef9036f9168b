import Verif.Spec.FloatIteration
import Verif.Props.FloatExact
import Verif.Props.FittedData
set_option linter.unusedSimpArgs false

/-!
# C119 in a relocation: weights and scaling factors that are not numbers move nothing
-/

namespace Verif.FloatSolve
open Verif.LeastSquares Verif.Solver Verif.Iteration Verif.Relocate Verif.Catalog

theorem faithful_exists (su : SolverSetup) (so : SolverOptions ℝ) : ∃ odd, Faithful { su with odd := odd } so := by
  refine ⟨fun it ops =>
    match su.prepared ops (goalAt su so it).absLoc (goalAt su so it).down with
    | .ok (some p) => floatSolved su ops p (goalAt su so it).damp
    | _ => none, ?_, ?_⟩
  · intro it ops h
    have h' : su.prepared ops (goalAt su so it).absLoc (goalAt su so it).down = .ok none := h
    simp only [h']
  · intro it ops p h _ _
    have h' : su.prepared ops (goalAt su so it).absLoc (goalAt su so it).down = .ok (some p) := h
    simp only [h']
    rfl

variable {su : SolverSetup} {so : SolverOptions ℝ} {it : Nat} {ops : List (SolverOp ℝ)}

theorem ready (hv : su.Visits) (hb : Fits ops) (hs : NoSeparator ops) (hc : Complete ops) {absLoc down : ℝ} {p : Prepared ℝ}
    (hp : su.prepared ops absLoc down = .ok (some p)) : Ready ops su.nth absLoc down p := by
  rcases ready_of (nth := su.nth) (ttc := absLoc) (rdw := down) hb hs hc (hv.obs _) (hv.params _) with ⟨p', h1, h2⟩ | ⟨h1, -⟩
  · have h1' : su.prepared ops absLoc down = .ok (some p') := h1
    rw [hp] at h1'
    cases h1'
    exact h2
  · have h1' : su.prepared ops absLoc down = .ok none := h1
    rw [hp] at h1'
    cases h1'

theorem prepared_ok (hv : su.Visits) (hb : Fits ops) (hs : NoSeparator ops) (hc : Complete ops) (absLoc down : ℝ) :
    (∃ p, su.prepared ops absLoc down = .ok (some p)) ∨ su.prepared ops absLoc down = .ok none := by
  rcases ready_of (nth := su.nth) (ttc := absLoc) (rdw := down) hb hs hc (hv.obs _) (hv.params _) with ⟨p, h1, -⟩ | ⟨h1, -⟩
  · exact .inl ⟨p, h1⟩
  · exact .inr h1

/-- weights relative to a deviation of zero -/
theorem residualWeight_zero {alpha r w : ℝ} (h : residualWeight alpha 0 r = .num w) : w = 0 := by
  unfold residualWeight at h
  simp only [mul_zero, zero_div] at h
  by_cases hr : r = 0
  · simp only [Fl.div, hr, if_true, Fl.square, Fl.mul, Fl.sub, Fl.neg, Fl.add, Fl.max, Fl.lt, Bool.false_eq_true, if_false] at h
    cases h
  · simp only [Fl.div, hr, if_true, if_false, Fl.square, Fl.mul, Fl.sub, Fl.neg, Fl.add, Fl.max, Fl.lt, Bool.xor_self, Bool.not_false,
      decide_true, mul_zero, Fl.num.injEq] at h
    simpa using h.symm

/-- without a weight there are no statistics -/
theorem stats_nil {nth : NthElement (id : ℝ → ℝ)} {ttc rdw : ℝ} {p : Prepared ℝ} (hp : Ready ops nth ttc rdw p)
    (hW : ∀ i < p.dd.nObs, p.dd.W i = 0) : p.stats = [] := by
  cases hst : p.stats with
  | nil => rfl
  | cons x l =>
    exfalso
    have hf := AMap.find?_of_mem hp.nodup (k := x.1) (v := x.2) (by rw [hst]; exact List.mem_cons_self ..)
    obtain ⟨⟨e, ph⟩, v⟩ := x
    rw [hp.stats] at hf
    have hne : weightsAt p.dd.nObs p.dd.W p.dd.ev1 p.dd.ev2 p.dd.phSta e ph ≠ [] := by
      intro hc; rw [hc] at hf; simp [statOf] at hf
    obtain ⟨i, hi, hWi, -⟩ := weightsAt_ne_nil.1 hne
    exact hWi (hW i hi)

/-- **C119h.** If residual weights are used and the deviation they are measured by is zero, there is no solution, whatever the data. -/
theorem no_deviation_no_solution (hv : su.Visits) (hf : Faithful su so) (hb : Fits ops) (hs : NoSeparator ops) (hc : Complete ops)
    (hdown : 0 < (goalAt su so it).down) (hdev : deviation (goalAt su so it) ops = 0) :
    (realSolver su so).solve it ops (goalAt su so it).damp = none := by
  have hfw := hf.weights it ops
  have hfs := hf.scaling it ops
  generalize hgo : goalAt su so it = g at *
  have hnth : g.nth = su.nth := by rw [← hgo]; rfl
  have ha : g.absLoc = interpolate so.algoIterations it so.absLocConstraintStart so.absLocConstraintEnd := by rw [← hgo]; rfl
  have hw : g.down = interpolate so.algoIterations it so.downWeightingByResidualStart so.downWeightingByResidualEnd := by rw [← hgo]; rfl
  unfold realSolver
  simp only [← ha, ← hw]
  rcases prepared_ok hv hb hs hc g.absLoc g.down with ⟨p, hp⟩ | hp
  · have hr := ready hv hb hs hc hp
    have hsys : IsSystemOf ops g.nth g.absLoc g.down p := by rw [hnth]; exact hr.sys
    have hrows : p.dd.nObs = (distinctObs ops).length := hr.sys.rows
    have hW : ∀ i < p.dd.nObs, p.dd.W i = 0 := by
      intro i hi
      obtain ⟨o, ho⟩ : ∃ o, (distinctObs ops)[i]? = some o := ⟨_, List.getElem?_eq_getElem (by rw [← hrows]; exact hi)⟩
      obtain ⟨e1, e2, ph, p1, p2, w, -, -, -, -, -, -, -, -, -, -, g11, g12⟩ := hsys.observation i o ho
      unfold IsResidualWeight at g11
      rw [if_pos hdown] at g11
      simp only at g11
      rw [residuals_eq hb hsys] at g11
      unfold deviation at hdev
      rw [hdev] at g11
      rw [g12, residualWeight_zero g11, mul_zero]
    have hst := stats_nil hr hW
    rw [hp]
    simp only
    unfold SolverSetup.solved
    split
    · rfl
    · cases hm : su.method with
      | none => rfl
      | some method =>
        simp only
        split
        · rename_i hdeg
          rw [hfs p hp hdeg.1 hdeg.2]
          unfold floatSolved
          rw [hm, hst]
          split
          · rfl
          · simp only
            unfold solveFl
            cases solve flFns (.num big100) method (toFl p.dd) (flSettings (numCols (toFl p.dd)) su.iterations (.num g.damp)) su.normalize with
            | throws => rfl
            | ub => rfl
            | ok rm => rfl
        · split
          · unfold answerOf
            rw [hst]
            rfl
          · rfl
  · rw [hp]
    exact hfw hp

/-- a component of an event on which nothing depends makes the system degenerate -/
theorem degenerate_of {g : Goal} {p : Prepared ℝ} (hb : Fits ops) (hs : NoSeparator ops) (h : IsSystemOf ops g.nth g.absLoc g.down p)
    (hn : p.dd.nEvts = (run ops).evConv.size) (hd : 0 < g.down → deviation g ops ≠ 0) (hne : ∀ o ∈ distinctObs ops, o.e1 ≠ o.e2)
    {k : Nat} (hk : Active g ops k) {c : Fin 4} (h0 : influence g ops (single k c) = 0) : degenerate p.dd := by
  obtain ⟨i, o, ho, hW, hu⟩ := (active_iff_used hb h hd k).2 hk
  have hi : i < p.dd.nObs := by rw [h.rows]; exact (List.getElem?_eq_some_iff.1 ho).1
  have hm := mem_evIds_obs (firstBy_subset _ _ (List.mem_of_getElem? ho))
  have hkm : k ∈ evIds ops := by
    rcases hu with ⟨rfl, -⟩ | ⟨rfl, -⟩
    · exact hm.1
    · exact hm.2.1
  obtain ⟨e1, e2, ph, p1, p2, w, g1, g2, g3, g4, g5, g6, g7, -⟩ := h.observation i o ho
  refine ⟨i, by unfold DDSystem.numRows; omega, hW, ix (evIds ops) k, c, c.2, ?_, ?_⟩
  · rcases hu with ⟨rfl, q, hq, hf⟩ | ⟨rfl, q, hq, hf⟩
    · left
      rw [g6, free_event hb hkm rfl g1]
      rw [g4] at hq
      cases hq
      exact ⟨hf, rfl⟩
    · right
      rw [g7, free_event hb hkm rfl g2]
      rw [g5] at hq
      cases hq
      exact ⟨hf, rfl⟩
  · have h1 := column_sum hb hs h hn hd hne hkm c
    have h2 := colSq_columnNorm p.dd (rows_differ hb h hn hne) (ix (evIds ops) k * 4 + c)
    unfold columnNorm at h2
    rw [h1, h0, Real.sqrt_zero, Real.sqrt_eq_zero (p.dd.colSq_nonneg _)] at h2
    exact h2

/-- **C119i.** An iteration with weights or scaling factors that are not numbers moves nothing: there is no solution, or a solution whose
changes are all zero. -/
theorem irregular_moves_nothing (hv : su.Visits) (hf : Faithful su so) (hb : Fits ops) (hs : NoSeparator ops) (hc : Complete ops)
    (hne : ∀ o ∈ obsOf ops, o.e1 ≠ o.e2) (hreg : ¬ Regular (goalAt su so it) ops) {ans : Answer ℝ}
    (h : (realSolver su so).solve it ops (goalAt su so it).damp = some ans) {k : Nat} {d : Change ℝ} (hk : ans.changes k = some d) :
    d = ⟨0, 0, 0, 0⟩ := by
  by_cases hd : 0 < (goalAt su so it).down → deviation (goalAt su so it) ops ≠ 0
  · have hfs := hf.scaling it ops
    generalize hgo : goalAt su so it = g at *
    have hnth : g.nth = su.nth := by rw [← hgo]; rfl
    have hnz : g.normalize = su.normalize := by rw [← hgo]; rfl
    have ha : g.absLoc = interpolate so.algoIterations it so.absLocConstraintStart so.absLocConstraintEnd := by rw [← hgo]; rfl
    have hw : g.down = interpolate so.algoIterations it so.downWeightingByResidualStart so.downWeightingByResidualEnd := by rw [← hgo]; rfl
    have hne' : ∀ o ∈ distinctObs ops, o.e1 ≠ o.e2 := fun o ho => hne o (firstBy_subset _ _ ho)
    obtain ⟨p, hp, hsys⟩ := prepared_some hv hb hs hc hnth hd
    have hn := prepare_events (show (run ops).prepare _ _ _ _ _ = _ from hp)
    have hdeg : su.normalize = true ∧ degenerate p.dd := by
      by_contra hcon
      refine hreg ⟨hd, fun hz k hk c h0 => hcon ⟨hnz ▸ hz, degenerate_of hb hs hsys hn hd hne' hk h0⟩⟩
    unfold realSolver at h
    simp only [← ha, ← hw, hp] at h
    have hr := ready hv hb hs hc hp
    rw [solved_is_float hr (damping := g.damp) (fun h1 h2 => hfs p hp h1 h2)] at h
    exact infinite_scaling_moves_nothing hr hdeg.1 hdeg.2 h hk
  · simp only [not_forall, not_not] at hd
    obtain ⟨h1, h2⟩ := hd
    rw [no_deviation_no_solution hv hf hb hs hc h1 h2] at h
    cases h

section
variable {a : Args ℝ} {cat r : Catalog ℝ} {log : List (IterLog ℝ)}

/-- what the solver has answered in an iteration of a relocation -/
theorem answer_solved (hsol : a.sol = realSolver su a.so) (h : relocate a cat = .ok (r, log)) {i : Nat} {x : IterLog ℝ}
    (hx : log[i]? = some x) {ans : Answer ℝ} (hans : x.answer = some ans) :
    (realSolver su a.so).solve i x.ops (goalAt su a.so i).damp = some ans := by
  obtain ⟨hd, -, -, -, hsolve⟩ := (relocation_parameters h).2 i x hx
  have h1 := (hsolve ans hans).2
  rw [hsol, hd] at h1
  exact h1

/-- **C119j.** Every iteration of every relocation with a solution moves the events by the best changes (C102), or, when a weight or a
scaling factor is not a number, leaves every event exactly where and when it is. -/
theorem relocation_minimises_or_stays (hg : GoodArgs a) (hself : ∀ kv ∈ a.cluster, kv.1 ∉ kv.2.ids)
    (hin : a.o.keepNeighboursFixed = true ∨ ∀ kv ∈ a.cluster, ∀ n ∈ kv.2.ids, n ∈ a.cluster.map (·.1))
    (hv : su.Visits) (hf : Faithful su a.so) (hsol : a.sol = realSolver su a.so) (hstill : FittedData.Still a.env) (hs : cat.Sound)
    (hn : NoAt cat) (h : relocate a cat = .ok (r, log)) {i : Nat} {x y : IterLog ℝ} (hx : log[i]? = some x) (hy : log[i + 1]? = some y)
    (hd : 0 ≤ (goalAt su a.so i).damp) :
    (∃ (δ : Changes) (method : Method) (reason : Nat), su.method = some method ∧
      Guarantee (goalAt su a.so i) x.ops method reason δ ∧
      ∀ k ev, x.after.events.find? k = some ev → ∃ ev', y.before.events.find? k = some ev' ∧
        (Active (goalAt su a.so i) x.ops k →
          ev'.time = ev.time + a.env.secToDur (δ k 3) ∧ ev'.depth = ev.depth - δ k 2 ∧
          (ev'.latitude, ev'.longitude) = a.env.coords (δ k 0) (δ k 1) ev.latitude ev.longitude ev.depth) ∧
        (¬ Active (goalAt su a.so i) x.ops k →
          (ev'.time, ev'.latitude, ev'.longitude, ev'.depth) = (ev.time, ev.latitude, ev.longitude, ev.depth))) ∨
    ∀ k ev, x.after.events.find? k = some ev → ∃ ev', y.before.events.find? k = some ev' ∧
      (ev'.time, ev'.latitude, ev'.longitude, ev'.depth) = (ev.time, ev.latitude, ev.longitude, ev.depth) := by
  by_cases hreg : Regular (goalAt su a.so i) x.ops
  · exact .inl (relocation_minimises hg hself hin hv hsol hs hn h hx hy hd hreg)
  · right
    obtain ⟨ans, hans, hmoves⟩ := solution_applied hg hs hn h hx hy
    obtain ⟨o1, o2, o3, o4, -⟩ := iteration_ops hg hs hn h hx
    have hne : ∀ o ∈ obsOf x.ops, o.e1 ≠ o.e2 := by
      intro o ho he
      obtain ⟨kv, hkv, e1, e2⟩ := o4 o ho
      exact hself kv hkv (by rw [← e1, he]; exact e2)
    have hzero : ∀ k d, ans.changes k = some d → d = ⟨0, 0, 0, 0⟩ := fun k d hk =>
      irregular_moves_nothing hv hf o1 o2 o3 hne hreg (answer_solved hsol h hx hans) hk
    intro k ev hev
    obtain ⟨ev', g1, g2, g3⟩ := hmoves k ev hev
    refine ⟨ev', g1, ?_⟩
    by_cases hk : k ∈ a.cluster.map (·.1)
    · cases hd : ans.changes k with
      | none => exact (g2 hk).1 hd
      | some d =>
        obtain ⟨-, m1, m2, m3⟩ := (g2 hk).2 d hd
        rw [hzero k d hd] at m1 m2 m3
        simp only at m1 m2 m3
        rw [hstill.1] at m3
        rw [hstill.2] at m1
        simp only [Prod.mk.injEq] at m3
        rw [m1, m2, m3.1, m3.2, sub_zero, add_zero]
    · rw [g3 hk]

/-- **C118d.** With the answers for values that are not numbers, C118c holds for all options: no event of a catalog that fits the velocity
model is ever moved. With residual weights no event is returned at all (C119g). -/
theorem fitted_catalog_stays (hg : GoodArgs a) (hself : ∀ kv ∈ a.cluster, kv.1 ∉ kv.2.ids)
    (hv : su.Visits) (hf : Faithful su a.so) (hsol : a.sol = realSolver su a.so) (hby : FittedData.ByHypocentre a.env)
    (hstill : FittedData.Still a.env) (hlag : FittedData.NoLag a.xc)
    (hs : cat.Sound) (hn : NoAt cat) (hone : FittedData.OnePick cat) (hfit : FittedData.PicksFit a.env cat)
    (h : relocate a cat = .ok (r, log)) :
    (∀ k e, r.events.find? k = some e → ∃ e0, cat.events.find? k = some e0 ∧ FittedData.hypocentre e = FittedData.hypocentre e0) ∧
    (∀ k ∈ a.cluster.map (·.1), ∀ e, r.events.find? k = some e → (a.env.sqrt 0 = 0 → e.startRms = 0 ∧ e.finalRms = 0) ∧
      ∀ p ∈ r.phasesOf k, p.startResidual = 0 ∧ p.finalResidual = 0) ∧
    ∀ x ∈ log, ∀ ans, x.answer = some ans → ∀ k d, ans.changes k = some d → d = ⟨0, 0, 0, 0⟩ := by
  refine FittedData.stays_if hg hby hstill hlag hs hn hone hfit h (fun i x ans hi hans hpar hres k d hk => ?_)
  obtain ⟨o1, o2, o3, o4, -⟩ := iteration_ops hg hs hn h hi
  have hne : ∀ o ∈ obsOf x.ops, o.e1 ≠ o.e2 := by
    intro o ho he
    obtain ⟨kv, hkv, e1, e2⟩ := o4 o ho
    exact hself kv hkv (by rw [← e1, he]; exact e2)
  have h1 := answer_solved hsol h hi hans
  by_cases hreg : Regular (goalAt su a.so i) x.ops
  · exact FittedData.no_residual_no_change hv o1 o2 o3 hne hreg hres (fun q hq _ => hpar q (firstBy_subset _ _ hq)) h1 hk
  · exact irregular_moves_nothing hv hf o1 o2 o3 hne hreg h1 hk

end

namespace Example
open Verif.FittedData.Example

/-- with normalisation, and the answers for infinite scaling factors -/
noncomputable def scaledSetup (method : Method) : SolverSetup :=
  { FittedData.Example.setup method with
    normalize := true
    odd := Classical.choose (faithful_exists { FittedData.Example.setup method with normalize := true } FittedData.Example.options) }

theorem scaled_faithful (method : Method) : Faithful (scaledSetup method) FittedData.Example.options :=
  Classical.choose_spec (faithful_exists { FittedData.Example.setup method with normalize := true } FittedData.Example.options)

theorem scaled_visits (method : Method) : (scaledSetup method).Visits := ⟨(setup_visits method).obs, (setup_visits method).params⟩

noncomputable def flatPar (k : Nat) (dx : ℝ) : ParArg ℝ := ⟨k, "N.A.".toList, "Pg".toList, true, 3, 1, dx, 1, 1⟩

/-- two events, of which the travel times of the first do not depend on its first coordinate -/
noncomputable def flatOps : List (SolverOp ℝ) :=
  [.event 1 46 7 5, .station "N.A.".toList 1 2 0, .params (flatPar 1 0), .event 2 47 7 5, .params (flatPar 2 1), .obs obs1]

theorem flat_good : Fits flatOps ∧ NoSeparator flatOps ∧ Complete flatOps ∧ ∀ o ∈ obsOf flatOps, o.e1 ≠ o.e2 := by
  refine ⟨by simp [Fits, flatOps, IdToIndex.uintMod], ?_, ?_, ?_⟩
  · simp [NoSeparator, flatOps, obsOf, parOf, obs1, flatPar]
  · simp [Complete, flatOps, obsOf, parOf, eventsOf, ParArg.triple, obs1, flatPar]
  · simp [flatOps, obsOf, obs1]

theorem flat_params : paramsOf flatOps 1 "N.A.".toList "Pg".toList = some (flatPar 1 0) := by
  simp [paramsOf, flatOps, parOf, ParArg.triple, flatPar]
theorem flat_params2 : paramsOf flatOps 2 "N.A.".toList "Pg".toList = some (flatPar 2 1) := by
  simp [paramsOf, flatOps, parOf, ParArg.triple, flatPar]

theorem flat_irregular (method : Method) (it : Nat) : ¬ Regular (goalAt (scaledSetup method) FittedData.Example.options it) flatOps := by
  intro h
  have hd : (goalAt (scaledSetup method) FittedData.Example.options it).down = 0 := by
    simp [goalAt, interpolate, FittedData.Example.options]
  have hdist : distinctObs flatOps = [obs1] := rfl
  have hdistP : distinctPars flatOps = [flatPar 1 0, flatPar 2 1] := by
    simp [distinctPars, flatOps, parOf, firstBy, ParArg.triple, flatPar]
  refine h.units rfl 1 ⟨obs1, by rw [hdist]; simp, ?_, flatPar 1 0, flat_params, rfl, .inl rfl⟩ 0 ?_
  · simp [obsWeight, hd, obs1]
  · unfold influence
    rw [hdist, hdistP]
    have h1 : predicted flatOps (single 1 0) obs1 = 0 := by
      unfold predicted effectAt
      simp only [show obs1.e1 = 1 from rfl, show obs1.e2 = 2 from rfl, show obs1.sta = "N.A.".toList from rfl,
        show obs1.phase = "Pg".toList from rfl, flat_params, flat_params2]
      simp [effect, single, flatPar]
    have h2 : effect (flatPar 1 0) (single 1 0 1) = 0 := by simp [effect, single, flatPar]
    have h3 : effect (flatPar 2 1) (single 1 0 2) = 0 := by simp [effect, single, flatPar]
    simp [h1, h2, h3, show (flatPar 1 0).ev = 1 from rfl, show (flatPar 2 1).ev = 2 from rfl]

/-- an iteration with an infinite scaling factor (C119i) -/
example (method : Method) (it : Nat) (ans : Answer ℝ)
    (h : (realSolver (scaledSetup method) FittedData.Example.options).solve it flatOps
      (goalAt (scaledSetup method) FittedData.Example.options it).damp = some ans) :
    ∀ d, ans.changes 2 = some d → d = ⟨0, 0, 0, 0⟩ := by
  obtain ⟨h1, h2, h3, h4⟩ := flat_good
  exact fun d hd => irregular_moves_nothing (scaled_visits method) (scaled_faithful method) h1 h2 h3 h4 (flat_irregular method it) h hd

noncomputable def quietSetup (method : Method) : SolverSetup := { FittedData.Example.setup method with odd := fun _ _ => none }

theorem quiet_visits (method : Method) : (quietSetup method).Visits := ⟨(setup_visits method).obs, (setup_visits method).params⟩

theorem quiet_faithful (method : Method) (so : SolverOptions ℝ) : Faithful (quietSetup method) so :=
  ⟨fun _ _ _ => rfl, fun _ _ _ _ h => by cases h⟩

/-- residual weights of data that fit (C119h) -/
example (method : Method) : (realSolver (quietSetup method) weighted).solve 0 FittedData.Example.ops (goalAt (quietSetup method) weighted 0).damp = none := by
  obtain ⟨h1, h2, h3, h4⟩ := good
  refine no_deviation_no_solution (quiet_visits method) (quiet_faithful method _) h1 h2 h3 ?_ ?_
  · simp [goalAt, interpolate, weighted]
  · unfold deviation
    have hz : ∀ x ∈ (distinctObs FittedData.Example.ops).map (Iteration.residual FittedData.Example.ops), x = 0 := by
      intro x hx
      obtain ⟨o, ho, rfl⟩ := List.mem_map.1 hx
      exact no_residual o ho
    unfold Stats.computeMAD
    rw [FittedData.median_zero _ hz]
    apply FittedData.median_zero
    intro x hx
    obtain ⟨y, hy, rfl⟩ := List.mem_map.1 hx
    rw [hz y hy]; simp

/-- a relocation with and without residual weights (C119j, C118d) -/
example (method : Method) (so : SolverOptions ℝ) (h0 : 0 ≤ so.dampingFactorStart) (h1 : so.dampingFactorEnd = so.dampingFactorStart)
    {r : Catalog ℝ} {log : List (IterLog ℝ)}
    (h : relocate { FittedData.Example.args method with so := so, sol := realSolver (quietSetup method) so } cat = .ok (r, log)) :
    (∀ k e, r.events.find? k = some e → ∃ e0, cat.events.find? k = some e0 ∧ FittedData.hypocentre e = FittedData.hypocentre e0) ∧
    ∀ i x y, log[i]? = some x → log[i + 1]? = some y → x.after.events.find? 1 ≠ none → y.before.events.find? 1 ≠ none := by
  have hgood : GoodArgs { FittedData.Example.args method with so := so, sol := realSolver (quietSetup method) so } :=
    ⟨(args_good method).1, (args_good method).2⟩
  have hself : ∀ kv ∈ RealExample.pair, kv.1 ∉ kv.2.ids := by decide
  have hstill : FittedData.Still FittedData.Example.env :=
    ⟨fun lat lon _ => by show (lat + 0, lon + 0) = _; simp, by show ⌊(0 : ℝ) * 1000000⌋ = 0; simp⟩
  refine ⟨(fitted_catalog_stays hgood hself (quiet_visits method) (quiet_faithful method _) rfl
    (by intro e e' _ _ he; have := congrArg Prod.fst he; simp only [FittedData.hypocentre] at this
        show some _ = some _; rw [this]) hstill
    (by intro e1 e2 sta ph e he; cases he) cat_sound cat_noAt onePick fits h).1, fun i x y hx hy hne => ?_⟩
  have hd : 0 ≤ (goalAt (quietSetup method) so i).damp := by
    simp only [goalAt, interpolate, h1, sub_self, zero_mul, mul_zero, zero_div, add_zero]
    split <;> simpa using h0
  obtain ⟨ev, hev⟩ := Option.ne_none_iff_exists'.1 hne
  rcases relocation_minimises_or_stays hgood hself (.inr (show ∀ kv ∈ RealExample.pair, ∀ n ∈ kv.2.ids, n ∈ RealExample.pair.map (·.1) by decide)) (quiet_visits method)
    (quiet_faithful method _) rfl hstill cat_sound cat_noAt h hx hy hd with ⟨δ, m, reason, -, -, hm⟩ | hm
  · obtain ⟨ev', h', -⟩ := hm 1 ev hev
    rw [h']; simp
  · obtain ⟨ev', h', -⟩ := hm 1 ev hev
    rw [h']; simp

end Example

end Verif.FloatSolve
