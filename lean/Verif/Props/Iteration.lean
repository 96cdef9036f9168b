import Verif.Spec.Iteration
import Verif.Proofs.IterationRun
import Verif.Props.Relocate

/-!
# One iteration of a relocation is a least-squares step (C102)

The specification is `Verif.Spec.Iteration`: what is to be minimised, in terms of the observations and parameters given to the
solver and of changes of the events.
-/

set_option linter.unusedSectionVars false
set_option linter.unusedSimpArgs false

namespace Verif.Iteration
open Verif.Solver Verif.LeastSquares Verif.Catalog Verif.Relocate

/-- **C102a.** Whatever observations and parameters the solver of an iteration was given (names without `@`, parameters for
every observation, no event observed against itself), and whatever the numbers: its answer moves exactly the events that may
move and are in some observation with a weight, and these moves are, up to the tolerance that belongs to the reason for
stopping, the best ones: they minimise the weighted squares of the double differences, of the travel-time residuals and of the
damped changes. -/
theorem iteration_minimises {su : SolverSetup} (hv : su.Visits) {so : SolverOptions ℝ} {it : Nat} {ops : List (SolverOp ℝ)}
    (hb : Fits ops) (hs : NoSeparator ops) (hc : Complete ops) (hne : ∀ o ∈ obsOf ops, o.e1 ≠ o.e2)
    (hd : 0 ≤ (goalAt su so it).damp) (hreg : Regular (goalAt su so it) ops) {ans : Answer ℝ}
    (h : (realSolver su so).solve it ops (goalAt su so it).damp = some ans) :
    (∀ k, (ans.changes k).isSome = true ↔ Active (goalAt su so it) ops k) ∧
    ∃ method reason, su.method = some method ∧ Guarantee (goalAt su so it) ops method reason (changes ans) := by
  generalize hgo : goalAt su so it = g at *
  have hnth : g.nth = su.nth := by rw [← hgo]; rfl
  have hnz : g.normalize = su.normalize := by rw [← hgo]; rfl
  have ha : g.absLoc = interpolate so.algoIterations it so.absLocConstraintStart so.absLocConstraintEnd := by rw [← hgo]; rfl
  have hw : g.down = interpolate so.algoIterations it so.downWeightingByResidualStart so.downWeightingByResidualEnd := by rw [← hgo]; rfl
  have hne' : ∀ o ∈ distinctObs ops, o.e1 ≠ o.e2 := fun o ho => hne o (firstBy_subset _ _ ho)
  obtain ⟨p, hp, hsys⟩ := prepared_some hv hb hs hc hnth hreg.deviation
  have hn := prepare_events (show (run ops).prepare _ _ _ _ _ = _ from hp)
  unfold realSolver at h
  simp only [← ha, ← hw, hp] at h
  unfold SolverSetup.solved at h
  split at h
  · cases h
  · cases hm : su.method with
    | none => rw [hm] at h; cases h
    | some method =>
      rw [hm] at h
      simp only at h
      rw [if_neg (fun hcon => not_degenerate hb hs hsys hn hreg hne' (by rw [hnz]; exact hcon.1) hcon.2)] at h
      split at h
      · rename_i reason m hsol
        obtain ⟨δ, hδ⟩ := exists_holds ops m
        rw [← hnz] at hsol
        have hgu := guarantee_solved hb hs hsys hn hreg hne' hd hsol hδ
        have hch := changes_iff hv hb hs hc hnth hreg.deviation hp hsys h hδ
        have hact : ∀ k, (ans.changes k).isSome = true ↔ Active g ops k := by
          intro k
          constructor
          · intro hk
            obtain ⟨d, hd'⟩ := Option.isSome_iff_exists.1 hk
            exact ((hch k d).1 hd').1
          · intro hk
            rw [(hch k _).2 ⟨hk, rfl⟩]; rfl
        refine ⟨hact, method, reason, rfl, hgu.mono hd (objective_active ?_ ?_)⟩
        · intro k hk
          have := (hch k _).2 ⟨hk, rfl⟩
          unfold changes
          rw [this]
          funext c
          fin_cases c <;> rfl
        · intro k hk
          have : ans.changes k = none := by
            cases hx : ans.changes k with
            | none => rfl
            | some d => exact absurd ((hact k).1 (by rw [hx]; rfl)) hk
          unfold changes
          rw [this]
          rfl
      · cases h

/-- **C102b.** In every run of a relocation, each iteration with a solution moves the events by changes that are, up to the
tolerance of the solver, the best ones in the sense of `objective`, for the observations, parameters, weights and damping of
that iteration: every event that may move and is in some observation with a weight is moved by its part of these changes, all
other events stay. (Neighbours are kept fixed, or belong to the cluster: see C101.) -/
theorem relocation_minimises {a : Args ℝ} (hg : GoodArgs a) (hself : ∀ kv ∈ a.cluster, kv.1 ∉ kv.2.ids)
    (hin : a.o.keepNeighboursFixed = true ∨ ∀ kv ∈ a.cluster, ∀ n ∈ kv.2.ids, n ∈ a.cluster.map (·.1)) {su : SolverSetup}
    (hv : su.Visits) (hsol : a.sol = realSolver su a.so) {cat r : Catalog ℝ} (hs : cat.Sound) (hn : NoAt cat)
    {log : List (IterLog ℝ)} (h : relocate a cat = .ok (r, log)) {i : Nat} {x y : IterLog ℝ}
    (hx : log[i]? = some x) (hy : log[i + 1]? = some y)
    (hd : 0 ≤ (goalAt su a.so i).damp) (hreg : Regular (goalAt su a.so i) x.ops) :
    ∃ (δ : Changes) (method : Method) (reason : Nat), su.method = some method ∧
      Guarantee (goalAt su a.so i) x.ops method reason δ ∧
      ∀ k ev, x.after.events.find? k = some ev → ∃ ev', y.before.events.find? k = some ev' ∧
        (Active (goalAt su a.so i) x.ops k →
          ev'.time = ev.time + a.env.secToDur (δ k 3) ∧ ev'.depth = ev.depth - δ k 2 ∧
          (ev'.latitude, ev'.longitude) = a.env.coords (δ k 0) (δ k 1) ev.latitude ev.longitude ev.depth) ∧
        (¬ Active (goalAt su a.so i) x.ops k →
          (ev'.time, ev'.latitude, ev'.longitude, ev'.depth) = (ev.time, ev.latitude, ev.longitude, ev.depth)) := by
  obtain ⟨ans, hans, hmoves⟩ := solution_applied hg hs hn h hx hy
  obtain ⟨hdp, -, -, -, hsolve⟩ := (relocation_parameters h).2 i x hx
  have h1 := (hsolve ans hans).2
  obtain ⟨o1, o2, o3, o4, o5⟩ := iteration_ops hg hs hn h hx
  have hne : ∀ o ∈ obsOf x.ops, o.e1 ≠ o.e2 := by
    intro o ho he
    obtain ⟨kv, hkv, e1, e2⟩ := o4 o ho
    exact hself kv hkv (by rw [← e1, he]; exact e2)
  have hdamp : x.damping = (goalAt su a.so i).damp := hdp
  rw [hsol, hdamp] at h1
  obtain ⟨hact, method, reason, hm, hgu⟩ := iteration_minimises hv o1 o2 o3 hne hd hreg h1
  refine ⟨changes ans, method, reason, hm, hgu, ?_⟩
  intro k ev hev
  obtain ⟨ev', g1, g2, g3⟩ := hmoves k ev hev
  refine ⟨ev', g1, ?_, ?_⟩
  · intro hak
    have hk : k ∈ a.cluster.map (·.1) := by
      obtain ⟨o, -, -, q, hq, hf, -⟩ := hak
      obtain ⟨-, hq', rfl, -⟩ := paramsOf_facts hq
      rcases o5 q hq' hf with h | ⟨h, kv, hkv, hmem⟩
      · exact h
      · rcases hin with hin | hin
        · rw [h] at hin; cases hin
        · exact hin kv hkv _ hmem
    obtain ⟨d, hd'⟩ := Option.isSome_iff_exists.1 ((hact k).2 hak)
    obtain ⟨-, m1, m2, m3⟩ := (g2 hk).2 d hd'
    obtain ⟨c0, c1, c2, c3⟩ : changes ans k 0 = d.x ∧ changes ans k 1 = d.y ∧ changes ans k 2 = d.z ∧ changes ans k 3 = d.t := by
      unfold changes
      simp only [hd', and_self]
    rw [c0, c1, c2, c3]
    exact ⟨m1, m2, m3⟩
  · intro hno
    by_cases hk : k ∈ a.cluster.map (·.1)
    · refine (g2 hk).1 ?_
      cases hx' : ans.changes k with
      | none => rfl
      | some d => exact absurd ((hact k).1 (by rw [hx']; rfl)) hno
    · rw [g3 hk]

end Verif.Iteration
