import Verif.Proofs.RunOrder
import Verif.Props.SolverAccepts
import Verif.Props.Relocate
import Verif.Props.Residuals

/-!
# C107: results do not depend on the order in which data are stored

The solver keeps what it is given in hash tables, and finds a median with `std::nth_element`; clusters and catalogs are hash
tables too, so the order in which events, pairs and observations are visited is not determined by the code.
-/

set_option linter.unusedSimpArgs false

namespace Verif.Relocate
open Verif.Catalog Verif.Solver

/-- **C107a.** The solver's answer does not depend on the order in which events, stations, parameters and observations are
given to it, nor on the order in which its tables are visited, nor on the order left behind by `std::nth_element`. -/
theorem solution_order {su su' : SolverSetup} (ho : SameOptions su su') (hv : su.Visits) (hv' : su'.Visits) (so : SolverOptions ℝ)
    {ops ops' : List (SolverOp ℝ)} (hb : Fits ops) (hb' : Fits ops') (hs : NoSeparator ops) (hc : Complete ops)
    (hsame : SameCalls ops ops') (hu : Unambiguous ops) (it : Nat) (damping : ℝ) :
    (realSolver su so).solve it ops damping = (realSolver su' so).solve it ops' damping :=
  solve_same so ho.method ho.iterations ho.normalize hv hv' hb hb' hs (hsame.noSeparator hs) hc (hsame.complete hc) (hsame.data hu) it
    (ho.odd it ops ops' hsame) damping

/-- **C107b.** A relocation does not depend on the order in which the solver visits its tables, nor on the order left behind by
`std::nth_element`: the catalog returned and everything the iterations did are the same. -/
theorem relocation_solver_order {a : Args ℝ} (hg : GoodArgs a) {su su' : SolverSetup} (ho : SameOptions su su') (hv : su.Visits)
    (hv' : su'.Visits) (hsol : a.sol = realSolver su a.so) {cat : Catalog ℝ} (hs : cat.Sound) (hn : NoAt cat)
    (hpair : Pairable cat a.o.minCoef a.cluster) : relocate a cat = relocate { a with sol := realSolver su' a.so } cat := by
  refine relocate_answers hg hs hn hpair (by rw [hsol]; exact realSolver_prepares hv _) (realSolver_prepares hv' _) ?_
  intro it ops damping hb hsep hc
  rw [hsol]
  exact solve_same a.so ho.method ho.iterations ho.normalize hv hv' hb hb hsep hsep hc hc (SameData.refl ops) it
    (ho.odd it ops ops (fun _ => Iff.rfl)) damping

theorem SameCluster.fits {cl cl' : Cluster} (h : SameCluster cl cl') (hg : GoodCluster cl) (hg' : GoodCluster cl') :
    (cl'.map (·.2.phases.length)).sum = (cl.map (·.2.phases.length)).sum := by
  have nd : ∀ {c : Cluster}, GoodCluster c → (c.map (fun kv => (kv.1, kv.2.phases.length))).Nodup := by
    intro c hc
    refine List.Nodup.of_map Prod.fst ?_
    rw [List.map_map]
    exact hc.nodup
  have hp : (cl'.map (fun kv => (kv.1, kv.2.phases.length))).Perm (cl.map (fun kv => (kv.1, kv.2.phases.length))) := by
    rw [List.perm_ext_iff_of_nodup (nd hg') (nd hg)]
    intro x
    simp only [List.mem_map]
    constructor
    · rintro ⟨kv, h1, rfl⟩
      obtain ⟨kv', a, b, c⟩ := h.back kv h1
      exact ⟨kv', a, by rw [b, c.length_eq]⟩
    · rintro ⟨kv, h1, rfl⟩
      obtain ⟨kv', a, b, c⟩ := h.forth kv h1
      exact ⟨kv', a, by rw [b, c.length_eq]⟩
  have := (hp.map Prod.snd).sum_eq
  simpa [List.map_map, Function.comp_def] using this

/-- **C107c, partial.** A relocation in which no event has to be restored does not depend on the order of the events of the
cluster, of the pairs of an event, or of what the catalog holds: the same catalog is returned and every iteration makes the same
moves. -/
theorem relocation_order_partial {a : Args ℝ} (hkeep : a.o.keepNeighboursFixed = false) (hg : GoodArgs a) {su su' : SolverSetup}
    (ho : SameOptions su su') (hv : su.Visits) (hv' : su'.Visits) (hsol : a.sol = realSolver su a.so) {cl' : Cluster}
    (hg' : GoodCluster cl') (hcl : SameCluster a.cluster cl') {cat cat' : Catalog ℝ} (hs : cat.Sound) (hs' : cat'.Sound)
    (hcat : SameCatalog cat cat') (hn : NoAt cat) (hpair : Pairable cat a.o.minCoef a.cluster) {r : Catalog ℝ}
    {log : List (IterLog ℝ)} (h : relocate a cat = .ok (r, log)) (hrev : ∀ l ∈ log, l.reverted = []) :
    ∃ log', relocate { a with cluster := cl', sol := realSolver su' a.so } cat' = .ok (r, log') ∧
      List.Forall₂ SameIteration log log' := by
  have hn' : NoAt cat' := by intro k p hp; rw [← hcat.phases] at hp; exact hn k p hp
  have hpick : ∀ {k sp p}, IsPick cat k sp p ↔ IsPick cat' k sp p := by
    intro k sp p
    unfold IsPick
    rw [hcat.phases]
  have hpair' : Pairable cat' a.o.minCoef cl' := by
    refine ⟨?_, ?_, ?_⟩
    · intro kv hkv
      obtain ⟨kv', e1, e2, -⟩ := hcl.back kv hkv
      rw [← hcat.events, e2]
      exact hpair.event kv' e1
    · intro kv hkv sp n hm
      obtain ⟨kv', e1, e2, e3⟩ := hcl.back kv hkv
      obtain ⟨⟨p, h1⟩, q, h2⟩ := hpair.pairs kv' e1 sp n (e3.mem_iff.1 hm)
      rw [e2]
      exact ⟨⟨p, hpick.1 h1⟩, q, hpick.1 h2⟩
    · intro kv hkv sp n hm p hp
      obtain ⟨kv', e1, e2, e3⟩ := hcl.back kv hkv
      rw [e2] at hp
      exact hpair.threshold kv' e1 sp n (e3.mem_iff.1 hm) p (hpick.2 hp)
  have hga : GoodArgs { a with cluster := cl', sol := realSolver su' a.so } := by
    refine ⟨hg', ?_⟩
    show 28 * (cl'.map (·.2.phases.length)).sum ≤ _
    rw [hcl.fits hg.cluster hg']
    exact hg.fits
  refine relocate_same hkeep hg hga hcl hs hs' hn hn' hcat hpair hpair' (by rw [hsol]; exact realSolver_prepares hv _)
    (realSolver_prepares hv' _) ?_ h hrev
  intro it ops ops' damping hb hb' hsep hc hsame hu
  rw [hsol]
  exact solution_order ho hv hv' a.so hb hb' hsep hc hsame hu it damping

/-- **C107d.** If there are travel times from everywhere, no event is ever restored, so that C107c applies. -/
theorem nothing_restored {K : Type} [Field K] [LinearOrder K] {a : Args K} (hkeep : a.o.keepNeighboursFixed = false) (hg : GoodArgs a)
    (htt : ∀ ev st ph, (a.env.ttt ev st ph).isSome = true) {cat : Catalog K} (hs : cat.Sound) (hn : NoAt cat)
    (hpair : Pairable cat a.o.minCoef a.cluster) {r : Catalog K} {log : List (IterLog K)} (h : relocate a cat = .ok (r, log)) :
    ∀ l ∈ log, l.reverted = [] := by
  intro l hl
  obtain ⟨i, hi⟩ := List.mem_iff_getElem?.1 hl
  obtain ⟨prev, hok, hrel, -⟩ := entry_facts hg hs hn h hi
  obtain ⟨ob, h1, -, h2, -⟩ := hok.observe
  rw [← h2, ← (observe_set hkeep hrel.sound.toWF hrel.noAt hg.fits h1).1]
  intro kv hkv
  have hp := hpair.of_rel hrel
  refine .inr (.inr ?_)
  cases hph : kv.2.phases with
  | nil => exact .inl rfl
  | cons t rest =>
    refine .inr ⟨t, by simp, ?_⟩
    obtain ⟨ev, hev⟩ := Option.isSome_iff_exists.1 (hp.event kv hkv)
    obtain ⟨p, hp1⟩ := (hp.pairs kv hkv t.1 t.2 (by rw [hph]; simp)).1
    have hid := (hrel.sound.eventKey _ _ hev).1
    obtain ⟨q, hq⟩ := searchPhase_total (sp := t.1) (id := ev.id) ⟨p, by rw [hid]; exact hp1⟩
    obtain ⟨st, hst⟩ := Option.isSome_iff_exists.1 (hrel.sound.phaseStation _ (Catalog.mem_phasesOf.1 hp1.1))
    obtain ⟨j, hj⟩ := Option.isSome_iff_exists.1 (htt ev st (phaseName a.env q))
    exact ⟨ev, st, q, j, by rw [hg.cluster.key kv hkv]; exact hev, by rw [← hp1.2.1]; exact hst, hq, hj⟩

/-! ## A restored event -/

namespace Example

def nb13 : Neighbours := ⟨1, [(3, [("N.A.", "Pg")])]⟩
def nb21 : Neighbours := ⟨2, [(1, [("N.A.", "Pg")])]⟩

def three : Catalog ℚ :=
  (((((Catalog.init.addStation st).addEvent (ev 1 10000000 46) true).1.addEvent (ev 2 20000000 46) true).1.addEvent
    (ev 3 30000000 46) true).1.addPhase (ph 1 15000000)).addPhase (ph 2 23000000) |>.addPhase (ph 3 35000000)

theorem three_sound : three.Sound := by
  refine sound_of ?_ (by decide +kernel) (by decide +kernel)
  exact .addPhase _ (.addPhase _ (.addPhase _ (.addEvent _ _ (by decide) (.addEvent _ _ (by decide) (.addEvent _ _ (by decide)
    (.addStation _ .init))))))

/-- event 1 leaves the travel-time table in the first iteration -/
def chain (cl : Cluster) : Args ℚ := ⟨env, ⟨2, 1, 1, 0, 0, 0, 0⟩, opt, [], cl, solver 1 (fun it => if it = 0 then 5000 else 0)⟩

/-- the pairs of events observed in each iteration -/
def observed (x : Outcome (Catalog ℚ × List (IterLog ℚ))) : List (List (Nat × Nat)) :=
  match x with
  | .ok (_, log) => log.map (fun l => (obsOf l.ops).map (fun o => (o.e1, o.e2)))
  | _ => []

end Example

/-- **C107 as stated is false if an event has to be restored**: event 1 has left the travel-time table. If event 2, which is
paired with it, is visited after event 1, the restored event 1 is observed with event 2; if it is visited before event 1, the pair
is dropped for this iteration. -/
theorem restored_event_order_matters :
    ∃ (a : Args ℚ) (cl' : Cluster) (cat : Catalog ℚ) (r r' : Catalog ℚ) (log log' : List (IterLog ℚ)),
      GoodArgs a ∧ GoodCluster cl' ∧ a.cluster.Perm cl' ∧ cat.Sound ∧ a.o.keepNeighboursFixed = false ∧
      relocate a cat = .ok (r, log) ∧ relocate { a with cluster := cl' } cat = .ok (r', log') ∧
      log.map (fun l => (obsOf l.ops).map (fun o => (o.e1, o.e2))) = [[(1, 3), (2, 1)], [(1, 3), (2, 1)], [(1, 3), (2, 1)]] ∧
      log'.map (fun l => (obsOf l.ops).map (fun o => (o.e1, o.e2))) = [[(2, 1), (1, 3)], [(1, 3)], [(2, 1), (1, 3)]] := by
  have ok : ∀ {x : Outcome (Catalog ℚ × List (IterLog ℚ))} {l}, Example.observed x = l → l ≠ [] → ∃ r log, x = .ok (r, log) ∧
      log.map (fun l => (obsOf l.ops).map (fun o => (o.e1, o.e2))) = l := by
    intro x l h1 h2
    match x with
    | .ok (r, log) => exact ⟨r, log, rfl, h1⟩
    | .throws => exact absurd h1.symm h2
    | .ub => exact absurd h1.symm h2
  obtain ⟨r, log, h1, h2⟩ := ok (x := relocate (Example.chain [(1, Example.nb13), (2, Example.nb21), (3, ⟨3, []⟩)]) Example.three)
    (l := [[(1, 3), (2, 1)], [(1, 3), (2, 1)], [(1, 3), (2, 1)]]) (by decide +kernel) (by simp)
  obtain ⟨r', log', h1', h2'⟩ := ok (x := relocate (Example.chain [(2, Example.nb21), (1, Example.nb13), (3, ⟨3, []⟩)]) Example.three)
    (l := [[(2, 1), (1, 3)], [(1, 3)], [(2, 1), (1, 3)]]) (by decide +kernel) (by simp)
  exact ⟨_, _, _, r, r', log, log', ⟨⟨by decide, by decide⟩, by decide⟩, ⟨by decide, by decide⟩, List.Perm.swap _ _ _,
    Example.three_sound, rfl, h1, h1', h2, h2'⟩

end Verif.Relocate

/-! ## Examples -/

namespace Verif.Iteration.Example
open Verif.Solver Verif.LeastSquares Verif.Relocate Verif.Catalog

/-- the tables are visited the other way round -/
noncomputable def backwards (method : Method) : SolverSetup :=
  ⟨some method, 0, true, .sorting _, List.reverse, List.reverse, fun _ _ => none⟩

theorem backwards_visits (method : Method) : (backwards method).Visits := ⟨fun _ => List.reverse_perm _, fun _ => List.reverse_perm _⟩

theorem same_options (method : Method) : SameOptions (setup method) (backwards method) := ⟨rfl, rfl, rfl, fun _ _ _ _ => rfl⟩

theorem unambiguous : Unambiguous ops := by
  constructor
  · intro o o' h h' _ _ _ _
    simp only [ops, List.mem_cons, reduceCtorEq, SolverOp.obs.injEq, List.not_mem_nil, or_false, false_or] at h h'
    rw [h, h']
  · intro p p' h h' e _ _
    simp only [ops, List.mem_cons, reduceCtorEq, SolverOp.params.injEq, List.not_mem_nil, or_false, false_or] at h h'
    rcases h with rfl | rfl <;> rcases h' with rfl | rfl
    · rfl
    · exact absurd e (by simp [par1, par2, par])
    · exact absurd e (by simp [par1, par2, par])
    · rfl

/-- the calls of a relocation, in the opposite order and to a solver that visits its tables backwards: the same moves -/
example (method : Method) (it : Nat) : ∃ ans, (realSolver (setup method) options).solve it ops (1 / 100) = some ans ∧
    (realSolver (backwards method) options).solve it ops.reverse (1 / 100) = some ans ∧ (ans.changes 1).isSome = true := by
  obtain ⟨h1, h2, h3, h4⟩ := good
  have hs := iteration_solved (setup_visits method) (so := options) (it := it) h1 h2 h3 h4 (regular method it) rfl (damped method it)
  have hd : (goalAt (setup method) options it).damp = 1 / 100 := damp method it
  have he := solution_order (same_options method) (setup_visits method) (backwards_visits method) options h1
    (ops' := ops.reverse) (by simpa [Fits] using h1) h2 h3 (fun op => by simp) unambiguous it (1 / 100)
  cases hans : (realSolver (setup method) options).solve it ops (goalAt (setup method) options it).damp with
  | none => exact absurd (active method it 1 (.inl rfl)) (hs.1 hans 1)
  | some ans =>
    obtain ⟨m1, -⟩ := iteration_minimises (setup_visits method) h1 h2 h3 h4
      (by show 0 ≤ (goal method it).damp; rw [damp]; norm_num) (regular method it) hans
    rw [hd] at hans
    exact ⟨ans, hans, he ▸ hans, (m1 1).2 (active method it 1 (.inl rfl))⟩

theorem args_pairable (method : Method) : Pairable RealExample.bg (args method).o.minCoef (args method).cluster :=
  ⟨RealExample.pairable.event, RealExample.pairable.pairs, fun _ _ _ _ _ _ _ => rfl⟩

/-- C107b for a relocation of two events -/
example (method : Method) : relocate (args method) RealExample.bg =
    relocate { args method with sol := realSolver (backwards method) options } RealExample.bg :=
  relocation_solver_order (args_good method) (same_options method) (setup_visits method) (backwards_visits method) rfl
    RealExample.bg_sound RealExample.bg_noAt (args_pairable method)

/-- the two events the other way round -/
theorem pair_same : SameCluster RealExample.pair RealExample.pair.reverse :=
  ⟨fun kv h => ⟨kv, by simpa using h, rfl, .refl _⟩, fun kv h => ⟨kv, by simpa using h, rfl, .refl _⟩⟩

/-- the catalog with everything stored the other way round -/
noncomputable def stored : Catalog ℝ :=
  ⟨RealExample.bg.stations.reverse, RealExample.bg.events.reverse, RealExample.bg.phases.reverse⟩

theorem find?_reverse {κ V : Type} [DecidableEq κ] {m : AMap κ V} (h : m.NodupKeys) (k : κ) :
    AMap.find? (K := κ) (V := V) m.reverse k = m.find? k := by
  have hn : AMap.NodupKeys (K := κ) (V := V) m.reverse := by
    unfold AMap.NodupKeys AMap.keys at *
    rw [List.map_reverse]
    exact List.nodup_reverse.2 h
  cases hf : m.find? k with
  | some v =>
    exact AMap.find?_of_mem hn (List.mem_reverse.2 (AMap.mem_of_find? hf))
  | none =>
    cases hf' : AMap.find? (K := κ) (V := V) m.reverse k with
    | none => rfl
    | some v =>
      have := AMap.find?_of_mem h (List.mem_reverse.1 (AMap.mem_of_find? hf'))
      rw [hf] at this
      cases this

theorem stored_same : SameCatalog RealExample.bg stored := by
  refine ⟨fun k => (find?_reverse RealExample.bg_sound.eventsUnique k).symm, fun k => (find?_reverse RealExample.bg_sound.stationsUnique k).symm, ?_⟩
  intro k
  have h : ∃ p q, RealExample.bg.phases = [(1, p), (2, q)] := ⟨_, _, rfl⟩
  obtain ⟨p, q, h⟩ := h
  unfold Catalog.phasesOf stored
  simp only [h, List.reverse_cons, List.reverse_nil, List.nil_append, List.cons_append]
  by_cases h1 : k = 1
  · subst h1; rfl
  · by_cases h2 : k = 2
    · subst h2; rfl
    · simp [List.filter_cons, Ne.symm h1, Ne.symm h2]

theorem stored_sound : stored.Sound := by
  have h := RealExample.bg_sound
  have e : ∀ k, stored.events.find? k = RealExample.bg.events.find? k := fun k => find?_reverse h.eventsUnique k
  have s : ∀ k, stored.stations.find? k = RealExample.bg.stations.find? k := fun k => find?_reverse h.stationsUnique k
  refine ⟨⟨?_, ?_, ?_, ?_, ?_⟩, ?_, ?_⟩
  · exact (List.map_reverse ▸ List.nodup_reverse.2 h.stationsUnique : (List.map Prod.fst RealExample.bg.stations.reverse).Nodup)
  · intro id x hx; rw [s] at hx; exact h.stationKey id x hx
  · exact (List.map_reverse ▸ List.nodup_reverse.2 h.eventsUnique : (List.map Prod.fst RealExample.bg.events.reverse).Nodup)
  · intro id x hx; rw [e] at hx; exact h.eventKey id x hx
  · intro kp hkp; exact h.phaseKey kp (List.mem_reverse.1 hkp)
  · intro kp hkp; rw [e]; exact h.phaseEvent kp (List.mem_reverse.1 hkp)
  · intro kp hkp; rw [s]; exact h.phaseStation kp (List.mem_reverse.1 hkp)

/-- C107c for a relocation of two events, with everything stored the other way round -/
example (method : Method) : ∃ r log log', relocate (args method) RealExample.bg = .ok (r, log) ∧
    relocate { args method with cluster := RealExample.pair.reverse, sol := realSolver (backwards method) options } stored = .ok (r, log') ∧
    List.Forall₂ SameIteration log log' := by
  obtain ⟨⟨r, log⟩, h⟩ := relocate_total (args_good method) RealExample.bg_sound RealExample.bg_noAt (args_pairable method)
    (realSolver_prepares (setup_visits method) options)
  obtain ⟨log', h1, h2⟩ := relocation_order_partial rfl (args_good method) (same_options method) (setup_visits method)
    (backwards_visits method) rfl ⟨by decide, by decide⟩ pair_same RealExample.bg_sound stored_sound stored_same RealExample.bg_noAt
    (args_pairable method) h
    (nothing_restored rfl (args_good method) (fun _ _ _ => rfl) RealExample.bg_sound RealExample.bg_noAt (args_pairable method) h)
  exact ⟨r, log, log', h, h1, h2⟩

/-- the observation once more, with another weight -/
noncomputable def obs0 : ObsArg ℝ := { obs1 with weight := 0 }

theorem after_same : SameData (ops ++ [.obs obs0]) ops := by
  refine ⟨?_, ?_, ?_, ?_, ?_⟩
  · intro x; simp [evIds, evIdsOp, ops, obs0, obs1, par1, par2, par]; try omega
  · intro x; simp [phKeys, phKeysOp, phKeyO, phKeyP, ops, obs0, obs1, par1, par2, par]
  · intro x
    simp [obsOf, ops, firstBy, ObsArg.quad, obs0, obs1]
  · intro x; simp [parOf, ops, firstBy]
  · funext k sta ph; simp [paramsOf, parOf, ops]

theorem after_good : Fits (ops ++ [.obs obs0]) ∧ NoSeparator (ops ++ [.obs obs0]) ∧ Complete (ops ++ [.obs obs0]) := by
  refine ⟨by simp [Fits, ops, IdToIndex.uintMod], ?_, ?_⟩
  · simp [NoSeparator, ops, obsOf, parOf, obs1, obs0, par1, par2, par]
  · simp [Complete, ops, obsOf, parOf, eventsOf, ParArg.triple, obs1, obs0, par1, par2, par]

theorem before_good : Fits (.obs obs0 :: ops) ∧ NoSeparator (.obs obs0 :: ops) ∧ Complete (.obs obs0 :: ops) ∧
    ∀ o ∈ obsOf (.obs obs0 :: ops), o.e1 ≠ o.e2 := by
  refine ⟨by simp [Fits, ops, IdToIndex.uintMod], ?_, ?_, ?_⟩
  · simp [NoSeparator, ops, obsOf, parOf, obs1, obs0, par1, par2, par]
  · simp [Complete, ops, obsOf, parOf, eventsOf, ParArg.triple, obs1, obs0, par1, par2, par]
  · simp [ops, obsOf, obs1, obs0]

end Verif.Iteration.Example

/-- **C107a needs that nothing is given twice with different values** (which is the case in a relocation): the first observation
of a pair of events at a station counts, later ones are ignored, so that there is a solution or not depending on the order. -/
theorem Verif.Relocate.contradicting_calls_order_matters : ∃ (su : SolverSetup) (so : SolverOptions ℝ) (ops ops' : List (SolverOp ℝ)),
    su.Visits ∧ ops.Perm ops' ∧ Solver.Fits ops ∧ Solver.NoSeparator ops ∧ Solver.Complete ops ∧
    (∃ ans, (realSolver su so).solve 0 ops (1 / 100) = some ans) ∧ (realSolver su so).solve 0 ops' (1 / 100) = none := by
  open Verif.Iteration Verif.Iteration.Example Verif.Solver Verif.LeastSquares in
  refine ⟨setup .lsqr, options, ops ++ [.obs obs0], .obs obs0 :: ops, setup_visits _, List.perm_append_singleton _ _, after_good.1,
    after_good.2.1, after_good.2.2, ?_, ?_⟩
  · obtain ⟨h1, h2, h3, h4⟩ := good
    have hs := iteration_solved (setup_visits .lsqr) (so := options) (it := 0) h1 h2 h3 h4 (regular .lsqr 0) rfl (damped .lsqr 0)
    rw [solve_same options rfl rfl rfl (setup_visits .lsqr) (setup_visits .lsqr) after_good.1 h1 after_good.2.1 h2 after_good.2.2 h3
      after_same 0 rfl]
    rw [← Option.isSome_iff_exists, ← Option.ne_none_iff_isSome, ← damp .lsqr 0]
    exact fun hn => hs.1 hn 1 (active .lsqr 0 1 (.inl rfl))
  · obtain ⟨h1, h2, h3, h4⟩ := before_good
    have hna : ∀ k, ¬ Active (goalAt (setup .lsqr) options 0) (.obs obs0 :: ops) k := by
      rintro k ⟨o, ho, hw, -⟩
      have hd : distinctObs (.obs obs0 :: ops) = [obs0] := by simp [distinctObs, obsOf, ops, firstBy, ObsArg.quad, obs0, obs1]
      rw [hd, List.mem_singleton] at ho
      subst ho
      have : (goalAt (setup .lsqr) options 0).down = 0 := by simp [goalAt, options, interpolate]
      simp [obsWeight, this, obs0] at hw
    have hd : (goalAt (setup .lsqr) options 0).damp = 1 / 100 := damp .lsqr 0
    rw [← hd]
    refine (iteration_solved (setup_visits .lsqr) h1 h2 h3 h4 ⟨?_, ?_⟩ (method := .lsqr) rfl ?_).2 hna
    · intro h; exact absurd h (by simp [goalAt, options, interpolate])
    · intro _ k hk; exact absurd hk (hna k)
    · refine usual_damping rfl (by rw [hd]) (by rw [hd]; norm_num) ?_ _
      have : events (.obs obs0 :: ops) = {1, 2} := by
        rw [← events_eq]; ext k; simp [events, mentioned, ops, obs0, obs1]
      rw [this]
      simp
