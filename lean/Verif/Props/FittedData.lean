import Verif.Proofs.FittedData
import Verif.Props.Iteration
import Verif.Props.Stats
import Verif.Props.SolverAccepts

/-!
# Data that fit already (C118)
-/

set_option linter.unusedSectionVars false
set_option linter.unusedSimpArgs false

namespace Verif.FittedData
open Verif.Catalog Verif.Relocate Verif.Solver Verif.Iteration Verif.LeastSquares

/-- **C118a.** If all double differences, and all travel-time residuals of the events that may move, are zero, then every answer
of the solver is that no event moves, with both methods, any damping and any number of iterations. -/
theorem no_residual_no_change {su : SolverSetup} (hv : su.Visits) {so : SolverOptions ℝ} {it : Nat} {ops : List (SolverOp ℝ)}
    (hb : Fits ops) (hs : NoSeparator ops) (hc : Complete ops) (hne : ∀ o ∈ obsOf ops, o.e1 ≠ o.e2)
    (hreg : Regular (goalAt su so it) ops) (hres : ∀ o ∈ distinctObs ops, Iteration.residual ops o = 0)
    (hpar : ∀ q ∈ distinctPars ops, q.free = true → q.ttRes = 0) {damping : ℝ} {ans : Answer ℝ}
    (h : (realSolver su so).solve it ops damping = some ans) {k : Nat} {d : Change ℝ} (hk : ans.changes k = some d) :
    d = ⟨0, 0, 0, 0⟩ := by
  generalize hgo : goalAt su so it = g at *
  have hnth : g.nth = su.nth := by rw [← hgo]; rfl
  have hnz : g.normalize = su.normalize := by rw [← hgo]; rfl
  have ha : g.absLoc = interpolate so.algoIterations it so.absLocConstraintStart so.absLocConstraintEnd := by rw [← hgo]; rfl
  have hw : g.down = interpolate so.algoIterations it so.downWeightingByResidualStart so.downWeightingByResidualEnd := by rw [← hgo]; rfl
  have hne' : ∀ o ∈ distinctObs ops, o.e1 ≠ o.e2 := fun o ho => hne o (firstBy_subset _ _ ho)
  obtain ⟨p, hp, hsys⟩ := prepared_some hv hb hs hc hnth hreg.deviation
  have hn := prepare_events (show (run ops).prepare _ _ _ _ _ = _ from hp)
  unfold realSolver at h
  simp only [← ha, ← hw, hp] at h
  unfold SolverSetup.solved at h
  split at h
  · cases h
  · cases hm : su.method with
    | none => rw [hm] at h; cases h
    | some method =>
      rw [hm] at h
      simp only at h
      rw [if_neg (fun hcon => not_degenerate hb hs hsys hn hreg hne' (by rw [hnz]; exact hcon.1) hcon.2)] at h
      obtain ⟨m, hm1, hm2⟩ := solveDD_zero method p.dd (prepared_in_range hsys) (rows_zero hb hsys hres hpar) su.iterations damping
        su.normalize
      rw [hm1] at h
      simp only at h
      have hδ : Holds ops m 0 := fun _ _ _ => hm2 _
      exact ((changes_iff hv hb hs hc hnth hreg.deviation hp hsys h hδ k d).1 hk).2

/-- **C118b.** For such data the solver always comes to an answer, if any event that may move is in an observation with a weight: it
never gives up for the reasons it may give up for other data. -/
theorem no_residual_solved {su : SolverSetup} (hv : su.Visits) {so : SolverOptions ℝ} {it : Nat} {ops : List (SolverOp ℝ)}
    (hb : Fits ops) (hs : NoSeparator ops) (hc : Complete ops) (hne : ∀ o ∈ obsOf ops, o.e1 ≠ o.e2)
    (hreg : Regular (goalAt su so it) ops) (hres : ∀ o ∈ distinctObs ops, Iteration.residual ops o = 0)
    (hpar : ∀ q ∈ distinctPars ops, q.free = true → q.ttRes = 0) {method : Method} (hm : su.method = some method) (damping : ℝ) :
    (realSolver su so).solve it ops damping = none ↔ ∀ k, ¬ Active (goalAt su so it) ops k := by
  generalize hgo : goalAt su so it = g at *
  have hnth : g.nth = su.nth := by rw [← hgo]; rfl
  have hnz : g.normalize = su.normalize := by rw [← hgo]; rfl
  have ha : g.absLoc = interpolate so.algoIterations it so.absLocConstraintStart so.absLocConstraintEnd := by rw [← hgo]; rfl
  have hw : g.down = interpolate so.algoIterations it so.downWeightingByResidualStart so.downWeightingByResidualEnd := by rw [← hgo]; rfl
  have hne' : ∀ o ∈ distinctObs ops, o.e1 ≠ o.e2 := fun o ho => hne o (firstBy_subset _ _ ho)
  obtain ⟨p, hp, hsys⟩ := prepared_some hv hb hs hc hnth hreg.deviation
  have hn := prepare_events (show (run ops).prepare _ _ _ _ _ = _ from hp)
  unfold realSolver
  simp only [← ha, ← hw, hp]
  unfold SolverSetup.solved
  split
  · rename_i he
    refine ⟨fun _ k => ?_, fun _ => rfl⟩
    rintro ⟨o, ho, -⟩
    exact no_observations hb hs he ho
  · rw [hm]
    simp only
    rw [if_neg (fun hcon => not_degenerate hb hs hsys hn hreg hne' (by rw [hnz]; exact hcon.1) hcon.2)]
    obtain ⟨m, hm1, hm2⟩ := solveDD_zero method p.dd (prepared_in_range hsys) (rows_zero hb hsys hres hpar) su.iterations damping
      su.normalize
    rw [hm1]
    simp only
    exact answer_none_iff hv hb hs hc hreg.deviation hnth hp hsys m

/-- one iteration -/
theorem iteration_fit {a : Args ℝ} (hg : GoodArgs a) (hby : ByHypocentre a.env) (hlag : NoLag a.xc)
    {cat r : Catalog ℝ} (hs : cat.Sound) (hn : NoAt cat) (hone : OnePick cat) (hfit : PicksFit a.env cat)
    {log : List (IterLog ℝ)} (h : relocate a cat = .ok (r, log)) {i : Nat} {x : IterLog ℝ} (hx : log[i]? = some x)
    (hb : Stays cat x.before) (hprev : ∀ w, 0 < i → log[i - 1]? = some w → Stays cat w.after) :
    Stays cat x.after ∧ (∀ q ∈ parOf x.ops, q.ttRes = 0) ∧ ∀ o ∈ distinctObs x.ops, Iteration.residual x.ops o = 0 := by
  obtain ⟨prev, hok, hrel, hcase⟩ := entry_facts hg hs hn h hx
  obtain ⟨ob, h1, h2, h3, h4⟩ := hok.observe
  have hp : prev = Catalog.init ∨ Relocate.Rel a.cluster cat prev := by
    rcases hcase with ⟨_, h, _⟩ | ⟨w, ans, _, _, h, h', _⟩
    · exact Or.inl h
    · exact Or.inr (h ▸ h')
  have hps : prev = Catalog.init ∨ Stays cat prev := by
    rcases hcase with ⟨_, h, _⟩ | ⟨w, ans, h0, hw, h, _⟩
    · exact Or.inl h
    · exact Or.inr (h ▸ hprev w h0 hw)
  obtain ⟨p1, p2, p3⟩ := prev_ok hrel hp
  obtain ⟨hra, s, hi, e1, e2, e3⟩ := hok.spec hg hrel hp
  have hafter : Stays cat x.after := fun k => by
    rw [hypocentre_of_place (e3.events k)]
    exact ObserveInv_stays hi hb hps k
  have hpars : ∀ q ∈ parOf x.ops, q.ttRes = 0 ∧ ∃ ev p, cat.events.find? q.ev = some ev ∧ p ∈ cat.phasesOf q.ev ∧
      q.sta = p.stationId.toList ∧ q.phase = p.type.toList ∧ q.tt = travelTime ev p := by
    intro q hq
    obtain ⟨g1, g2⟩ := iteration_parameters_partial hg hs hn h hx q hq
    by_cases hr : q.ev ∈ x.reverted
    · rcases g2 hr with g2 | ⟨w, h0, hw, g2⟩
      · exact parameters_fit hby hfit hrel hb g2
      · obtain ⟨pw, hokw, hrelw, hcw⟩ := entry_facts hg hs hn h hw
        have hpw : pw = Catalog.init ∨ Relocate.Rel a.cluster cat pw := by
          rcases hcw with ⟨_, h, _⟩ | ⟨w, ans, _, _, h, h', _⟩
          · exact Or.inl h
          · exact Or.inr (h ▸ h')
        exact parameters_fit hby hfit (hokw.spec hg hrelw hpw).1 (hprev w h0 hw) g2
    · exact parameters_fit hby hfit hrel hb (g1 hr)
  have hobs : ∀ o ∈ obsOf x.ops, FromPicks cat o := by
    rw [← h2]
    refine observe_all hrel.sound hrel.noAt p1 p2 p3 hg.cluster hg.fits (fun done t ht _ nb ops0 ops b hadd => ?_) h1
    obtain ⟨r1, r2, r3⟩ := ObserveInv_rel ht hrel hp
    exact added_fit r1 r3 (ObserveInv_stays ht hb hps) hlag hadd
  have hcomp := (iteration_ops hg hs hn h hx).2.2.1
  refine ⟨hafter, fun q hq => (hpars q hq).1, fun o ho => ?_⟩
  have ho' := firstBy_subset _ _ ho
  obtain ⟨ev1, ev2, q1, q2, c1, c2, c3, c4, c5, c6, c7, c8, c9⟩ := hobs o ho'
  have htime : ∀ {e : Nat} {ev : Event ℝ} {p : Phase ℝ}, (∃ q ∈ parOf x.ops, ParArg.triple q = (e, o.sta, o.phase)) →
      cat.events.find? e = some ev → p ∈ cat.phasesOf e → o.sta = p.stationId.toList → o.phase = p.type.toList →
      timeAt x.ops e o.sta o.phase = travelTime ev p := by
    rintro e ev p ⟨q, hq, ht⟩ hev hpm h1 h2
    obtain ⟨q', hq'⟩ : ∃ q', paramsOf x.ops e o.sta o.phase = some q' := by
      cases hf : paramsOf x.ops e o.sta o.phase with
      | some q' => exact ⟨q', rfl⟩
      | none =>
        unfold paramsOf at hf
        rw [List.find?_eq_none] at hf
        exact absurd ht (by simpa using hf q hq)
    obtain ⟨-, d1, rfl, d3, d4⟩ := paramsOf_facts hq'
    obtain ⟨-, ev', p', f1, f2, f3, f4, f5⟩ := hpars q' d1
    rw [f1] at hev
    cases hev
    have hst : p'.stationId = p.stationId := String.toList_inj.1 (by rw [← f3, d3, h1])
    have hty : p'.type = p.type := String.toList_inj.1 (by rw [← f4, d4, h2])
    unfold timeAt
    rw [hq']
    simp only
    rw [f5]
    exact travelTime_same rfl (hone _ p hpm p' f2 hst.symm hty.symm).1
  obtain ⟨-, -, k1, k2⟩ := hcomp o ho'
  unfold Iteration.residual
  rw [htime k1 c1 c3 c5 c6, htime k2 c2 c4 c7 c8, c9, sub_self]

/-- every iteration -/
theorem fitted_states {a : Args ℝ} (hg : GoodArgs a) (hby : ByHypocentre a.env) (hstill : Still a.env) (hlag : NoLag a.xc)
    {cat r : Catalog ℝ} (hs : cat.Sound) (hn : NoAt cat) (hone : OnePick cat) (hfit : PicksFit a.env cat)
    {log : List (IterLog ℝ)} (h : relocate a cat = .ok (r, log))
    (hno : ∀ (i : Nat) (x : IterLog ℝ) (ans : Answer ℝ), log[i]? = some x → x.answer = some ans → (∀ q ∈ parOf x.ops, q.ttRes = 0) →
      (∀ o ∈ distinctObs x.ops, Iteration.residual x.ops o = 0) → ∀ k d, ans.changes k = some d → d = ⟨0, 0, 0, 0⟩) (i : Nat) :
    ∀ x, log[i]? = some x → Stays cat x.before ∧ Stays cat x.after ∧ (∀ q ∈ parOf x.ops, q.ttRes = 0) ∧
      ∀ o ∈ distinctObs x.ops, Iteration.residual x.ops o = 0 := by
  induction i with
  | zero =>
    intro x hx
    have hb : Stays cat x.before := by
      obtain ⟨prev, hok, hrel, hcase⟩ := entry_facts hg hs hn h hx
      rcases hcase with ⟨_, _, hb⟩ | ⟨w, ans, h0, _⟩
      · rw [hb]; exact Stays.refl cat
      · exact absurd h0 (lt_irrefl 0)
    exact ⟨hb, iteration_fit hg hby hlag hs hn hone hfit h hx hb (fun w h0 => absurd h0 (lt_irrefl 0))⟩
  | succ i ih =>
    intro y hy
    obtain ⟨x, hx⟩ : ∃ x, log[i]? = some x :=
      ⟨_, List.getElem?_eq_getElem (by have := (List.getElem?_eq_some_iff.1 hy).1; omega)⟩
    obtain ⟨-, hxa, hpar, hres⟩ := ih x hx
    have hb : Stays cat y.before := by
      obtain ⟨ans, hans, hmoves⟩ := solution_applied hg hs hn h hx hy
      have hzero := hno i x ans hx hans hpar hres
      intro k
      cases hev : x.after.events.find? k with
      | none =>
        have e1 := hxa k
        rw [hev] at e1
        obtain ⟨prev, hok, hrel, hcase⟩ := entry_facts hg hs hn h hy
        have e2 := hrel.events k
        rw [← e1]
        cases h0 : cat.events.find? k with
        | some e0 => rw [h0] at e1; cases e1
        | none =>
          rw [h0] at e2
          cases h3 : y.before.events.find? k with
          | none => rfl
          | some e3 => rw [h3] at e2; cases e2
      | some ev =>
        obtain ⟨ev', g1, g2, g3⟩ := hmoves k ev hev
        rw [g1]
        have e1 := hxa k
        rw [hev] at e1
        rw [← e1]
        simp only [Option.map_some, Option.some.injEq]
        by_cases hk : k ∈ a.cluster.map (·.1)
        · cases hd : ans.changes k with
          | none =>
            have := (g2 hk).1 hd
            simp only [Prod.mk.injEq] at this
            unfold hypocentre
            rw [this.1, this.2.1, this.2.2.1, this.2.2.2]
          | some d =>
            obtain ⟨-, m1, m2, m3⟩ := (g2 hk).2 d hd
            rw [hzero k d hd] at m1 m2 m3
            simp only at m1 m2 m3
            rw [hstill.1] at m3
            rw [hstill.2] at m1
            simp only [Prod.mk.injEq] at m3
            unfold hypocentre
            rw [m1, m2, m3.1, m3.2, sub_zero, add_zero]
        · rw [g3 hk]
    refine ⟨hb, iteration_fit hg hby hlag hs hn hone hfit h hy hb (fun w _ hw => ?_)⟩
    have : log[i]? = some w := by simpa using hw
    rw [hx] at this
    cases this
    exact hxa

/-- a relocation whose solver sees no reason to move anything -/
theorem stays_if {a : Args ℝ} (hg : GoodArgs a) (hby : ByHypocentre a.env) (hstill : Still a.env) (hlag : NoLag a.xc)
    {cat r : Catalog ℝ} (hs : cat.Sound) (hn : NoAt cat) (hone : OnePick cat) (hfit : PicksFit a.env cat)
    {log : List (IterLog ℝ)} (h : relocate a cat = .ok (r, log))
    (hno : ∀ (i : Nat) (x : IterLog ℝ) (ans : Answer ℝ), log[i]? = some x → x.answer = some ans → (∀ q ∈ parOf x.ops, q.ttRes = 0) →
      (∀ o ∈ distinctObs x.ops, Iteration.residual x.ops o = 0) → ∀ k d, ans.changes k = some d → d = ⟨0, 0, 0, 0⟩) :
    (∀ k e, r.events.find? k = some e → ∃ e0, cat.events.find? k = some e0 ∧ hypocentre e = hypocentre e0) ∧
    (∀ k ∈ a.cluster.map (·.1), ∀ e, r.events.find? k = some e → (a.env.sqrt 0 = 0 → e.startRms = 0 ∧ e.finalRms = 0) ∧
      ∀ p ∈ r.phasesOf k, p.startResidual = 0 ∧ p.finalResidual = 0) ∧
    ∀ x ∈ log, ∀ ans, x.answer = some ans → ∀ k d, ans.changes k = some d → d = ⟨0, 0, 0, 0⟩ := by
  have hst := fitted_states hg hby hstill hlag hs hn hone hfit h hno
  obtain ⟨first, last, hf, hl, hb, -, hend⟩ := relocation_endpoints hg hs hn h
  have hl' : log[log.length - 1]? = some last := by rw [← List.getLast?_eq_getElem?]; exact hl
  refine ⟨fun k e he => ((hst _ last hl').2.1).event (hend k e he), fun k hk e he => ?_, ?_⟩
  · obtain ⟨r1, r2, r3, r4, r5⟩ := returned_residuals hg hs hn h hf hl hk he
    have hzero : ∀ {i : Nat} {x : IterLog ℝ}, log[i]? = some x → ∀ k p, (givenResidual x.ops k p).getD 0 = 0 := by
      intro i x hx k p
      unfold givenResidual
      cases hp : paramsOf x.ops k p.stationId.toList p.type.toList with
      | none => rfl
      | some q =>
        simp only [Option.map_some, Option.getD_some]
        exact (hst i x hx).2.2.1 q (paramsOf_facts hp).2.1
    have hrms : ∀ {i : Nat} {x : IterLog ℝ}, log[i]? = some x → a.env.sqrt 0 = 0 → ∀ v, IsRms a.env.sqrt (residualsOf a.o x k) v → v = 0 := by
      intro i x hx h0 v hv
      unfold IsRms at hv
      have hsum : ((residualsOf a.o x k).map (fun x => (x.1 * x.2) ^ 2)).sum = 0 := by
        apply List.sum_eq_zero
        intro y hy
        obtain ⟨z, hz, rfl⟩ := List.mem_map.1 hy
        unfold residualsOf at hz
        obtain ⟨p, hp, hq⟩ := List.mem_filterMap.1 hz
        have hzp := hzero hx k p
        cases hgr : givenResidual x.ops k p with
        | none => rw [hgr] at hq; cases hq
        | some v =>
          rw [hgr] at hq hzp
          simp only [Option.map_some, Option.some.injEq] at hq
          simp only [Option.getD_some] at hzp
          rw [← hq, hzp]; simp
      rw [hsum, zero_div, h0, ite_self] at hv
      exact hv
    have hlen : log.length = 1 ∨ 1 < log.length := by
      have := (List.getElem?_eq_some_iff.1 hf).1; omega
    refine ⟨fun h0 => ⟨hrms hf h0 _ r1, ?_⟩, fun p hp => ⟨?_, ?_⟩⟩
    · rcases hlen with hlen | hlen
      · exact r2 hlen
      · exact hrms hl' h0 _ (r3 hlen)
    · have : p.startResidual ∈ (r.phasesOf k).map (·.startResidual) := List.mem_map_of_mem hp
      rw [r4] at this
      obtain ⟨p', -, hp'⟩ := List.mem_map.1 this
      rw [← hp']; exact hzero hf k p'
    · rcases hlen with hlen | hlen
      · exact (r5 p hp).2.1 hlen
      · rw [(r5 p hp).2.2 hlen]; exact hzero hl' k p
  · intro x hx ans hans k d hk
    obtain ⟨i, hi⟩ := List.getElem?_of_mem hx
    obtain ⟨-, -, hpar, hres⟩ := hst i x hi
    exact hno i x ans hi hans hpar hres k d hk

/-- **C118c.** A catalog whose picks fit the velocity model is a fixed point of relocation: with any options (damping, constraints,
method, number of iterations, neighbours kept fixed or not), as long as the weights and scaling factors are numbers, every event
returned is exactly where and when it was, and its reported residuals are all zero. Missing from the property: residual weights, with
which it is false (below). -/
theorem fitted_catalog_stays_partial {a : Args ℝ} (hg : GoodArgs a) (hself : ∀ kv ∈ a.cluster, kv.1 ∉ kv.2.ids) {su : SolverSetup}
    (hv : su.Visits) (hsol : a.sol = realSolver su a.so) (hby : ByHypocentre a.env) (hstill : Still a.env) (hlag : NoLag a.xc)
    {cat r : Catalog ℝ} (hs : cat.Sound) (hn : NoAt cat) (hone : OnePick cat) (hfit : PicksFit a.env cat)
    {log : List (IterLog ℝ)} (h : relocate a cat = .ok (r, log))
    (hreg : ∀ i x, log[i]? = some x → x.answer.isSome = true → Regular (goalAt su a.so i) x.ops) :
    (∀ k e, r.events.find? k = some e → ∃ e0, cat.events.find? k = some e0 ∧ hypocentre e = hypocentre e0) ∧
    (∀ k ∈ a.cluster.map (·.1), ∀ e, r.events.find? k = some e → (a.env.sqrt 0 = 0 → e.startRms = 0 ∧ e.finalRms = 0) ∧
      ∀ p ∈ r.phasesOf k, p.startResidual = 0 ∧ p.finalResidual = 0) ∧
    ∀ x ∈ log, ∀ ans, x.answer = some ans → ∀ k d, ans.changes k = some d → d = ⟨0, 0, 0, 0⟩ := by
  refine stays_if hg hby hstill hlag hs hn hone hfit h (fun i x ans hi hans hpar hres k d hk => ?_)
  obtain ⟨o1, o2, o3, o4, -⟩ := iteration_ops hg hs hn h hi
  obtain ⟨-, -, -, -, hsolve⟩ := (relocation_parameters h).2 i x hi
  have h1 := (hsolve ans hans).2
  rw [hsol] at h1
  refine no_residual_no_change hv o1 o2 o3 ?_ (hreg i x hi (by rw [hans]; rfl)) hres
    (fun q hq _ => hpar q (firstBy_subset _ _ hq)) h1 hk
  intro o ho he
  obtain ⟨kv, hkv, e1, e2⟩ := o4 o ho
  exact hself kv hkv (by rw [← e1, he]; exact e2)

theorem median_zero (nth : NthElement (id : ℝ → ℝ)) {l : List ℝ} (h : ∀ x ∈ l, x = 0) : Stats.computeMedian nth l = 0 := by
  by_cases hne : l = []
  · subst hne; rfl
  · have hl : l = List.replicate l.length 0 := List.eq_replicate_iff.2 ⟨rfl, h⟩
    have hs : Stats.SortedOf l l := by
      refine ⟨?_, List.Perm.refl _⟩
      rw [hl, List.pairwise_replicate]
      exact .inr (le_refl _)
    have hget : ∀ i, l.getD i 0 = 0 := by
      intro i
      rw [List.getD_eq_getElem?_getD]
      cases hi : l[i]? with
      | none => rfl
      | some x => exact h x (List.mem_of_getElem? hi)
    rw [Stats.median_is_middle nth l l hs hne, hget, hget]
    simp

/-- **C118 is false with residual weights**, which are on by default: they are measured relative to the median absolute deviation
of the double differences, so that for double differences that are all zero the weights are not numbers, and what the solver
then answers is not determined by the least-squares problem. -/
theorem fitted_data_weights_undefined {su : SolverSetup} (hv : su.Visits) {so : SolverOptions ℝ} {it : Nat}
    {ops : List (SolverOp ℝ)} (hb : Fits ops) (hs : NoSeparator ops) (hc : Complete ops)
    (hdown : 0 < (goalAt su so it).down) (hsome : distinctObs ops ≠ [])
    (hres : ∀ o ∈ distinctObs ops, Iteration.residual ops o = 0) (damping : ℝ) :
    su.prepared ops (goalAt su so it).absLoc (goalAt su so it).down = .ok none ∧
    (realSolver su so).solve it ops damping = su.odd it ops := by
  generalize hgo : goalAt su so it = g at *
  have hnth : g.nth = su.nth := by rw [← hgo]; rfl
  have ha : g.absLoc = interpolate so.algoIterations it so.absLocConstraintStart so.absLocConstraintEnd := by rw [← hgo]; rfl
  have hw : g.down = interpolate so.algoIterations it so.downWeightingByResidualStart so.downWeightingByResidualEnd := by rw [← hgo]; rfl
  have h1 : su.prepared ops g.absLoc g.down = .ok none := by
    rcases system_prepared ops hb hs hc su.nth g.absLoc g.down _ _ (hv.obs _) (hv.params _) with ⟨p, -, h2⟩ | ⟨h1, -⟩
    · exfalso
      rw [← hnth] at h2
      obtain ⟨o, l, hol⟩ := List.exists_cons_of_ne_nil hsome
      have ho : (distinctObs ops)[0]? = some o := by rw [hol]; rfl
      obtain ⟨e1, e2, ph, p1, p2, w, -, -, -, -, -, -, -, -, -, -, g11, -⟩ := h2.observation 0 o ho
      obtain ⟨δ, hδ⟩ := exists_holds ops (fun _ => 0)
      unfold IsResidualWeight at g11
      rw [if_pos hdown] at g11
      simp only at g11
      rw [residuals_eq hb h2, (obs_row hb h2 hδ ho).1, hres o (List.mem_of_getElem? ho)] at g11
      have hz : ∀ x ∈ (distinctObs ops).map (Iteration.residual ops), x = 0 := by
        intro x hx
        obtain ⟨o', ho', rfl⟩ := List.mem_map.1 hx
        exact hres o' ho'
      have hmad : Stats.computeMAD g.nth ((distinctObs ops).map (Iteration.residual ops))
          (Stats.computeMedian g.nth ((distinctObs ops).map (Iteration.residual ops))) = 0 := by
        rw [median_zero g.nth hz]
        unfold Stats.computeMAD
        apply median_zero
        intro x hx
        obtain ⟨y, hy, rfl⟩ := List.mem_map.1 hx
        rw [hz y hy]; simp
      rw [hmad, residual_weight_nan, if_pos rfl] at g11
      cases g11
    · exact h1
  refine ⟨h1, ?_⟩
  unfold realSolver
  simp only [← ha, ← hw, h1]

namespace Example
open Iteration.Example

noncomputable def cat : Catalog ℝ :=
  ((((Catalog.init.addStation RealExample.sta).addEvent (RealExample.event 1 10000000 46) true).1.addEvent
    (RealExample.event 2 20000000 47) true).1.addPhase (RealExample.pickOf 1 13000000)).addPhase (RealExample.pickOf 2 24000000)

theorem cat_sound : cat.Sound := by
  refine ⟨Catalog.Reachable.wf ?_, by decide +kernel, by decide +kernel⟩
  exact .addPhase _ (.addPhase _ (.addEvent _ _ (by decide) (.addEvent _ _ (by decide) (.addStation _ .init))))

theorem cat_noAt : NoAt cat := by
  intro k p hp
  have : ∀ kp ∈ cat.phases, '@' ∉ kp.2.type.toList := by decide +kernel
  exact this (k, p) (Catalog.mem_phasesOf.1 hp)

/-- travel times of 3 s from latitude 46 and of 4 s from latitude 47 -/
noncomputable def env : Env ℝ := { Iteration.Example.env with ttt := fun e _ _ => some ⟨e.latitude - 43, 0, 0, 1, 1⟩ }

noncomputable def setup (method : Method) : SolverSetup := { Iteration.Example.setup method with normalize := false }

/-- three iterations with the damping factor 1/100, without residual weights, with absolute locations -/
noncomputable def options : SolverOptions ℝ := ⟨3, 1 / 100, 1 / 100, 0, 0, 1 / 2, 1 / 2⟩

noncomputable def args (method : Method) : Args ℝ where
  env := env
  so := options
  o := ⟨false, false, 2, fun _ => some (1 / 2)⟩
  xc := []
  cluster := RealExample.pair
  sol := realSolver (setup method) options

theorem phases_cat {k : Nat} {p : Phase ℝ} (h : p ∈ cat.phasesOf k) :
    (k = 1 ∧ p = RealExample.pickOf 1 13000000) ∨ (k = 2 ∧ p = RealExample.pickOf 2 24000000) := by
  have := Catalog.mem_phasesOf.1 h
  have hp : cat.phases = [(1, RealExample.pickOf 1 13000000), (2, RealExample.pickOf 2 24000000)] := rfl
  rw [hp] at this
  simp only [List.mem_cons, Prod.mk.injEq, List.not_mem_nil, or_false] at this
  exact this

theorem fits : PicksFit env cat := by
  intro k ev p st tt h1 h2 h3 h4
  rcases phases_cat h2 with ⟨rfl, rfl⟩ | ⟨rfl, rfl⟩
  · have h : cat.events.find? 1 = some (RealExample.event 1 10000000 46) := rfl
    rw [h] at h1
    cases h1
    cases h4
    simp [travelTime, RealExample.pickOf, RealExample.event]
    norm_num
  · have h : cat.events.find? 2 = some (RealExample.event 2 20000000 47) := rfl
    rw [h] at h1
    cases h1
    cases h4
    simp [travelTime, RealExample.pickOf, RealExample.event]
    norm_num

theorem onePick : OnePick cat := by
  intro k p hp p' hp' _ _
  rcases phases_cat hp with ⟨rfl, rfl⟩ | ⟨rfl, rfl⟩ <;> rcases phases_cat hp' with ⟨h, rfl⟩ | ⟨h, rfl⟩
  · exact ⟨rfl, rfl⟩
  · cases h
  · cases h
  · exact ⟨rfl, rfl⟩

theorem setup_visits (method : Method) : (setup method).Visits := ⟨(Iteration.Example.setup_visits method).obs, (Iteration.Example.setup_visits method).params⟩

theorem args_good (method : Method) : GoodArgs (args method) := by
  have h : (args method).cluster = RealExample.pair := rfl
  exact ⟨by rw [h]; exact ⟨by decide, by decide⟩, by rw [h]; decide⟩

theorem not_down (method : Method) (it : Nat) : (goalAt (setup method) options it).down = 0 := by
  simp [goalAt, interpolate, options]

theorem regular (method : Method) (it : Nat) (ops : List (SolverOp ℝ)) : Regular (goalAt (setup method) options it) ops := by
  refine ⟨fun h => ?_, fun h => ?_⟩
  · rw [not_down] at h
    exact absurd h (lt_irrefl 0)
  · cases h

noncomputable def obs1 : ObsArg ℝ := ⟨1, 2, "N.A.".toList, "Pg".toList, durToSec (-1000000), 1, false, 0⟩
noncomputable def par (k : Nat) (lat : ℝ) (t : Int) : ParArg ℝ :=
  ⟨k, "N.A.".toList, "Pg".toList, true, lat - 43, durToSec t - (lat - 43), 1 / 1 * -1, 1 / 1 * -1, -1⟩
noncomputable def par1 : ParArg ℝ := par 1 46 3000000
noncomputable def par2 : ParArg ℝ := par 2 47 4000000

noncomputable def ops : List (SolverOp ℝ) :=
  [.event 1 46 7 5, .station "N.A.".toList 1 2 0, .params par1, .event 2 47 7 5, .station "N.A.".toList 1 2 0, .params par2, .obs obs1]

/-- what the solver is told in the first iteration -/
theorem first_ops (method : Method) : ∃ ob, observe env (args method).o [] RealExample.pair Catalog.init cat = .ok ob ∧ ob.ops = ops :=
  ⟨_, rfl, rfl⟩

theorem distinct : distinctObs ops = [obs1] := rfl
theorem distinctP : distinctPars ops = [par1, par2] := by
  simp [distinctPars, ops, parOf, firstBy, ParArg.triple, par1, par2, par]
theorem p1 : paramsOf ops 1 "N.A.".toList "Pg".toList = some par1 := by simp [paramsOf, ops, parOf, ParArg.triple, par1, par2, par]
theorem p2 : paramsOf ops 2 "N.A.".toList "Pg".toList = some par2 := by simp [paramsOf, ops, parOf, ParArg.triple, par1, par2, par]

theorem good : Fits ops ∧ NoSeparator ops ∧ Complete ops ∧ ∀ o ∈ obsOf ops, o.e1 ≠ o.e2 := by
  refine ⟨by simp [Fits, ops, IdToIndex.uintMod], ?_, ?_, ?_⟩
  · simp [NoSeparator, ops, obsOf, parOf, obs1, par1, par2, par]
  · simp [Complete, ops, obsOf, parOf, eventsOf, ParArg.triple, obs1, par1, par2, par]
  · simp [ops, obsOf, obs1]

theorem no_residual : ∀ o ∈ distinctObs ops, Iteration.residual ops o = 0 := by
  intro o ho
  rw [distinct, List.mem_singleton] at ho
  subst ho
  unfold Iteration.residual
  unfold timeAt
  simp only [obs1, p1, p2]
  simp [par1, par2, par, durToSec]
  norm_num

theorem no_par : ∀ q ∈ distinctPars ops, q.free = true → q.ttRes = 0 := by
  intro q hq _
  rw [distinctP] at hq
  simp only [List.mem_cons, List.not_mem_nil, or_false] at hq
  rcases hq with rfl | rfl <;> simp [par1, par2, par, durToSec] <;> norm_num

theorem active (method : Method) (it : Nat) (k : Nat) (hk : k = 1 ∨ k = 2) : Active (goalAt (setup method) options it) ops k := by
  refine ⟨obs1, by rw [distinct]; simp, ?_, ?_⟩
  · simp [obsWeight, not_down, obs1]
  rcases hk with rfl | rfl
  · exact ⟨par1, p1, rfl, .inl rfl⟩
  · exact ⟨par2, p2, rfl, .inr rfl⟩

/-- both solvers answer, that the two events stay (C118a, C118b) -/
example (method : Method) (it : Nat) : ∃ ans, (realSolver (setup method) options).solve it ops (1 / 100) = some ans ∧
    ∀ k d, ans.changes k = some d → d = ⟨0, 0, 0, 0⟩ := by
  obtain ⟨h1, h2, h3, h4⟩ := good
  cases hans : (realSolver (setup method) options).solve it ops (1 / 100) with
  | none =>
    exact absurd (active method it 1 (.inl rfl))
      ((no_residual_solved (setup_visits method) h1 h2 h3 h4 (regular method it ops) no_residual no_par rfl _).1 hans 1)
  | some ans => exact ⟨ans, rfl, fun k d hk => no_residual_no_change (setup_visits method) h1 h2 h3 h4 (regular method it ops)
      no_residual no_par hans hk⟩

/-- the solver is asked, answers, and both events stay (C118c) -/
example (method : Method) : ∃ (r : Catalog ℝ) (log : List (IterLog ℝ)), relocate (args method) cat = .ok (r, log) ∧
    (∃ x, log[0]? = some x ∧ x.ops = ops ∧ x.answer.isSome = true) ∧
    ∀ k e, r.events.find? k = some e → ∃ e0, cat.events.find? k = some e0 ∧ hypocentre e = hypocentre e0 := by
  have hpick : ∀ n, n = 1 ∨ n = 2 → ∃ p, IsPick cat n ("N.A.", "Pg") p := by
    rintro n (rfl | rfl)
    · exact ⟨RealExample.pickOf 1 13000000, Catalog.mem_phasesOf.2 (.head _), rfl, rfl⟩
    · exact ⟨RealExample.pickOf 2 24000000, Catalog.mem_phasesOf.2 (.tail _ (.head _)), rfl, rfl⟩
  have hpair : Pairable cat (args method).o.minCoef (args method).cluster := by
    refine ⟨by show ∀ kv ∈ RealExample.pair, _; decide +kernel, ?_, fun _ _ _ _ _ _ _ => rfl⟩
    show ∀ kv ∈ RealExample.pair, _
    intro kv hkv sp n hsp
    simp only [RealExample.pair, List.mem_cons, List.not_mem_nil, or_false] at hkv
    rcases hkv with rfl | rfl
    · simp only [Neighbours.phases, List.flatMap_cons, List.flatMap_nil, List.append_nil, List.map_cons, List.map_nil,
        List.mem_singleton, Prod.mk.injEq] at hsp
      obtain ⟨rfl, rfl⟩ := hsp
      exact ⟨hpick 1 (.inl rfl), hpick 2 (.inr rfl)⟩
    · cases hsp
  have hself : ∀ kv ∈ (args method).cluster, kv.1 ∉ kv.2.ids := by
    show ∀ kv ∈ RealExample.pair, kv.1 ∉ kv.2.ids
    decide
  obtain ⟨⟨r, log⟩, h⟩ := relocate_total (args_good method) cat_sound cat_noAt hpair
    (realSolver_prepares (setup_visits method) options)
  have hst := fitted_catalog_stays_partial (args_good method) hself (setup_visits method) rfl
    (by intro e e' _ _ he; have := congrArg Prod.fst he; simp only [hypocentre] at this
        show some _ = some _; rw [this])
    ⟨fun lat lon _ => by show (lat + 0, lon + 0) = _; simp, by show ⌊(0 : ℝ) * 1000000⌋ = 0; simp⟩
    (by intro e1 e2 sta ph e he; cases he) cat_sound cat_noAt onePick fits h (fun i x _ _ => regular method i x.ops)
  obtain ⟨first, -, hf, -⟩ := relocation_endpoints (args_good method) cat_sound cat_noAt h
  have hx : log[0]? = some first := hf
  obtain ⟨prev, hok, -, hcase⟩ := entry_facts (args_good method) cat_sound cat_noAt h hx
  have hops : first.ops = ops := by
    obtain ⟨ob, h1, h2, -⟩ := hok.observe
    rcases hcase with ⟨-, e1, e2⟩ | ⟨w, ans, h0, -⟩
    · rw [e1, e2] at h1
      obtain ⟨ob', h3, h4⟩ := first_ops method
      have := h3.symm.trans h1
      cases this
      rw [← h2, h4]
    · exact absurd h0 (lt_irrefl 0)
  refine ⟨r, log, h, ⟨first, hx, hops, ?_⟩, hst.1⟩
  obtain ⟨n, last, h1, h2, h3, h4, h5⟩ := relocation_iterations h
  rcases Nat.eq_zero_or_pos n with rfl | hn
  · rw [hx] at h2
    cases h2
    rcases h4 with h4 | ⟨-, h4⟩
    · cases h4
    · obtain ⟨g1, g2, g3, g4⟩ := good
      rw [hops] at h4
      exact absurd (active method 0 1 (.inl rfl))
        ((no_residual_solved (setup_visits method) g1 g2 g3 g4 (regular method 0 ops) no_residual no_par rfl _).1 h4 1)
  · obtain ⟨x', ans, e1, e2, -⟩ := h5 0 hn
    rw [hx] at e1
    cases e1
    rw [e2]; rfl

/-- the same data with residual weights -/
example (method : Method) : (setup method).prepared ops (1 / 2) 10 = .ok none := by
  obtain ⟨h1, h2, h3, h4⟩ := good
  have hg : (goalAt (setup method) ⟨3, 1 / 100, 1 / 100, 10, 10, 1 / 2, 1 / 2⟩ 0).down = 10 := by simp [goalAt, interpolate]
  have ha : (goalAt (setup method) ⟨3, 1 / 100, 1 / 100, 10, 10, 1 / 2, 1 / 2⟩ 0).absLoc = 1 / 2 := by simp [goalAt, interpolate]
  have := (fitted_data_weights_undefined (setup_visits method) (so := ⟨3, 1 / 100, 1 / 100, 10, 10, 1 / 2, 1 / 2⟩) (it := 0)
    h1 h2 h3 (by rw [hg]; norm_num) (by rw [distinct]; simp) no_residual 0).1
  rwa [hg, ha] at this

end Example
end Verif.FittedData
