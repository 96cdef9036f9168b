import Verif.Proofs.Iteration
import Verif.Props.Observations
import Verif.Props.Residuals

/-! Helper lemmas for C102: the observations and parameters of an iteration of a relocation. -/

set_option linter.unusedSectionVars false
set_option linter.unusedSimpArgs false

namespace Verif.Relocate
open Verif.Catalog Verif.Solver

variable {K : Type} [Field K] [LinearOrder K]

theorem added_pairs {env : Env K} {o : ObsOptions K} {cat : Catalog K} (hw : cat.WF) {xc : XCorr.Cache} {nb : Neighbours}
    {ops0 ops : List (SolverOp K)} {b : Bool} (h : addObservations env o cat xc nb ops0 = .ok (ops, b)) :
    ∀ x ∈ obsOf ops, x ∈ obsOf ops0 ∨ (x.e1 = nb.refId ∧ x.e2 ∈ nb.ids) := by
  obtain ⟨refEv, s, h1, h2, h3, hi⟩ := addObservations_inv hw h
  obtain ⟨new, hnew, hgood⟩ := hi.new
  intro x hx
  rw [← h2, hnew, obsOf_append, List.mem_append] at hx
  rcases hx with hx | hx
  · exact .inl hx
  · right
    unfold obsOf at hx
    rw [List.mem_filterMap] at hx
    obtain ⟨op, hop, hx⟩ := hx
    cases op with
    | obs x' =>
      simp only [Option.some.injEq] at hx
      subst hx
      obtain ⟨sp, n, ev, rp, p, mc, g1, g2, g3, g4, g5, g6, g7, rfl⟩ := hgood _ hop
      obtain ⟨i1, i2, -⟩ := observation_ids o xc mc refEv ev sp rp p
      rw [i1, i2, (hw.eventKey _ _ h1).1, (hw.eventKey _ _ g2).1]
      exact ⟨rfl, mem_ids_of_phases g1⟩
    | event => simp at hx
    | station => simp at hx
    | params => simp at hx

/-- each observation is one of a pair of the cluster -/
theorem observe_pairs {env : Env K} {o : ObsOptions K} {xc : XCorr.Cache} {prev cur0 : Catalog K}
    (hc : cur0.Sound) (hcn : NoAt cur0)
    (hp : prev.Sound) (hpn : NoAt prev) (hps : isEmpty prev = true ∨ ∀ s, prev.stations.find? s = cur0.stations.find? s)
    {cluster : Cluster} (hg : GoodCluster cluster)
    (hfit : 28 * (cluster.map (·.2.phases.length)).sum ≤ IdToIndex.uintMod)
    {s : ObserveState K} (h : observe env o xc cluster prev cur0 = .ok s) :
    ∀ x ∈ obsOf s.ops, ∃ kv ∈ cluster, x.e1 = kv.1 ∧ x.e2 ∈ kv.2.ids := by
  unfold observe at h
  suffices H : ∀ (rest done : Cluster) (t : ObserveState K), done ++ rest = cluster →
      ObserveInv env o.keepNeighboursFixed prev cur0 done t → (∀ x ∈ obsOf t.ops, ∃ kv ∈ cluster, x.e1 = kv.1 ∧ x.e2 ∈ kv.2.ids) →
      rest.foldlM (observeStep env o xc prev) t = .ok s → ∀ x ∈ obsOf s.ops, ∃ kv ∈ cluster, x.e1 = kv.1 ∧ x.e2 ∈ kv.2.ids by
    refine H cluster [] _ rfl ?_ ?_ h
    · exact ⟨hc, hcn, ⟨fun _ => rfl, fun _ _ => rfl, fun _ _ => rfl⟩, by simp, by simp, by simp, by simp, by simp,
        by simp [NoSeparator, obsOf, parOf], by simp [parOf], by simp [parOf]⟩
    · simp [obsOf]
  intro rest
  induction rest with
  | nil =>
    intro done t hd hi ho h
    simp only [List.foldlM_nil, Outcome.pure_eq, Outcome.ok.injEq] at h
    rw [← h]; exact ho
  | cons kv rest ih =>
    intro done t hd hi ho h
    rw [List.foldlM_cons, Outcome.bind_eq_ok] at h
    obtain ⟨t', h1, h2⟩ := h
    have hmem : kv ∈ cluster := by rw [← hd]; simp
    have hkey := hg.key kv hmem
    have hnodup := hg.nodup
    rw [← hd] at hnodup hfit
    simp only [List.map_append, List.map_cons, List.sum_append, List.sum_cons] at hnodup hfit
    have hi' : ObserveInv env o.keepNeighboursFixed prev cur0 (done ++ [kv]) t' := by
      refine observeStep_inv hp hpn hps hkey ?_ ?_ hi h1
      · intro hc
        exact (List.nodup_append.1 hnodup).2.2 _ hc _ (by simp) rfl
      · simp only [List.map_append, List.map_cons, List.map_nil, List.sum_append, List.sum_cons, List.sum_nil]
        omega
    refine ih (done ++ [kv]) t' (by simpa using hd) hi' ?_ h2
    unfold observeStep at h1
    rw [Outcome.bind_eq_ok] at h1
    obtain ⟨⟨ops, b⟩, g1, g⟩ := h1
    simp only at g
    have hadd : ∀ x ∈ obsOf ops, ∃ kv ∈ cluster, x.e1 = kv.1 ∧ x.e2 ∈ kv.2.ids := by
      intro x hx
      rcases added_pairs hi.sound.toWF g1 x hx with hx | ⟨e1, e2⟩
      · exact ho x hx
      · exact ⟨kv, hmem, by rw [e1, hkey], e2⟩
    by_cases hb : (b || isEmpty prev) = true
    · rw [if_pos hb] at g
      simp only [Outcome.ok.injEq] at g
      rw [← g]; exact hadd
    · rw [if_neg hb] at g
      rw [Outcome.bind_eq_ok] at g
      obtain ⟨ev, g2, g⟩ := g
      by_cases hr : ev.isRelocated = true
      · rw [if_pos hr] at g
        cases hx : (t.cur.removeEvent kv.1).addFrom kv.1 prev true with
        | mk c r =>
          rw [hx] at g
          cases r with
          | throws => simp at g
          | ub => simp at g
          | ok u =>
            simp only at g
            rw [Outcome.bind_eq_ok] at g
            obtain ⟨⟨ops2, b2⟩, g3, g4⟩ := g
            simp only [Outcome.ok.injEq] at g4
            subst g4
            intro x hx
            rcases added_pairs hi'.sound.toWF g3 x hx with hx | ⟨e1, e2⟩
            · exact hadd x hx
            · exact ⟨kv, hmem, by rw [e1, hkey], e2⟩
      · rw [if_neg hr] at g
        simp only [Outcome.ok.injEq] at g
        rw [← g]; exact hadd

/-- what an iteration gives to the solver -/
theorem iteration_ops {a : Args K} (hg : GoodArgs a) {cat r : Catalog K} (hs : cat.Sound) (hn : NoAt cat)
    {log : List (IterLog K)} (h : relocate a cat = .ok (r, log)) {i : Nat} {x : IterLog K} (hx : log[i]? = some x) :
    Fits x.ops ∧ NoSeparator x.ops ∧ Complete x.ops ∧ (∀ ob ∈ obsOf x.ops, ∃ kv ∈ a.cluster, ob.e1 = kv.1 ∧ ob.e2 ∈ kv.2.ids) ∧
      ∀ q ∈ parOf x.ops, q.free = true → q.ev ∈ a.cluster.map (·.1) ∨
        (a.o.keepNeighboursFixed = false ∧ ∃ kv ∈ a.cluster, q.ev ∈ kv.2.ids) := by
  obtain ⟨prev, hok, hrel, hcase⟩ := entry_facts hg hs hn h hx
  obtain ⟨ob, h1, h2, h3, h4⟩ := hok.observe
  have hp : prev = Catalog.init ∨ Rel a.cluster cat prev := by
    rcases hcase with ⟨_, h, _⟩ | ⟨w, ans, _, _, h, h', _⟩
    · exact Or.inl h
    · exact Or.inr (h ▸ h')
  obtain ⟨p1, p2, p3⟩ := prev_ok hrel hp
  have hinv := observe_inv hrel.sound hrel.noAt p1 p2 p3 hg.cluster hg.fits h1
  have hops := observe_ops hrel.sound hrel.noAt p1 p2 p3 hg.cluster hg.fits h1
  have hpairs := observe_pairs hrel.sound hrel.noAt p1 p2 p3 hg.cluster hg.fits h1
  rw [← h2]
  refine ⟨?_, hinv.sep, hops.complete, hpairs, fun q hq hf => ?_⟩
  rotate_left
  · rcases hinv.free q hq with h | ⟨h1, h2⟩
    · exact .inl h.2
    · rw [hf] at h1
      exact .inr ⟨by simpa using h1.symm, h2⟩
  have := hinv.len
  have := hg.fits
  unfold Fits
  omega

end Verif.Relocate
