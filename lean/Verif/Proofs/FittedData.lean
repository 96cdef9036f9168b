import Verif.Spec.FittedData
import Verif.Proofs.IterationRun
import Verif.Proofs.IterationSolved
import Verif.Props.SolveDD

/-! Helper lemmas for C118. -/

set_option linter.unusedSectionVars false
set_option linter.unusedSimpArgs false

namespace Verif.LeastSquares

theorem dnrm2_zero {n : Nat} (x : Fin n → ℝ) (h : ∀ i, x i = 0) : dnrm2 realFns x = 0 := by
  rw [show realFns = real tiny30 from rfl, dnrm2_eq]
  have : x = 0 := funext h
  rw [this]; simp

theorem lsqr_zero {m n : Nat} (P : Products m n ℝ) (o : Settings ℝ) (b : Fin m → ℝ) (h : ∀ i, b i = 0) (fuel : Nat) :
    ∃ s, Lsqr.solve realFns P o b fuel = some s ∧ s.istop = 0 ∧ ∀ i, s.x i = 0 := by
  have h0 : firstVectors realFns P b = ⟨0, 0, b, fun _ => 0⟩ := by
    unfold firstVectors
    simp only [dnrm2_zero b h, lt_irrefl, if_false]
  refine ⟨Lsqr.finish o (Lsqr.start realFns P b), ?_, ?_⟩
  · unfold Lsqr.solve
    have : (Lsqr.start realFns P b).Arnorm = 0 := by
      unfold Lsqr.start; simp only [h0]; norm_num
    simp only [this, beq_self_eq_true, if_true]
  · have hf : Lsqr.finish o (Lsqr.start realFns P b) = Lsqr.start realFns P b := by
      unfold Lsqr.finish
      rw [if_neg]
      rintro ⟨-, hc⟩
      unfold Lsqr.start at hc
      simp at hc
    rw [hf]
    unfold Lsqr.start
    exact ⟨rfl, fun _ => rfl⟩

theorem lsmr_zero {m n : Nat} {P : Products m n ℝ} {A : Matrix (Fin m) (Fin n) ℝ} (hP : IsProduct P A) (big : ℝ) (o : Settings ℝ)
    (b : Fin m → ℝ) (h : ∀ i, b i = 0) (fuel : Nat) :
    ∃ s, Lsmr.solve realFns P big o b fuel = some s ∧ s.istop = 0 ∧ ∀ i, s.x i = 0 := by
  have hb : ∀ i, scale (-1) (P.aprod1 (fun _ => 0) (scale (-1) b)) i = 0 := by
    intro i
    have hz : (fun _ : Fin n => (0 : ℝ)) = 0 := rfl
    rw [hP.p1, scale_eq, scale_eq, hz, Matrix.mulVec_zero]
    simp [h i]
  have h0 : firstVectors realFns P (scale (-1) (P.aprod1 (fun _ => 0) (scale (-1) b))) =
      ⟨0, 0, scale (-1) (P.aprod1 (fun _ => 0) (scale (-1) b)), fun _ => 0⟩ := by
    unfold firstVectors
    simp only [dnrm2_zero _ hb, lt_irrefl, if_false]
  refine ⟨Lsmr.start realFns P big b, ?_, ?_⟩
  · unfold Lsmr.solve
    have : (Lsmr.start realFns P big b).normAr = 0 := by
      unfold Lsmr.start; simp only [h0]; norm_num
    simp only [this, beq_self_eq_true, if_true]
  · unfold Lsmr.start
    exact ⟨rfl, fun _ => rfl⟩

/-- without residuals the solution is zero -/
theorem solveDD_zero (method : Method) (dd : DDSystem ℝ) (hr : dd.EventsInRange) (h : ∀ r < dd.numRows, dd.d r = 0)
    (iterations : Nat) (damp : ℝ) (normalize : Bool) :
    ∃ m, solveDD method dd iterations damp normalize = .ok (0, m) ∧ ∀ c, m c = 0 := by
  have hr1 : dd.adapter.EventsInRange := hr
  have hr2 : dd.adapter.l2normalize.EventsInRange := hr
  obtain ⟨a, ha, hra, hda⟩ : ∃ a : DDSystem ℝ, (if normalize = true then dd.adapter.l2normalize else dd.adapter) = a ∧
      a.EventsInRange ∧ ∀ r < a.numRows, a.d r = 0 := by
    have hd : ∀ r < dd.numRows, dd.adapter.d r = 0 := by
      intro r hrr
      unfold DDSystem.adapter
      simp only [hrr, if_true, h r hrr, zero_mul, ite_self]
    cases normalize
    · exact ⟨_, rfl, hr1, hd⟩
    · exact ⟨_, rfl, hr2, hd⟩
  unfold solveDD
  simp only
  rw [ha]
  have hb : ∀ i, first a.numRows a.d i = 0 := fun i => hda i i.2
  have hfin : ∀ x : Fin a.numCols → ℝ, (∀ i, x i = 0) → ∀ c, (if normalize = true then a.l2denormalize (array x) else array x) c = 0 := by
    intro x hx c
    have : ∀ c, array x c = 0 := by
      intro c; unfold array; split
      · exact hx _
      · rfl
    cases normalize
    · exact this c
    · simp only [if_true, DDSystem.l2denormalize, this, zero_mul, ite_self]
  cases method with
  | lsqr =>
    obtain ⟨s, h1, h2, h3⟩ := lsqr_zero (ddProducts a) (settings a.numCols iterations damp) _ hb (max 1 (settings a.numCols iterations damp).itnlim)
    refine ⟨_, ?_, hfin s.x h3⟩
    unfold deliver runSolver
    simp only [h1, Option.map_some, h2, rejected]
    rfl
  | lsmr =>
    obtain ⟨s, h1, h2, h3⟩ := lsmr_zero (ddProducts_is a hra) big100 (settings a.numCols iterations damp) _ hb (max 1 (settings a.numCols iterations damp).itnlim)
    refine ⟨_, ?_, hfin s.x h3⟩
    unfold deliver runSolver
    simp only [h1, Option.map_some, h2, rejected]
    rfl

end Verif.LeastSquares

namespace Verif.Iteration
open Verif.Solver Verif.LeastSquares

variable {g : Goal} {ops : List (SolverOp ℝ)} {p : Prepared ℝ}

theorem rows_zero (hb : Fits ops) (h : IsSystemOf ops g.nth g.absLoc g.down p)
    (hres : ∀ o ∈ distinctObs ops, residual ops o = 0) (hpar : ∀ q ∈ distinctPars ops, q.free = true → q.ttRes = 0) :
    ∀ r < p.dd.numRows, p.dd.d r = 0 := by
  have hrows : p.dd.nObs = (distinctObs ops).length := h.rows
  intro r hr
  by_cases hi : r < p.dd.nObs
  · obtain ⟨o, ho⟩ : ∃ o, (distinctObs ops)[r]? = some o := ⟨_, List.getElem?_eq_getElem (by rw [← hrows]; exact hi)⟩
    obtain ⟨δ, hδ⟩ := exists_holds ops (fun _ => 0)
    rw [(obs_row hb h hδ ho).1]
    exact hres o (List.mem_of_getElem? ho)
  · by_cases hpos : 0 < g.absLoc
    · obtain ⟨cs, h1, -, -, h4, h5⟩ := h.constraintRows hpos
      by_cases hj : r < p.dd.nObs + cs.length
      · obtain ⟨j, rfl⟩ := Nat.exists_eq_add_of_le (Nat.le_of_not_lt hi)
        obtain ⟨q, hq⟩ : ∃ q, cs[j]? = some q := ⟨_, List.getElem?_eq_getElem (by omega)⟩
        obtain ⟨e', ph, a1, a2, a3, a4, a5, a6, -⟩ := h4 j q hq
        obtain ⟨b1, b2, -⟩ := (h1 q).1 (List.mem_of_getElem? hq)
        rw [a6]
        exact hpar q b1 b2
      · exact (h5 r (Nat.le_of_not_lt hj) hr).2.1
    · have h0 : p.dd.nTT = 0 := by rw [h.constraints, if_neg hpos]
      unfold DDSystem.numRows at hr
      omega

end Verif.Iteration

namespace Verif.Relocate
open Verif.Catalog Verif.Solver

variable {K : Type} [Field K] [LinearOrder K]

theorem observeStep_reverted {env : Env K} {o : ObsOptions K} {xc : XCorr.Cache} {prev : Catalog K} {kv : Nat × Neighbours}
    {s s' : ObserveState K} (h : observeStep env o xc prev s kv = .ok s') : ∀ k ∈ s.reverted, k ∈ s'.reverted := by
  unfold observeStep at h
  rw [Outcome.bind_eq_ok] at h
  obtain ⟨⟨ops, b⟩, -, g⟩ := h
  simp only at g
  split at g
  · simp only [Outcome.ok.injEq] at g
    rw [← g]; exact fun _ h => h
  · rw [Outcome.bind_eq_ok] at g
    obtain ⟨ev, -, g⟩ := g
    split at g
    · split at g
      · rw [Outcome.bind_eq_ok] at g
        obtain ⟨⟨ops2, b2⟩, -, g⟩ := g
        simp only [Outcome.ok.injEq] at g
        rw [← g]
        exact fun k hk => List.mem_append.2 (.inl hk)
      · cases g
      · cases g
    · simp only [Outcome.ok.injEq] at g
      rw [← g]; exact fun _ h => h

theorem observe_reverted {env : Env K} {o : ObsOptions K} {xc : XCorr.Cache} {prev : Catalog K} {cluster : Cluster}
    {s s' : ObserveState K} (h : cluster.foldlM (observeStep env o xc prev) s = .ok s') : ∀ k ∈ s.reverted, k ∈ s'.reverted := by
  induction cluster generalizing s with
  | nil =>
    simp only [List.foldlM_nil, Outcome.pure_eq, Outcome.ok.injEq] at h
    rw [← h]; exact fun _ h => h
  | cons kv rest ih =>
    rw [List.foldlM_cons, Outcome.bind_eq_ok] at h
    obtain ⟨t, h1, h2⟩ := h
    exact fun k hk => ih h2 k (observeStep_reverted h1 k hk)

/-- what holds for the observations added in every state of the loop holds for all -/
theorem observe_all {env : Env K} {o : ObsOptions K} {xc : XCorr.Cache} {prev cur0 : Catalog K}
    (hc : cur0.Sound) (hcn : NoAt cur0)
    (hp : prev.Sound) (hpn : NoAt prev) (hps : isEmpty prev = true ∨ ∀ s, prev.stations.find? s = cur0.stations.find? s)
    {cluster : Cluster} (hg : GoodCluster cluster)
    (hfit : 28 * (cluster.map (·.2.phases.length)).sum ≤ IdToIndex.uintMod)
    {Q : ObsArg K → Prop} {s : ObserveState K}
    (hQ : ∀ done t, ObserveInv env o.keepNeighboursFixed prev cur0 done t → (∀ k ∈ t.reverted, k ∈ s.reverted) → ∀ nb ops0 ops b,
      addObservations env o t.cur xc nb ops0 = .ok (ops, b) → ∀ x ∈ obsOf ops, x ∈ obsOf ops0 ∨ Q x)
    (h : observe env o xc cluster prev cur0 = .ok s) : ∀ x ∈ obsOf s.ops, Q x := by
  unfold observe at h
  suffices H : ∀ (rest done : Cluster) (t : ObserveState K), done ++ rest = cluster →
      ObserveInv env o.keepNeighboursFixed prev cur0 done t → (∀ x ∈ obsOf t.ops, Q x) →
      rest.foldlM (observeStep env o xc prev) t = .ok s → ∀ x ∈ obsOf s.ops, Q x by
    refine H cluster [] _ rfl ?_ ?_ h
    · exact ⟨hc, hcn, ⟨fun _ => rfl, fun _ _ => rfl, fun _ _ => rfl⟩, by simp, by simp, by simp, by simp, by simp,
        by simp [NoSeparator, obsOf, parOf], by simp [parOf], by simp [parOf]⟩
    · simp [obsOf]
  intro rest
  induction rest with
  | nil =>
    intro done t hd hi ho h
    simp only [List.foldlM_nil, Outcome.pure_eq, Outcome.ok.injEq] at h
    rw [← h]; exact ho
  | cons kv rest ih =>
    intro done t hd hi ho h
    rw [List.foldlM_cons, Outcome.bind_eq_ok] at h
    obtain ⟨t', h1, h2⟩ := h
    have hmem : kv ∈ cluster := by rw [← hd]; simp
    have hkey := hg.key kv hmem
    have hnodup := hg.nodup
    rw [← hd] at hnodup hfit
    simp only [List.map_append, List.map_cons, List.sum_append, List.sum_cons] at hnodup hfit
    have hi' : ObserveInv env o.keepNeighboursFixed prev cur0 (done ++ [kv]) t' := by
      refine observeStep_inv hp hpn hps hkey ?_ ?_ hi h1
      · intro hc
        exact (List.nodup_append.1 hnodup).2.2 _ hc _ (by simp) rfl
      · simp only [List.map_append, List.map_cons, List.map_nil, List.sum_append, List.sum_cons, List.sum_nil]
        omega
    refine ih (done ++ [kv]) t' (by simpa using hd) hi' ?_ h2
    have hsub' := observe_reverted h2
    have hsub : ∀ k ∈ t.reverted, k ∈ s.reverted := fun k hk => hsub' k (observeStep_reverted h1 k hk)
    unfold observeStep at h1
    rw [Outcome.bind_eq_ok] at h1
    obtain ⟨⟨ops, b⟩, g1, g⟩ := h1
    simp only at g
    have hadd : ∀ x ∈ obsOf ops, Q x := by
      intro x hx
      rcases hQ _ _ hi hsub _ _ _ _ g1 x hx with hx | hx
      · exact ho x hx
      · exact hx
    by_cases hb : (b || isEmpty prev) = true
    · rw [if_pos hb] at g
      simp only [Outcome.ok.injEq] at g
      rw [← g]; exact hadd
    · rw [if_neg hb] at g
      rw [Outcome.bind_eq_ok] at g
      obtain ⟨ev, g2, g⟩ := g
      by_cases hr : ev.isRelocated = true
      · rw [if_pos hr] at g
        cases hx : (t.cur.removeEvent kv.1).addFrom kv.1 prev true with
        | mk c r =>
          rw [hx] at g
          cases r with
          | throws => simp at g
          | ub => simp at g
          | ok u =>
            simp only at g
            rw [Outcome.bind_eq_ok] at g
            obtain ⟨⟨ops2, b2⟩, g3, g4⟩ := g
            simp only [Outcome.ok.injEq] at g4
            subst g4
            intro x hx
            rcases hQ _ _ hi' hsub' _ _ _ _ g3 x hx with hx | hx
            · exact hadd x hx
            · exact hx
      · rw [if_neg hr] at g
        simp only [Outcome.ok.injEq] at g
        rw [← g]; exact hadd

end Verif.Relocate

namespace Verif.FittedData
open Verif.Catalog Verif.Relocate Verif.Solver Verif.Iteration

/-- the events are where they are in `cat` -/
def Stays (cat c : Catalog ℝ) : Prop := ∀ k, (c.events.find? k).map hypocentre = (cat.events.find? k).map hypocentre

/-- the observation is the difference of two picks of `cat` -/
def FromPicks (cat : Catalog ℝ) (x : ObsArg ℝ) : Prop :=
  ∃ e1 e2 p1 p2, cat.events.find? x.e1 = some e1 ∧ cat.events.find? x.e2 = some e2 ∧ p1 ∈ cat.phasesOf x.e1 ∧
    p2 ∈ cat.phasesOf x.e2 ∧ x.sta = p1.stationId.toList ∧ x.phase = p1.type.toList ∧ x.sta = p2.stationId.toList ∧
    x.phase = p2.type.toList ∧ x.timeDiff = travelTime e1 p1 - travelTime e2 p2

theorem hypocentre_of_place {x y : Option (Event ℝ)} (h : x.map place = y.map place) : x.map hypocentre = y.map hypocentre := by
  cases x <;> cases y <;> simp [place, hypocentre] at h ⊢
  tauto

theorem Stays.event {cat c : Catalog ℝ} (h : Stays cat c) {k : Nat} {e : Event ℝ} (he : c.events.find? k = some e) :
    ∃ e0, cat.events.find? k = some e0 ∧ hypocentre e = hypocentre e0 := by
  have := h k
  rw [he] at this
  cases h0 : cat.events.find? k with
  | none => rw [h0] at this; cases this
  | some e0 => rw [h0] at this; exact ⟨e0, rfl, by simpa using this⟩

theorem pick_of {c cat : Catalog ℝ} {k : Nat} (h : (c.phasesOf k).map pick0 = (cat.phasesOf k).map pick0) {p : Phase ℝ}
    (hp : p ∈ c.phasesOf k) : ∃ p0 ∈ cat.phasesOf k, p0.time = p.time ∧ p0.stationId = p.stationId ∧ p0.type = p.type ∧
      p0.procType = p.procType := by
  have : pick0 p ∈ (cat.phasesOf k).map pick0 := by rw [← h]; exact List.mem_map_of_mem hp
  obtain ⟨p0, h1, h2⟩ := List.mem_map.1 this
  refine ⟨p0, h1, ?_, ?_, ?_, ?_⟩
  · have := congrArg Phase.time h2; simpa [pick0] using this
  · have := congrArg Phase.stationId h2; simpa [pick0] using this
  · have := congrArg Phase.type h2; simpa [pick0] using this
  · have := congrArg Phase.procType h2; simpa [pick0] using this

theorem travelTime_same {e e0 : Event ℝ} {p p0 : Phase ℝ} (h : hypocentre e = hypocentre e0) (hp : p0.time = p.time) :
    travelTime e p = travelTime e0 p0 := by
  have ht : e.time = e0.time := by
    have := h; simp only [hypocentre, Prod.mk.injEq] at this; exact this.2.2.2
  unfold travelTime
  rw [ht, hp]

/-- parameters at a state of the relocation -/
theorem parameters_fit {env : Env ℝ} (hby : ByHypocentre env) {cat c : Catalog ℝ} (hfit : PicksFit env cat)
    {cluster : Cluster} (hr : Rel cluster cat c) (hst : Stays cat c) {q : ParArg ℝ} (h : ParametersAt env c q) :
    q.ttRes = 0 ∧ ∃ ev p, cat.events.find? q.ev = some ev ∧ p ∈ cat.phasesOf q.ev ∧ q.sta = p.stationId.toList ∧
      q.phase = p.type.toList ∧ q.tt = travelTime ev p := by
  obtain ⟨ev, p, st, name, tt, h1, h2, h3, h4, h5, h6, h7, h8, h9, -⟩ := h
  obtain ⟨ev0, g1, g2⟩ := hst.event h1
  obtain ⟨p0, k1, k2, k3, k4, k5⟩ := pick_of (hr.picks q.ev) h2
  have hname : name = tableName env p0 := by rw [h6]; unfold tableName; rw [k4, k5]
  have hs : cat.stations.find? p0.stationId = some st := by rw [k3, ← hr.stations]; exact h3
  rw [hname, hby ev ev0 st _ g2] at h7
  have hf := hfit q.ev ev0 p0 st tt g1 k1 hs h7
  rw [travelTime_same g2 k2] at h9
  refine ⟨by rw [h9, hf, sub_self], ev0, p0, g1, k1, by rw [k3]; exact h4, by rw [k4]; exact h5, by rw [h8, hf]⟩

theorem added_fit {env : Env ℝ} {o : ObsOptions ℝ} {cat c : Catalog ℝ} (hsd : c.Sound)
    (hpk : ∀ k, (c.phasesOf k).map pick0 = (cat.phasesOf k).map pick0) (hst : Stays cat c) {xc : XCorr.Cache} (hlag : NoLag xc) {nb : Neighbours}
    {ops0 ops : List (SolverOp ℝ)} {b : Bool} (h : addObservations env o c xc nb ops0 = .ok (ops, b)) :
    ∀ x ∈ obsOf ops, x ∈ obsOf ops0 ∨ FromPicks cat x := by
  have hw := hsd.toWF
  obtain ⟨refEv, s, h1, h2, h3, hi⟩ := addObservations_inv hw h
  obtain ⟨new, hnew, hgood⟩ := hi.new
  intro x hx
  rw [← h2, hnew, obsOf_append, List.mem_append] at hx
  rcases hx with hx | hx
  · exact .inl hx
  · right
    unfold obsOf at hx
    rw [List.mem_filterMap] at hx
    obtain ⟨op, hop, hx⟩ := hx
    cases op with
    | obs x' =>
      simp only [Option.some.injEq] at hx
      subst hx
      obtain ⟨sp, n, ev, rp, p, mc, g1, g2, g3, g4, g5, g6, g7, rfl⟩ := hgood _ hop
      obtain ⟨i1, i2, i3, i4⟩ := observation_ids o xc mc refEv ev sp rp p
      have hid1 := (hw.eventKey _ _ h1).1
      have hid2 := (hw.eventKey _ _ g2).1
      obtain ⟨f1, f2, f3⟩ := hst.event h1
      obtain ⟨d1, d2, d3⟩ := hst.event g2
      obtain ⟨m1, m2, m3⟩ := g3
      obtain ⟨n1, n2, n3⟩ := g4
      obtain ⟨r0, r1, r2, r3, r4, -⟩ := pick_of (hpk _) m1
      obtain ⟨q0, q1, q2, q3, q4, -⟩ := pick_of (hpk _) n1
      refine ⟨f1, d1, r0, q0, by rw [i1, hid1]; exact f2, by rw [i2, hid2]; exact d2, by rw [i1]; exact r1, by rw [i2]; exact q1,
        by rw [i3, r3, m2], by rw [i4, r4, m3], by rw [i3, q3, n2], by rw [i4, q4, n3], ?_⟩
      rw [← travelTime_same f3 r2, ← travelTime_same d3 q2]
      have hdiff : (durToSec ((rp.time - refEv.time) - (p.time - ev.time)) : ℝ) = travelTime refEv rp - travelTime ev p := by
        unfold durToSec travelTime
        push_cast
        ring
      unfold observation
      simp only
      cases he : xcorrEntry xc refEv.id ev.id sp with
      | none => exact hdiff
      | some e =>
        have hz : e.lag = 0 := by
          unfold xcorrEntry at he
          split at he
          · cases he
          · rw [Option.bind_eq_some_iff] at he
            obtain ⟨e', h1, h2⟩ := he
            split at h2
            · rename_i hv
              cases h2
              exact hlag _ _ _ _ _ h1 hv
            · cases h2
        simp only
        split
        · simp only [hz, Rat.cast_zero, sub_zero]; exact hdiff
        · exact hdiff
    | event => simp at hx
    | station => simp at hx
    | params => simp at hx

theorem Stays.refl (cat : Catalog ℝ) : Stays cat cat := fun _ => rfl

theorem ObserveInv_stays {env : Env ℝ} {fixed : Bool} {cat prev cur0 : Catalog ℝ} {done : Cluster} {t : ObserveState ℝ}
    (h : ObserveInv env fixed prev cur0 done t) (hc : Stays cat cur0) (hp : prev = Catalog.init ∨ Stays cat prev) : Stays cat t.cur := by
  intro k
  by_cases hk : k ∈ t.reverted
  · obtain ⟨h1, h2, h3⟩ := h.restored k hk
    rw [h1]
    rcases hp with rfl | hp
    · simp [Catalog.init] at h2
    · exact hp k
  · rw [h.keep.events k hk]; exact hc k

/-- the sub-cluster that was visited does not matter for what is kept -/
theorem ObserveInv_rel {env : Env ℝ} {fixed : Bool} {cat prev cur0 : Catalog ℝ} {cluster done : Cluster} {t : ObserveState ℝ}
    (h : ObserveInv env fixed prev cur0 done t) (hc : Rel cluster cat cur0) (hp : prev = Catalog.init ∨ Rel cluster cat prev) :
    t.cur.Sound ∧ (∀ s, t.cur.stations.find? s = cat.stations.find? s) ∧
      ∀ k, (t.cur.phasesOf k).map pick0 = (cat.phasesOf k).map pick0 := by
  refine ⟨h.sound, fun x => (h.keep.stations x).trans (hc.stations x), fun k => ?_⟩
  by_cases hk : k ∈ t.reverted
  · obtain ⟨h1, h2, h3⟩ := h.restored k hk
    rw [h3]
    rcases hp with rfl | hp
    · simp [Catalog.init] at h2
    · exact hp.picks k
  · rw [h.keep.phases k hk]; exact hc.picks k

end Verif.FittedData
