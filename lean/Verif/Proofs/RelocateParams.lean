import Verif.Proofs.RelocateRun

/-! Helper lemmas for C61, C70 and C83: the parameters given to the solver in an iteration. -/

set_option linter.unusedSectionVars false
set_option linter.unusedSimpArgs false

namespace Verif.Relocate
open Verif.Catalog Verif.Solver

variable {K : Type} [Field K] [LinearOrder K]

theorem find?_congr_mem {α : Type} {p q : α → Bool} {l : List α} (h : ∀ x ∈ l, p x = q x) : l.find? p = l.find? q := by
  induction l with
  | nil => rfl
  | cons x l ih =>
    rw [List.find?_cons, List.find?_cons, h x (by simp), ih (fun y hy => h y (List.mem_cons_of_mem _ hy))]

theorem not_mem_of_fwd {T : Type} [DecidableEq T] {ids : List T} {x : T}
    (hb : ids.length ≤ IdToIndex.uintMod) (h : (IdToIndex.run ids).fwd.find? x = none) : x ∉ ids := by
  have hb' := card_le_of_length hb
  have h2 := (IdToIndex.inv_run ids hb').fwd x
  intro hx
  rw [if_pos ((IdToIndex.mem_firstUses _ _).2 hx), h] at h2
  cases h2

/-- what the solver answers is what it was given first -/
theorem getParams_eq {ops : List (SolverOp K)} (hb : Fits ops) (hs : NoSeparator ops) (id : Nat)
    (sta : String) {ph : String} (hph : '@' ∉ ph.toList) :
    getObservationParams (Solver.run ops) id sta ph = (paramsOf ops id sta.toList ph.toList).map toPar := by
  have inv := inv_run ops hb
  have hnone : (∀ q ∈ parOf ops, ¬ ParArg.triple q = (id, sta.toList, ph.toList)) →
      paramsOf ops id sta.toList ph.toList = none := by
    intro h
    unfold paramsOf
    rw [List.find?_eq_none]
    intro q hq
    simpa using h q hq
  unfold getObservationParams
  cases h1 : (Solver.run ops).evConv.fwd.find? id with
  | none =>
    rw [inv.evConv] at h1
    have hn := not_mem_of_fwd hb.ev h1
    rw [hnone]
    · simp
    · intro q hq he
      have : q.ev = id := by simpa [ParArg.triple] using congrArg Prod.fst he
      exact hn (this ▸ (mem_evIds_par hq).1)
  | some i =>
    cases h2 : (Solver.run ops).phStaConv.fwd.find? (phStaKey ph.toList sta.toList) with
    | none =>
      rw [inv.phConv] at h2
      have hn := not_mem_of_fwd hb.ph h2
      rw [hnone]
      · simp
      · intro q hq he
        simp only [ParArg.triple, Prod.mk.injEq] at he
        apply hn
        rw [← he.2.1, ← he.2.2]
        exact (mem_evIds_par hq).2
    | some j =>
      simp only
      rw [inv.evConv] at h1
      rw [inv.phConv] at h2
      obtain ⟨m1, rfl⟩ := mem_of_fwd hb.ev h1
      obtain ⟨m2, rfl⟩ := mem_of_fwd hb.ph h2
      rw [inv.par]
      unfold paramsOf
      congr 1
      apply find?_congr_mem
      intro q hq
      obtain ⟨a1, a2⟩ := mem_evIds_par hq
      rw [decide_eq_decide]
      simp only [ParArg.triple, Prod.mk.injEq]
      constructor
      · rintro ⟨e1, e2⟩
        have := (phStaKey_inj (hs.2 q hq) hph).1 (ix_inj a2 m2 e2)
        exact ⟨ix_inj a1 m1 e1, this.2, this.1⟩
      · rintro ⟨e1, e2, e3⟩
        rw [e1]
        refine ⟨rfl, ?_⟩
        unfold phKeyP
        rw [e2, e3]

/-! ## Observations have parameters -/

/-- parameters for the event, station and phase were given -/
def Has (ops : List (SolverOp K)) (id : Nat) (sta ph : List Char) : Prop :=
  ∃ q ∈ parOf ops, ParArg.triple q = (id, sta, ph)

theorem Has.mono {a b : List (SolverOp K)} {id : Nat} {sta ph : List Char} (h : Has a id sta ph) : Has (a ++ b) id sta ph := by
  obtain ⟨q, h1, h2⟩ := h
  exact ⟨q, by rw [parOf_append]; exact List.mem_append_left _ h1, h2⟩

/-- parameters come with their event -/
def Paired (ops : List (SolverOp K)) : Prop := ∀ q ∈ parOf ops, q.ev ∈ eventsOf ops

theorem eventsOf_append (a b : List (SolverOp K)) : eventsOf (a ++ b) = eventsOf a ++ eventsOf b := by
  simp [eventsOf, List.filterMap_append]

theorem complete_more {a b : List (SolverOp K)} (h : Complete a) (hb : obsOf b = []) : Complete (a ++ b) := by
  intro o ho
  rw [obsOf_append, hb, List.append_nil] at ho
  obtain ⟨h1, h2, h3, h4⟩ := h o ho
  refine ⟨by rw [eventsOf_append]; exact List.mem_append_left _ h1, by rw [eventsOf_append]; exact List.mem_append_left _ h2, ?_, ?_⟩
  · exact Has.mono h3
  · exact Has.mono h4

theorem addParams_has {env : Env K} {ops : List (SolverOp K)} (hf : Fits ops) (hs : NoSeparator ops) {ev : Event K}
    {st : Station K} {p : Phase K} (hp : '@' ∉ p.type.toList) {free : Bool} (hpa : Paired ops) :
    ∃ new, (addParams env ops ev st p free).1 = ops ++ new ∧ obsOf new = [] ∧ Paired (ops ++ new) ∧
      ((addParams env ops ev st p free).2 = true → Has (ops ++ new) ev.id st.id.toList p.type.toList) := by
  rcases addParams_cases env ops ev st p free with ⟨i, h1, h2⟩ | ⟨h1, h2⟩ | ⟨h0, h1, h2⟩
  · rw [h2]
    refine ⟨_, rfl, by simp [paramCalls, obsOf], ?_, fun _ => ?_⟩
    · intro q hq
      rw [parOf_append, List.mem_append] at hq
      rw [eventsOf_append, List.mem_append]
      rcases hq with hq | hq
      · exact Or.inl (hpa q hq)
      · right
        simp [parOf, paramCalls] at hq
        subst hq
        simp [eventsOf, paramCalls]
    · exact ⟨_, by rw [parOf_append]; exact List.mem_append_right _ (by simp [parOf, paramCalls]; rfl), rfl⟩
  · rw [h2]
    refine ⟨[], by simp, rfl, by simpa using hpa, fun _ => ?_⟩
    obtain ⟨q, q1, q2, q3, q4⟩ := params_given hf hs hp h1
    exact ⟨q, by simpa using q1, by simp [ParArg.triple, q2, q3, q4]⟩
  · rw [h2]
    exact ⟨[], by simp, rfl, by simpa using hpa, by simp⟩

/-- Invariant of the loop of `addObservations`, second part. -/
structure CompInv (refEv : Event K) (s : ObsState K) : Prop where
  complete : Complete s.ops
  paired : Paired s.ops
  sep : NoSeparator s.ops
  ref : ∀ rp, s.refPhase = some rp → s.tttError = false → Has s.ops refEv.id rp.stationId.toList rp.type.toList

theorem obsStep_comp {env : Env K} {o : ObsOptions K} {cat : Catalog K} (hw : cat.WF) (hna : NoAt cat) {xc : XCorr.Cache}
    {nb : Neighbours} {refEv : Event K} (hev : cat.events.find? nb.refId = some refEv)
    {ops0 : List (SolverOp K)} (h0 : NoSeparator ops0) {done : List (StaPhase × Nat)} {t : StaPhase × Nat} (ht : t ∈ nb.phases)
    {s s' : ObsState K} (hi : ObsInv env o cat xc nb refEv ops0 done s)
    (hfit : 2 * (ops0.length + 7 * (done.length + 1)) ≤ IdToIndex.uintMod)
    (hc : CompInv refEv s) (h : obsStep env o cat xc refEv s t = .ok s') : CompInv refEv s' := by
  have hi2 := obsStep_inv hw hev ht hi h
  have hsep' : NoSeparator s'.ops := by
    obtain ⟨new, e, g⟩ := hi2.new
    rw [e]; exact goodOp_noAt hna h0 g
  have hlen' := hi2.len
  rw [List.length_append, List.length_singleton] at hlen'
  unfold obsStep at h
  rw [Outcome.bind_eq_ok] at h
  obtain ⟨st, h1, h⟩ := h
  rw [Outcome.bind_eq_ok] at h
  obtain ⟨⟨s1, rp⟩, h2, h3⟩ := h
  simp only at h3
  obtain ⟨hst, hid⟩ := currentStation_ok hw hi.station h1
  have hi' : ObsInv env o cat xc nb refEv ops0 done { s with station := some st } := by
    refine ⟨?_, hi.ref, hi.error, hi.new, hi.len, hi.attempted, hi.none, hi.failed, hi.succeeded, hi.complete⟩
    intro st' hst'
    simp only [Option.some.injEq] at hst'
    subst hst'
    rw [hid]; exact hst
  have hr := refStep_inv hev hst hid hi' h2
  -- after the reference phase
  have hc1 : CompInv refEv s1 := by
    have hsep1 : NoSeparator s1.ops := by
      obtain ⟨new2, e2, _⟩ := (neighStep_inv hst ht hr.refPhase hr.pick h3).new
      exact NoSeparator.prefix hsep' ⟨new2, e2.symm⟩
    unfold refStep at h2
    split at h2
    · simp only [Outcome.ok.injEq, Prod.mk.injEq] at h2
      obtain ⟨rfl, rfl⟩ := h2
      exact ⟨hc.complete, hc.paired, hc.sep, hc.ref⟩
    · split at h2
      · cases h2
      · rename_i p hp
        simp only [Outcome.ok.injEq, Prod.mk.injEq] at h2
        obtain ⟨hs1, rfl⟩ := h2
        have hpk := searchPhase_pick hp
        have hpna : '@' ∉ p.type.toList := hna _ _ hpk.1
        have hfits : Fits s.ops := by have := hi.len; unfold Fits; omega
        obtain ⟨new, n1, n2, n3, n4⟩ := addParams_has (env := env) (ev := refEv) (st := st) (free := true)
          hfits hc.sep hpna hc.paired
        have e1 : s1.ops = s.ops ++ new := by rw [← hs1]; exact n1
        have e2 : s1.refPhase = some p := by rw [← hs1]
        have e3 : s1.tttError = !(addParams env s.ops refEv st p true).2 := by rw [← hs1]
        refine ⟨by rw [e1]; exact complete_more hc.complete n2, by rw [e1]; exact n3, hsep1, ?_⟩
        intro rp' hrp' he
        rw [e2] at hrp'
        simp only [Option.some.injEq] at hrp'
        subst hrp'
        rw [e3] at he
        have := n4 (by simpa using he)
        rw [e1, hpk.2.1, ← hid]; exact this
  have hfits1 : Fits s1.ops := by
    obtain ⟨new2, e2, _⟩ := (neighStep_inv hst ht hr.refPhase hr.pick h3).new
    have : s1.ops.length ≤ s'.ops.length := by rw [e2]; simp
    unfold Fits; omega
  unfold neighStep at h3
  by_cases he : s1.tttError = true
  · rw [if_pos he] at h3
    simp only [Outcome.ok.injEq] at h3
    subst h3
    exact hc1
  · rw [if_neg he] at h3
    have he' : s1.tttError = false := by simpa using he
    cases hm : o.minCoef rp.procType with
    | none => rw [hm] at h3; simp at h3
    | some mc =>
      cases hnev : cat.events.find? t.2 with
      | none => rw [hm, hnev] at h3; simp at h3
      | some ev =>
        rw [hm, hnev] at h3
        simp only at h3
        cases hp : searchPhase cat ev.id t.1 with
        | none => rw [hp] at h3; simp at h3
        | some p =>
          rw [hp] at h3
          simp only at h3
          have hpk := searchPhase_pick hp
          obtain ⟨new, n1, n2, n3, n4⟩ := addParams_has (env := env) (ev := ev) (st := st)
            (free := !o.keepNeighboursFixed) hfits1 hc1.sep (hna _ _ hpk.1) hc1.paired
          rw [n1] at h3
          have hplain : s' = { s1 with ops := s1.ops ++ new } → CompInv refEv s' := by
            intro hs
            subst hs
            exact ⟨complete_more hc1.complete n2, n3, hsep', fun rp' a b => (hc1.ref rp' a b).mono⟩
          by_cases hr2 : (addParams env s1.ops ev st p (!o.keepNeighboursFixed)).2 = false
          · rw [if_pos hr2] at h3
            simp only [Outcome.ok.injEq] at h3
            exact hplain h3.symm
          · rw [if_neg hr2] at h3
            by_cases hneg : rp.time - refEv.time < 0
            · rw [if_pos hneg] at h3
              simp only [Outcome.ok.injEq] at h3
              exact hplain h3.symm
            · rw [if_neg hneg] at h3
              by_cases hneg' : p.time - ev.time < 0
              · rw [if_pos hneg'] at h3
                simp only [Outcome.ok.injEq] at h3
                exact hplain h3.symm
              · rw [if_neg hneg'] at h3
                simp only [Outcome.ok.injEq] at h3
                obtain ⟨i1, i2, i3, i4⟩ := observation_ids o xc mc refEv ev t.1 rp p
                have eops : s'.ops = (s1.ops ++ new) ++ [.obs (observation o xc mc refEv ev t.1 rp p)] := by rw [← h3]
                have epar : parOf s'.ops = parOf (s1.ops ++ new) := by rw [eops, parOf_append]; simp [parOf]
                have eev : eventsOf s'.ops = eventsOf (s1.ops ++ new) := by rw [eops, eventsOf_append]; simp [eventsOf]
                have k1 := (hc1.ref rp hr.refPhase he').mono (b := new)
                have k2 := n4 (by simpa using hr2)
                rw [hr.pick.2.1, hr.pick.2.2] at k1
                rw [hid, hpk.2.2] at k2
                refine ⟨?_, ?_, hsep', ?_⟩
                · intro x hx
                  rw [eops, obsOf_append, List.mem_append] at hx
                  rw [eev, epar]
                  rcases hx with hx | hx
                  · exact complete_more hc1.complete n2 x hx
                  · simp [obsOf] at hx
                    subst hx
                    rw [i1, i2, i3, i4]
                    obtain ⟨q1, a1, b1⟩ := k1
                    obtain ⟨q2, a2, b2⟩ := k2
                    have f1 := n3 q1 a1
                    have f2 := n3 q2 a2
                    have g1 : q1.ev = refEv.id := congrArg Prod.fst b1
                    have g2 : q2.ev = ev.id := congrArg Prod.fst b2
                    exact ⟨g1 ▸ f1, g2 ▸ f2, ⟨q1, a1, b1⟩, ⟨q2, a2, b2⟩⟩
                · intro q hq
                  rw [epar] at hq
                  rw [eev]; exact n3 q hq
                · intro rp' a b
                  rw [eops]
                  exact ((hc1.ref rp' (by rw [← a, ← h3]) he').mono).mono

/-- Every observation added has parameters, if that was so before. -/
theorem addObservations_complete {env : Env K} {o : ObsOptions K} {cat : Catalog K} (hw : cat.WF) (hna : NoAt cat)
    {xc : XCorr.Cache} {nb : Neighbours} {ops0 ops : List (SolverOp K)} {b : Bool}
    (hfit : 2 * (ops0.length + 7 * nb.phases.length) ≤ IdToIndex.uintMod) (h0 : NoSeparator ops0)
    (hc : Complete ops0) (hpa : Paired ops0)
    (h : addObservations env o cat xc nb ops0 = .ok (ops, b)) : Complete ops ∧ Paired ops := by
  unfold addObservations at h
  rw [Outcome.bind_eq_ok] at h
  obtain ⟨refEv, h1, h⟩ := h
  rw [Outcome.bind_eq_ok] at h
  obtain ⟨s, h2, h3⟩ := h
  rw [Outcome.ofOption_eq_ok] at h1
  simp only [Outcome.ok.injEq, Prod.mk.injEq] at h3
  have hl : (nb.phases.insertionSort tupleLe).length = nb.phases.length := List.length_insertionSort ..
  suffices H : ∀ (rest done : List (StaPhase × Nat)) (t : ObsState K), done ++ rest = nb.phases.insertionSort tupleLe →
      ObsInv env o cat xc nb refEv ops0 done t → CompInv refEv t →
      rest.foldlM (obsStep env o cat xc refEv) t = .ok s → CompInv refEv s by
    have := H _ [] _ (by simp) ?_ ?_ h2
    · rw [← h3.1]; exact ⟨this.complete, this.paired⟩
    · refine ⟨by simp, by simp, by simp, ⟨[], by simp, by simp⟩, by simp, by simp, by simp, by simp, by simp, by simp⟩
    · exact ⟨hc, hpa, h0, by simp⟩
  intro rest
  induction rest with
  | nil =>
    intro done t _ _ hci h
    simp only [List.foldlM_nil, Outcome.pure_eq, Outcome.ok.injEq] at h
    rw [← h]; exact hci
  | cons x rest ih =>
    intro done t hd hi hci h
    rw [List.foldlM_cons, Outcome.bind_eq_ok] at h
    obtain ⟨t', g1, g2⟩ := h
    have hx : x ∈ nb.phases := by
      rw [← List.mem_insertionSort tupleLe, ← hd]; simp
    have hdl : done.length + 1 ≤ nb.phases.length := by
      rw [← hl, ← hd]; simp
    exact ih (done ++ [x]) t' (by simpa using hd) (obsStep_inv hw h1 hx hi g1)
      (obsStep_comp hw hna h1 h0 hx hi (by omega) hci g1) g2

/-! ## Over the cluster -/

/-- The parameters `q` are those of a pick of event `q.ev` as it is in the catalog `c`. -/
def GivenAt (env : Env K) (c : Catalog K) (q : ParArg K) : Prop :=
  ∃ ev p st i, c.events.find? q.ev = some ev ∧ p ∈ c.phasesOf q.ev ∧ c.stations.find? p.stationId = some st ∧
    q.sta = p.stationId.toList ∧ q.phase = p.type.toList ∧ env.ttt ev st (phaseName env p) = some i ∧
    SolverOp.params q ∈ paramCalls env ev st p q.free i

theorem paramsOf_givenAt {env : Env K} {cat : Catalog K} (hc : cat.WF) {key : Nat} {ev : Event K}
    {free : Bool} {q : ParArg K} (h : ParamsOf env cat key ev free q) : GivenAt env cat q := by
  obtain ⟨h0, sp, p, st, i, h1, h2, h3, h4⟩ := h
  have h4' := h4
  simp [paramCalls] at h4
  have hid := (hc.eventKey _ _ h0).1
  have hsid := (hc.stationKey _ _ h2).1
  have hf : q.free = free := by rw [h4]
  refine ⟨ev, p, st, i, ?_, ?_, h2, ?_, ?_, h3, by rw [hf]; exact h4'⟩
  · rw [h4]; simp only [hid, h0]
  · rw [h4]; exact h1.1
  · rw [h4]; simp only [hsid]
  · rw [h4]

theorem goodOp_givenAt {env : Env K} {o : ObsOptions K} {cat : Catalog K} (hc : cat.WF)
    {xc : XCorr.Cache} {nb : Neighbours} {refEv : Event K} {new : List (SolverOp K)}
    (hg : ∀ op ∈ new, GoodOp env o cat xc nb refEv op) : ∀ q ∈ parOf new, GivenAt env cat q := by
  intro q hx
  unfold parOf at hx
  rw [List.mem_filterMap] at hx
  obtain ⟨op, hop, hx⟩ := hx
  cases op <;> simp at hx
  subst hx
  rcases hg _ hop with h | ⟨_, _, _, h⟩
  · exact paramsOf_givenAt hc h
  · exact paramsOf_givenAt hc h

theorem GivenAt.congr {env : Env K} {c c' : Catalog K} {q : ParArg K}
    (hs : ∀ s, c'.stations.find? s = c.stations.find? s) (he : c'.events.find? q.ev = c.events.find? q.ev)
    (hp : c'.phasesOf q.ev = c.phasesOf q.ev) (h : GivenAt env c' q) : GivenAt env c q := by
  obtain ⟨ev, p, st, i, h1, h2, h3, h4⟩ := h
  exact ⟨ev, p, st, i, he ▸ h1, hp ▸ h2, hs _ ▸ h3, h4⟩

/-- at the position of before the iteration, or, for a restored event, of the iteration before -/
def GivenIn (env : Env K) (prev cur0 : Catalog K) (reverted : List Nat) (q : ParArg K) : Prop :=
  GivenAt env cur0 q ∨ (q.ev ∈ reverted ∧ GivenAt env prev q)

theorem givenIn_of_cur {env : Env K} {fixed : Bool} {prev cur0 : Catalog K} {done : Cluster} {s : ObserveState K}
    (hps : isEmpty prev = true ∨ ∀ s, prev.stations.find? s = cur0.stations.find? s)
    (hi : ObserveInv env fixed prev cur0 done s) {q : ParArg K} (h : GivenAt env s.cur q) :
    GivenIn env prev cur0 s.reverted q := by
  by_cases hr : q.ev ∈ s.reverted
  · obtain ⟨r1, r2, r3⟩ := hi.restored _ hr
    have hps' : ∀ x, prev.stations.find? x = cur0.stations.find? x := by
      rcases hps with hps | hps
      · exfalso
        unfold isEmpty at hps
        simp only [Bool.and_eq_true, List.isEmpty_iff] at hps
        rw [hps.1.2] at r2
        simp at r2
      · exact hps
    exact Or.inr ⟨hr, h.congr (fun x => by rw [hi.keep.stations, hps']) r1 r3⟩
  · exact Or.inl (h.congr hi.keep.stations (hi.keep.events _ hr) (hi.keep.phases _ hr))

/-- what the loop over the cluster gives to the solver -/
structure OpsInv (env : Env K) (prev cur0 : Catalog K) (s : ObserveState K) : Prop where
  complete : Complete s.ops
  paired : Paired s.ops
  given : ∀ q ∈ parOf s.ops, GivenIn env prev cur0 s.reverted q

theorem observe_ops {env : Env K} {o : ObsOptions K} {xc : XCorr.Cache} {prev cur0 : Catalog K}
    (hc : cur0.Sound) (hcn : NoAt cur0)
    (hp : prev.Sound) (hpn : NoAt prev) (hps : isEmpty prev = true ∨ ∀ s, prev.stations.find? s = cur0.stations.find? s)
    {cluster : Cluster} (hg : GoodCluster cluster)
    (hfit : 28 * (cluster.map (·.2.phases.length)).sum ≤ IdToIndex.uintMod)
    {s : ObserveState K} (h : observe env o xc cluster prev cur0 = .ok s) :
    OpsInv env prev cur0 s := by
  unfold observe at h
  suffices H : ∀ (rest done : Cluster) (t : ObserveState K), done ++ rest = cluster →
      ObserveInv env o.keepNeighboursFixed prev cur0 done t → OpsInv env prev cur0 t →
      rest.foldlM (observeStep env o xc prev) t = .ok s → OpsInv env prev cur0 s by
    refine H cluster [] _ rfl ?_ ?_ h
    · exact ⟨hc, hcn, ⟨fun _ => rfl, fun _ _ => rfl, fun _ _ => rfl⟩, by simp, by simp, by simp, by simp, by simp,
        by simp [NoSeparator, obsOf, parOf], by simp [parOf], by simp [parOf]⟩
    · exact ⟨by simp [Complete, obsOf], by simp [Paired, parOf], by simp [parOf]⟩
  intro rest
  induction rest with
  | nil =>
    intro done t hd hi ho h
    simp only [List.foldlM_nil, Outcome.pure_eq, Outcome.ok.injEq] at h
    rw [← h]; exact ho
  | cons kv rest ih =>
    intro done t hd hi ho h
    rw [List.foldlM_cons, Outcome.bind_eq_ok] at h
    obtain ⟨t', h1, h2⟩ := h
    have hnodup := hg.nodup
    rw [← hd] at hnodup hfit
    simp only [List.map_append, List.map_cons, List.sum_append, List.sum_cons] at hnodup hfit
    have hi' : ObserveInv env o.keepNeighboursFixed prev cur0 (done ++ [kv]) t' := by
      refine observeStep_inv hp hpn hps (hg.key kv (by rw [← hd]; simp)) ?_ ?_ hi h1
      · intro hc
        exact (List.nodup_append.1 hnodup).2.2 _ hc _ (by simp) rfl
      · simp only [List.map_append, List.map_cons, List.map_nil, List.sum_append, List.sum_cons, List.sum_nil]
        omega
    refine ih (done ++ [kv]) t' (by simpa using hd) hi' ?_ h2
    have hlen := hi.len
    unfold observeStep at h1
    rw [Outcome.bind_eq_ok] at h1
    obtain ⟨⟨ops, b⟩, g1, g⟩ := h1
    simp only at g
    obtain ⟨refEv, ha⟩ := addObservations_added hi.sound.toWF g1
    obtain ⟨new, hnew, hgood⟩ := ha.new
    obtain ⟨c1, c2⟩ := addObservations_complete hi.sound.toWF hi.noAt (by omega) hi.sep ho.complete ho.paired g1
    have hgiven : ∀ q ∈ parOf ops, GivenIn env prev cur0 t.reverted q := by
      intro q hq
      rw [hnew, parOf_append, List.mem_append] at hq
      rcases hq with hq | hq
      · exact ho.given q hq
      · exact givenIn_of_cur hps hi (goodOp_givenAt hi.sound.toWF hgood q hq)
    have hplain : OpsInv env prev cur0 { t with ops := ops } := ⟨c1, c2, hgiven⟩
    by_cases hb : (b || isEmpty prev) = true
    · rw [if_pos hb] at g
      simp only [Outcome.ok.injEq] at g
      rw [← g]; exact hplain
    · rw [if_neg hb] at g
      rw [Outcome.bind_eq_ok] at g
      obtain ⟨ev, g2, g⟩ := g
      by_cases hr : ev.isRelocated = true
      · rw [if_pos hr] at g
        cases hx : (t.cur.removeEvent kv.1).addFrom kv.1 prev true with
        | mk c r =>
          rw [hx] at g
          cases r with
          | throws => simp at g
          | ub => simp at g
          | ok u =>
            simp only at g
            rw [Outcome.bind_eq_ok] at g
            obtain ⟨⟨ops2, b2⟩, g3, g4⟩ := g
            simp only [Outcome.ok.injEq] at g4
            subst g4
            obtain ⟨refEv', ha'⟩ := addObservations_added hi'.sound.toWF g3
            obtain ⟨new', hnew', hgood'⟩ := ha'.new
            have hsep : NoSeparator ops := NoSeparator.prefix hi'.sep ⟨new', hnew'.symm⟩
            have hl := ha.len
            obtain ⟨d1, d2⟩ := addObservations_complete hi'.sound.toWF hi'.noAt (by omega) hsep c1 c2 g3
            refine ⟨d1, d2, ?_⟩
            intro q hq
            simp only [hnew', parOf_append, List.mem_append] at hq
            rcases hq with hq | hq
            · rcases hgiven q hq with h | ⟨h, h'⟩
              · exact Or.inl h
              · exact Or.inr ⟨List.mem_append_left _ h, h'⟩
            · exact givenIn_of_cur hps hi' (goodOp_givenAt hi'.sound.toWF hgood' q hq)
      · rw [if_neg hr] at g
        simp only [Outcome.ok.injEq] at g
        rw [← g]; exact hplain

end Verif.Relocate
