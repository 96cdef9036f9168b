import Verif.Spec.RelocateTotal
import Verif.Proofs.RelocateParams
import Verif.Proofs.RelocateTop

/-! Helper lemmas for C101: relocations end normally. -/

set_option linter.unusedSectionVars false
set_option linter.unusedSimpArgs false

namespace Verif.Relocate
open Verif.Catalog Verif.Solver

variable {K : Type} [Field K] [LinearOrder K]

theorem foldlM_total {σ β : Type} (f : σ → β → Outcome σ) (P : σ → Prop) (l : List β)
    (h : ∀ x ∈ l, ∀ s, P s → ∃ t, f s x = .ok t ∧ P t) : ∀ s, P s → ∃ t, l.foldlM f s = .ok t ∧ P t := by
  induction l with
  | nil => intro s hs; exact ⟨s, rfl, hs⟩
  | cons y l ih =>
    intro s hs
    obtain ⟨u, hu, hp⟩ := h y (by simp) s hs
    obtain ⟨t, ht, hq⟩ := ih (fun z hz => h z (List.mem_cons_of_mem _ hz)) u hp
    exact ⟨t, by rw [List.foldlM_cons, hu]; exact ht, hq⟩

theorem mapM_total {α β : Type} (f : α → Outcome β) (l : List α) (h : ∀ x ∈ l, ∃ y, f x = .ok y) : ∃ r, l.mapM f = .ok r := by
  induction l with
  | nil => exact ⟨[], rfl⟩
  | cons y l ih =>
    obtain ⟨u, hu⟩ := h y (by simp)
    obtain ⟨t, ht⟩ := ih (fun z hz => h z (List.mem_cons_of_mem _ hz))
    exact ⟨u :: t, by rw [List.mapM_cons, hu, Outcome.bind_ok, ht]; rfl⟩

theorem searchPhase_total {c : Catalog K} {id : Nat} {sp : StaPhase} (h : ∃ p, IsPick c id sp p) :
    ∃ p, searchPhase c id sp = some p := by
  obtain ⟨p, h1, h2, h3⟩ := h
  rw [← Option.isSome_iff_exists]
  unfold searchPhase
  rw [List.find?_isSome]
  exact ⟨p, h1, by simp [h2, h3]⟩

theorem obsStep_total {env : Env K} {o : ObsOptions K} {cat : Catalog K} (hc : cat.Sound) {xc : XCorr.Cache} {refEv : Event K}
    {sp : StaPhase} {n : Nat} (h1 : ∃ p, IsPick cat refEv.id sp p) (h2 : ∃ p, IsPick cat n sp p)
    (h3 : ∀ p, IsPick cat refEv.id sp p → (o.minCoef p.procType).isSome = true) (s : ObsState K)
    (hs : ∀ p, s.refPhase = some p → p ∈ cat.phasesOf refEv.id) :
    ∃ t, obsStep env o cat xc refEv s (sp, n) = .ok t ∧ ∀ p, t.refPhase = some p → p ∈ cat.phasesOf refEv.id := by
  obtain ⟨p1, a1, a2, a3⟩ := h1
  obtain ⟨st0, hst0⟩ := Option.isSome_iff_exists.1 (hc.phaseStation _ (Catalog.mem_phasesOf.1 a1))
  rw [a2] at hst0
  have hst : ∃ st, currentStation cat s.station sp.1 = .ok st := by
    unfold currentStation
    cases s.station with
    | none => exact ⟨st0, by simp [hst0, Outcome.ofOption]⟩
    | some st =>
      by_cases e : st.id = sp.1
      · exact ⟨st, by simp [e]⟩
      · exact ⟨st0, by simp [e, hst0, Outcome.ofOption]⟩
  obtain ⟨st, hst⟩ := hst
  have href : ∃ u rp, refStep env cat refEv st { s with station := some st } sp = .ok (u, rp) ∧ IsPick cat refEv.id sp rp ∧
      ∀ p, u.refPhase = some p → p ∈ cat.phasesOf refEv.id := by
    obtain ⟨p, hp⟩ := searchPhase_total (c := cat) (id := refEv.id) (sp := sp) ⟨p1, a1, a2, a3⟩
    have hpk := searchPhase_pick hp
    unfold refStep
    cases hr : s.refPhase with
    | none =>
      simp only [sameRef, hp]
      refine ⟨_, _, rfl, hpk, ?_⟩
      intro q hq
      simp only [Option.some.injEq] at hq
      rw [← hq]; exact hpk.1
    | some q =>
      cases hb : sameRef (some q) sp with
      | false =>
        simp only [hb, hp]
        refine ⟨_, _, rfl, hpk, ?_⟩
        intro q hq
        simp only [Option.some.injEq] at hq
        rw [← hq]; exact hpk.1
      | true =>
        refine ⟨_, q, rfl, ⟨hs q hr, ?_⟩, fun p hp => hs p (by rw [hr]; exact hp)⟩
        simpa [sameRef] using hb
  obtain ⟨u, rp, hu, hrp, hur⟩ := href
  obtain ⟨mc, hmc⟩ := Option.isSome_iff_exists.1 (h3 rp hrp)
  obtain ⟨p2, b1, b2⟩ := h2
  obtain ⟨ev, hev⟩ := Option.isSome_iff_exists.1 (hc.phaseEvent _ (Catalog.mem_phasesOf.1 b1))
  simp only at hev
  have hid := (hc.eventKey _ _ hev).1
  obtain ⟨p, hp⟩ := searchPhase_total (c := cat) (id := ev.id) (sp := sp) ⟨p2, by rw [hid]; exact b1, b2⟩
  unfold obsStep
  simp only [hst, Outcome.bind_ok, hu]
  unfold neighStep
  by_cases ht : u.tttError = true
  · rw [if_pos ht]; exact ⟨u, rfl, hur⟩
  · rw [if_neg ht, hmc, hev]
    simp only [hp]
    split
    · exact ⟨_, rfl, hur⟩
    · split
      · exact ⟨_, rfl, hur⟩
      · split
        · exact ⟨_, rfl, hur⟩
        · exact ⟨_, rfl, hur⟩

theorem addObservations_total {env : Env K} {o : ObsOptions K} {cat : Catalog K} (hc : cat.Sound) {xc : XCorr.Cache}
    {cluster : Cluster} (hp : Pairable cat o.minCoef cluster) {kv : Nat × Neighbours} (hkv : kv ∈ cluster)
    (hkey : kv.2.refId = kv.1) (ops : List (SolverOp K)) : ∃ r, addObservations env o cat xc kv.2 ops = .ok r := by
  obtain ⟨e, he⟩ := Option.isSome_iff_exists.1 (hp.event kv hkv)
  have hid := (hc.eventKey _ _ he).1
  unfold addObservations
  rw [hkey, he]
  obtain ⟨t, ht, -⟩ := foldlM_total (obsStep env o cat xc e) (fun s => ∀ p, s.refPhase = some p → p ∈ cat.phasesOf e.id)
    (kv.2.phases.insertionSort tupleLe) (by
      rintro ⟨sp, n⟩ hx s hs
      rw [List.mem_insertionSort] at hx
      exact obsStep_total hc (by rw [hid]; exact (hp.pairs kv hkv sp n hx).1) (hp.pairs kv hkv sp n hx).2
        (by rw [hid]; exact hp.threshold kv hkv sp n hx) s hs) ⟨ops, none, none, false, 0, 0⟩ (by simp)
  simp only [Outcome.ofOption, Outcome.bind_ok, ht]
  exact ⟨_, rfl⟩

theorem Pairable.of_rel {mc : PhaseType → Option K} {cluster cl : Cluster} {cat c : Catalog K} (hp : Pairable cat mc cluster)
    (h : Rel cl cat c) : Pairable c mc cluster := by
  have key : ∀ k sp, (∃ p, IsPick cat k sp p) → ∃ p, IsPick c k sp p := by
    rintro k sp ⟨p, h1, h2, h3⟩
    have : pick0 p ∈ (c.phasesOf k).map pick0 := by rw [h.picks]; exact List.mem_map_of_mem h1
    obtain ⟨q, hq, he⟩ := List.mem_map.1 this
    have e1 : q.stationId = p.stationId := by simpa [pick0] using congrArg Phase.stationId he
    have e2 : q.type = p.type := by simpa [pick0] using congrArg Phase.type he
    exact ⟨q, hq, e1.trans h2, e2.trans h3⟩
  refine ⟨?_, ?_, ?_⟩
  · intro kv hkv
    have := h.events kv.1
    obtain ⟨e, he⟩ := Option.isSome_iff_exists.1 (hp.event kv hkv)
    rw [he] at this
    cases hx : c.events.find? kv.1 with
    | none => rw [hx] at this; simp at this
    | some _ => rfl
  · intro kv hkv sp n hx
    exact ⟨key _ _ (hp.pairs kv hkv sp n hx).1, key _ _ (hp.pairs kv hkv sp n hx).2⟩
  · rintro kv hkv sp n hx p ⟨h1, h2, h3⟩
    have : pick0 p ∈ (cat.phasesOf kv.1).map pick0 := by rw [← h.picks]; exact List.mem_map_of_mem h1
    obtain ⟨q, hq, he⟩ := List.mem_map.1 this
    have e1 : q.stationId = p.stationId := by simpa [pick0] using congrArg Phase.stationId he
    have e2 : q.type = p.type := by simpa [pick0] using congrArg Phase.type he
    have e3 : q.procType = p.procType := by simpa [pick0] using congrArg Phase.procType he
    rw [← e3]
    exact hp.threshold kv hkv sp n hx q ⟨hq, e1.trans h2, e2.trans h3⟩

theorem Rel.known {cluster : Cluster} {cat c : Catalog K} (h : Rel cluster cat c) {k : Nat}
    (hk : (cat.events.find? k).isSome = true) : ∃ e, c.events.find? k = some e := by
  have := h.events k
  obtain ⟨e, he⟩ := Option.isSome_iff_exists.1 hk
  rw [he] at this
  cases hx : c.events.find? k with
  | none => rw [hx] at this; simp at this
  | some e => exact ⟨e, rfl⟩

theorem observeStep_total {env : Env K} {o : ObsOptions K} {xc : XCorr.Cache} {prev cat : Catalog K} {cluster : Cluster}
    (hg : GoodCluster cluster) (hpair : Pairable cat o.minCoef cluster) (hp : prev = Catalog.init ∨ Rel cluster cat prev)
    {kv : Nat × Neighbours} (hkv : kv ∈ cluster) (s : ObserveState K) (hs : Rel cluster cat s.cur) :
    ∃ t, observeStep env o xc prev s kv = .ok t ∧ Rel cluster cat t.cur := by
  obtain ⟨⟨ops, b⟩, h1⟩ := addObservations_total (env := env) (o := o) (xc := xc) hs.sound (hpair.of_rel hs) hkv (hg.key kv hkv) s.ops
  unfold observeStep
  simp only [h1, Outcome.bind_ok]
  by_cases hb : (b || isEmpty prev) = true
  · rw [if_pos hb]; exact ⟨_, rfl, hs⟩
  · rw [if_neg hb]
    have hprev : Rel cluster cat prev := by
      rcases hp with rfl | hp
      · exact absurd (by simp [isEmpty, Catalog.init]) hb
      · exact hp
    obtain ⟨ev, hev⟩ := hs.known (hpair.event kv hkv)
    simp only [hev, Outcome.ofOption, Outcome.bind_ok]
    by_cases hr : ev.isRelocated = true
    · rw [if_pos hr]
      obtain ⟨e, he⟩ := hprev.known (hpair.event kv hkv)
      obtain ⟨c', k1, k2, k3, k4, k5⟩ := restore_spec hs.sound hprev.sound
        (fun x => (hprev.stations x).trans (hs.stations x).symm) he
      have hrel : Rel cluster cat c' := by
        have hpk : ∀ k, (c'.phasesOf k).map pick0 = (cat.phasesOf k).map pick0 := by
          intro k
          by_cases hk : k = kv.1
          · rw [hk, k5]; exact hprev.picks _
          · rw [k3.phases k hk]; exact hs.picks k
        refine ⟨k2, noAt_of_picks hs.noAt (fun k => (hpk k).trans (hs.picks k).symm), fun x => (k3.stations x).trans (hs.stations x), ?_, ?_, hpk⟩
        · intro k hk
          have hne : k ≠ kv.1 := by rintro rfl; exact hk (List.mem_map_of_mem hkv)
          rw [k3.events k hne, k3.phases k hne]
          exact hs.others k hk
        · intro k
          by_cases hk : k = kv.1
          · rw [hk, k4, ← he]; exact hprev.events _
          · rw [k3.events k hk]; exact hs.events k
      obtain ⟨⟨ops2, b2⟩, h2⟩ := addObservations_total (env := env) (o := o) (xc := xc) hrel.sound (hpair.of_rel hrel) hkv (hg.key kv hkv) ops
      rw [k1]
      simp only [h2, Outcome.bind_ok]
      exact ⟨_, rfl, hrel⟩
    · rw [if_neg hr]; exact ⟨_, rfl, hs⟩

theorem observe_total {env : Env K} {o : ObsOptions K} {xc : XCorr.Cache} {prev cur cat : Catalog K} {cluster : Cluster}
    (hg : GoodCluster cluster) (hpair : Pairable cat o.minCoef cluster) (hp : prev = Catalog.init ∨ Rel cluster cat prev)
    (hs : Rel cluster cat cur) : ∃ t, observe env o xc cluster prev cur = .ok t ∧ Rel cluster cat t.cur := by
  unfold observe
  exact foldlM_total (observeStep env o xc prev) (fun s => Rel cluster cat s.cur) cluster
    (fun kv hkv s h => observeStep_total hg hpair hp hkv s h) ⟨cur, [], []⟩ hs

theorem stations_total {c : Catalog K} (h : c.Sound) (k : Nat) :
    ∃ r, (c.phasesOf k).mapM (fun p => Outcome.ofOption (c.stations.find? p.stationId)) = .ok r := by
  apply mapM_total
  intro p hp
  obtain ⟨st, hst⟩ := Option.isSome_iff_exists.1 (h.phaseStation _ (Catalog.mem_phasesOf.1 hp))
  exact ⟨st, by simp only at hst; rw [hst]; rfl⟩

theorem computeEventResiduals_total {env : Env K} {u first : Bool} {ops : List (SolverOp K)} {cluster : Cluster} {cat cur : Catalog K}
    (hg : GoodCluster cluster) (hev : ∀ kv ∈ cluster, (cat.events.find? kv.1).isSome = true) (hs : Rel cluster cat cur) :
    ∃ c, computeEventResiduals env u first ops cluster cur = .ok c := by
  unfold computeEventResiduals
  obtain ⟨t, ht, -⟩ := foldlM_total (residualsStep env u first ops) (fun c => c.Sound ∧ ∀ k, (cat.events.find? k).isSome = true → ∃ e, c.events.find? k = some e)
    cluster (by
      rintro kv hkv c ⟨h1, h2⟩
      obtain ⟨e, he⟩ := h2 kv.1 (hev kv hkv)
      obtain ⟨r, hr⟩ := stations_total h1 e.id
      have hok : ∃ t, residualsStep env u first ops c kv = .ok t := by
        unfold residualsStep
        rw [hg.key kv hkv, he]
        simp only [Outcome.ofOption, Outcome.bind_ok]
        simp only [Outcome.ofOption] at hr
        rw [hr]
        exact ⟨_, rfl⟩
      obtain ⟨t, ht⟩ := hok
      obtain ⟨g1, -⟩ := computeEventResiduals_spec (cluster := [kv]) h1 (by unfold computeEventResiduals; rw [List.foldlM_cons, ht]; rfl)
      refine ⟨t, ht, g1.sound, ?_⟩
      intro k hk
      obtain ⟨e', he'⟩ := h2 k hk
      have := g1.events k
      rw [he'] at this
      cases hx : t.events.find? k with
      | none => rw [hx] at this; simp at this
      | some e => exact ⟨e, rfl⟩) cur ⟨hs.sound, fun k hk => hs.known hk⟩
  exact ⟨t, ht⟩

theorem updateRelocatedEvents_total {env : Env K} {first : Bool} {ans : Answer K} {cluster : Cluster} {cat cur : Catalog K}
    (hg : GoodCluster cluster) (hev : ∀ kv ∈ cluster, (cat.events.find? kv.1).isSome = true) (hs : Rel cluster cat cur) :
    ∃ c, updateRelocatedEvents env first ans cluster cur = .ok c := by
  unfold updateRelocatedEvents
  obtain ⟨t, ht, -⟩ := foldlM_total (updateStep env first ans) (Rel cluster cat) cluster (by
      rintro kv hkv c h
      obtain ⟨e, he⟩ := h.known (hev kv hkv)
      obtain ⟨r, hr⟩ := stations_total h.sound e.id
      have hok : ∃ t, updateStep env first ans c kv = .ok t := by
        unfold updateStep
        rw [hg.key kv hkv, he]
        simp only [Outcome.ofOption, Outcome.bind_ok]
        cases ans.changes e.id with
        | none => exact ⟨_, rfl⟩
        | some d =>
          simp only [Outcome.ofOption] at hr
          simp only
          rw [hr]
          exact ⟨_, rfl⟩
      obtain ⟨t, ht⟩ := hok
      have hone : GoodCluster [kv] := ⟨by simp, by simpa using hg.key kv hkv⟩
      have h' : Rel [kv] c c := Rel.refl h.sound h.noAt
      have := h'.updated hone (env := env) (first := first) (ans := ans) (c' := t)
        (by unfold updateRelocatedEvents; rw [List.foldlM_cons, ht]; rfl)
      refine ⟨t, ht, this.sound, this.noAt, fun x => (this.stations x).trans (h.stations x), ?_,
        fun k => (this.events k).trans (h.events k), fun k => (this.picks k).trans (h.picks k)⟩
      intro k hk
      have hne : k ∉ [kv].map (·.1) := by
        simp only [List.map_cons, List.map_nil, List.mem_singleton]
        rintro rfl; exact hk (List.mem_map_of_mem hkv)
      exact ⟨(this.others k hne).1.trans (h.others k hk).1, (this.others k hne).2.trans (h.others k hk).2⟩) cur hs
  exact ⟨t, ht⟩

/-- A solver whose preparation returns for every history that has parameters for all its observations. -/
def Prepares (sol : SolverAnswers K) : Prop :=
  ∀ it ops absLoc down, Fits ops → NoSeparator ops → Complete ops → sol.prepare it ops absLoc down = .ok ()

theorem loop_total {a : Args K} (hg : GoodArgs a) {cat : Catalog K} (hpair : Pairable cat a.o.minCoef a.cluster)
    (hsol : Prepares a.sol) (n it : Nat) (s : LoopState K) (hs : Rel a.cluster cat s.cur)
    (hp : s.prev = Catalog.init ∨ Rel a.cluster cat s.prev) :
    ∃ t, loop a n it s = .ok t ∧ Rel a.cluster cat t.cur := by
  induction n generalizing it s with
  | zero => exact ⟨s, rfl, hs⟩
  | succ n ih =>
    obtain ⟨ob, h1, h2⟩ := observe_total (env := a.env) (o := a.o) (xc := a.xc) hg.cluster hpair hp hs
    obtain ⟨p1, p2, p3⟩ := prev_ok hs hp
    have hinv := observe_inv hs.sound hs.noAt p1 p2 p3 hg.cluster hg.fits h1
    have hops := observe_ops hs.sound hs.noAt p1 p2 p3 hg.cluster hg.fits h1
    obtain ⟨cur, h3⟩ := computeEventResiduals_total (env := a.env) (u := a.o.usePickUncertainties) (first := decide (it = 0))
      (ops := ob.ops) hg.cluster hpair.event h2
    have hcur := h2.residuals hg.cluster h3
    have hfit : Fits ob.ops := by
      have := hinv.len
      have := hg.fits
      unfold Fits
      omega
    have hprep := fun x y => hsol it ob.ops x y hfit hinv.sep hops.complete
    unfold loop iteration
    simp only [h1, h3, hprep, Outcome.bind_ok]
    by_cases hl : it = a.so.algoIterations
    · rw [if_pos hl]
      exact ⟨_, rfl, hcur⟩
    · rw [if_neg hl]
      cases hsv : a.sol.solve it ob.ops (interpolate a.so.algoIterations it a.so.dampingFactorStart a.so.dampingFactorEnd) with
      | none => exact ⟨_, rfl, hcur⟩
      | some ans =>
        obtain ⟨new, h4⟩ := updateRelocatedEvents_total (env := a.env) (first := decide (it = 0)) (ans := ans) hg.cluster hpair.event hcur
        simp only [h4, Outcome.bind_ok, if_true]
        exact ih (it + 1) _ (hcur.updated hg.cluster h4) (Or.inr hcur)

theorem relocate_total {a : Args K} (hg : GoodArgs a) {cat : Catalog K} (hs : cat.Sound) (hn : NoAt cat)
    (hpair : Pairable cat a.o.minCoef a.cluster) (hsol : Prepares a.sol) : ∃ r, relocate a cat = .ok r := by
  obtain ⟨t, h1, h2⟩ := loop_total hg hpair hsol (a.so.algoIterations + 1) 0 ⟨cat, Catalog.init, []⟩ (Rel.refl hs hn) (Or.inl rfl)
  obtain ⟨r, h3, -⟩ := returned_spec h2.sound
  unfold relocate
  simp only [h1, h3, Outcome.bind_ok]
  exact ⟨_, rfl⟩

end Verif.Relocate
