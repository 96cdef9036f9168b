import Verif.Spec.Relocate
import Verif.Spec.Solver
import Verif.Spec.Catalog
import Verif.Proofs.Catalog
import Mathlib.Algebra.Order.Field.Rat
import Mathlib.Tactic.Ring

/-! Helper lemmas for C47–C50 and C61. -/

set_option linter.unusedSectionVars false
set_option linter.unusedSimpArgs false

namespace Verif

theorem Outcome.bind_eq_ok {α β : Type} {x : Outcome α} {f : α → Outcome β} {r : β} :
    (x >>= f) = .ok r ↔ ∃ a, x = .ok a ∧ f a = .ok r := by
  cases x <;> simp

theorem Outcome.ofOption_eq_ok {α : Type} {x : Option α} {r : α} :
    Outcome.ofOption x = .ok r ↔ x = some r := by
  cases x <;> simp [Outcome.ofOption]

/-- invariants of a loop -/
theorem foldlM_inv {σ β : Type} (f : σ → β → Outcome σ) (P : List β → σ → Prop) (l : List β) {s s' : σ}
    (h0 : P [] s)
    (hstep : ∀ done x t t', x ∈ l → P done t → f t x = .ok t' → P (done ++ [x]) t')
    (h : l.foldlM f s = .ok s') : P l s' := by
  suffices H : ∀ (rest done : List β) (t : σ), (∀ x ∈ rest, x ∈ l) → P done t →
      rest.foldlM f t = .ok s' → P (done ++ rest) s' by
    simpa using H l [] s (fun _ h => h) h0 h
  intro rest
  induction rest with
  | nil =>
    intro done t _ hp h
    simp only [List.foldlM_nil, Outcome.pure_eq, Outcome.ok.injEq] at h
    simpa [← h] using hp
  | cons x rest ih =>
    intro done t hl hp h
    rw [List.foldlM_cons, Outcome.bind_eq_ok] at h
    obtain ⟨t', h1, h2⟩ := h
    have := ih (done ++ [x]) t' (fun y hy => hl y (List.mem_cons_of_mem _ hy))
      (hstep done x t t' (hl x (by simp)) hp h1) h2
    simpa using this

namespace Relocate
open Verif.Catalog Verif.Solver

variable {K : Type} [Field K] [LinearOrder K]

theorem searchPhase_pick {c : Catalog K} {id : Nat} {sp : StaPhase} {p : Phase K}
    (h : searchPhase c id sp = some p) : IsPick c id sp p := by
  unfold searchPhase at h
  have h1 := List.mem_of_find?_eq_some h
  have h2 := List.find?_some h
  simp only [decide_eq_true_eq] at h2
  exact ⟨h1, h2.1, h2.2⟩

/-- the calls of one set of parameters -/
structure ParamsOf (env : Env K) (cat : Catalog K) (key : Nat) (ev : Event K) (free : Bool)
    (q : ParArg K) : Prop where
  event : cat.events.find? key = some ev
  src : ∃ sp p st i, IsPick cat ev.id sp p ∧ cat.stations.find? p.stationId = some st ∧
    env.ttt ev st (phaseName env p) = some i ∧ SolverOp.params q ∈ paramCalls env ev st p free i

/-- What is known about each call added by `addObservations`. -/
def GoodOp (env : Env K) (o : ObsOptions K) (cat : Catalog K) (xc : XCorr.Cache) (nb : Neighbours)
    (refEv : Event K) : SolverOp K → Prop
  | .event id la lo d => ∃ key ev, cat.events.find? key = some ev ∧ id = ev.id ∧ la = ev.latitude ∧
      lo = ev.longitude ∧ d = ev.depth ∧ (key = nb.refId ∨ key ∈ nb.ids)
  | .station s la lo e => ∃ key st, cat.stations.find? key = some st ∧ s = st.id.toList ∧
      la = st.latitude ∧ lo = st.longitude ∧ e = st.elevation
  | .params q => ParamsOf env cat nb.refId refEv true q ∨
      ∃ n ∈ nb.ids, ∃ ev, ParamsOf env cat n ev (!o.keepNeighboursFixed) q
  | .obs x => ∃ sp n ev rp p mc, (sp, n) ∈ nb.phases ∧ cat.events.find? n = some ev ∧
      IsPick cat refEv.id sp rp ∧ IsPick cat ev.id sp p ∧ o.minCoef rp.procType = some mc ∧
      0 ≤ rp.time - refEv.time ∧ 0 ≤ p.time - ev.time ∧ x = observation o xc mc refEv ev sp rp p

theorem currentStation_ok {cat : Catalog K} (hw : cat.WF) {cached : Option (Station K)} {id : String}
    {st : Station K} (hc : ∀ st, cached = some st → cat.stations.find? st.id = some st)
    (h : currentStation cat cached id = .ok st) : cat.stations.find? id = some st ∧ st.id = id := by
  have key : cat.stations.find? id = some st → cat.stations.find? id = some st ∧ st.id = id :=
    fun h => ⟨h, (hw.stationKey _ _ h).1⟩
  unfold currentStation at h
  cases hcd : cached with
  | none => rw [hcd] at h; exact key (Outcome.ofOption_eq_ok.1 h)
  | some st' =>
    rw [hcd] at h
    simp only at h
    by_cases hi : st'.id = id
    · rw [if_pos hi] at h
      simp only [Outcome.ok.injEq] at h
      subst h
      exact ⟨hi ▸ hc st' hcd, hi⟩
    · rw [if_neg hi] at h; exact key (Outcome.ofOption_eq_ok.1 h)

/-- the two ways `addParams` ends -/
theorem addParams_cases (env : Env K) (ops : List (SolverOp K)) (ev : Event K) (st : Station K)
    (p : Phase K) (free : Bool) :
    (∃ i, env.ttt ev st (phaseName env p) = some i ∧
      addParams env ops ev st p free = (ops ++ paramCalls env ev st p free i, true)) ∨
    ((getObservationParams (Solver.run ops) ev.id st.id p.type).isSome ∧
      addParams env ops ev st p free = (ops, true)) ∨
    (env.ttt ev st (phaseName env p) = none ∧
      getObservationParams (Solver.run ops) ev.id st.id p.type = none ∧
      addParams env ops ev st p free = (ops, false)) := by
  unfold addParams
  cases hg : getObservationParams (Solver.run ops) ev.id st.id p.type with
  | some x => simp
  | none =>
    cases ht : env.ttt ev st (phaseName env p) with
    | none => simp
    | some i => simp

/-- Invariant of the loop of `addObservations`. -/
structure ObsInv (env : Env K) (o : ObsOptions K) (cat : Catalog K) (xc : XCorr.Cache) (nb : Neighbours)
    (refEv : Event K) (ops0 : List (SolverOp K)) (done : List (StaPhase × Nat)) (s : ObsState K) :
    Prop where
  station : ∀ st, s.station = some st → cat.stations.find? st.id = some st
  ref : ∀ rp, s.refPhase = some rp → searchPhase cat refEv.id (rp.stationId, rp.type) = some rp
  error : s.tttError = true → ∃ rp, s.refPhase = some rp ∧ ¬ Computable env cat refEv rp
  new : ∃ new, s.ops = ops0 ++ new ∧ ∀ op ∈ new, GoodOp env o cat xc nb refEv op
  len : s.ops.length ≤ ops0.length + 7 * done.length
  attempted : s.attempted = 0 → done = []
  none : s.attempted = 0 → s.refPhase = none
  /-- nothing computed so far: nothing was added, and every pick tried has no travel time -/
  failed : s.available = 0 → s.ops = ops0 ∧ (s.refPhase.isSome → s.tttError = true) ∧
    ∀ t ∈ done, ∃ rp, IsPick cat refEv.id t.1 rp ∧ ¬ Computable env cat refEv rp
  /-- something computed: some pick has a travel time, or its parameters were given before -/
  succeeded : 0 < s.available → ∃ t ∈ done, ∃ rp mid, IsPick cat refEv.id t.1 rp ∧
    (Computable env cat refEv rp ∨
      (mid <+: s.ops ∧ (getObservationParams (Solver.run mid) refEv.id t.1.1 t.1.2).isSome))
  /-- a pair with computable travel times and picks after the origins is observed -/
  complete : ∀ t ∈ done, ∀ ev, cat.events.find? t.2 = some ev →
    (∀ rp, IsPick cat refEv.id t.1 rp → Computable env cat refEv rp ∧ refEv.time ≤ rp.time) →
    (∀ p, IsPick cat ev.id t.1 p → Computable env cat ev p ∧ ev.time ≤ p.time) →
    ∃ x ∈ obsOf s.ops, x.e1 = refEv.id ∧ x.e2 = ev.id ∧ x.sta = t.1.1.toList ∧ x.phase = t.1.2.toList

theorem Computable.iff {env : Env K} {cat : Catalog K} {ev : Event K} {p : Phase K} {st : Station K}
    (hst : cat.stations.find? p.stationId = some st) :
    Computable env cat ev p ↔ ∃ i, env.ttt ev st (phaseName env p) = some i := by
  unfold Computable
  constructor
  · rintro ⟨st', i, h1, h2⟩
    rw [hst] at h1
    simp only [Option.some.injEq] at h1
    subst h1
    exact ⟨i, h2⟩
  · rintro ⟨i, h⟩
    exact ⟨st, i, hst, h⟩

theorem goodOp_paramCalls {env : Env K} {o : ObsOptions K} {cat : Catalog K} {xc : XCorr.Cache}
    {nb : Neighbours} {refEv : Event K} {key : Nat} {ev : Event K} {sp : StaPhase} {p : Phase K}
    {st : Station K} {free : Bool} {i : TravelTimeInfo K}
    (hev : cat.events.find? key = some ev) (hp : IsPick cat ev.id sp p)
    (hst : cat.stations.find? p.stationId = some st) (hi : env.ttt ev st (phaseName env p) = some i)
    (hk : (key = nb.refId ∧ ev = refEv ∧ free = true) ∨ (key ∈ nb.ids ∧ free = !o.keepNeighboursFixed)) :
    ∀ op ∈ paramCalls env ev st p free i, GoodOp env o cat xc nb refEv op := by
  intro op hop
  have hop' := hop
  simp only [paramCalls, List.mem_cons, List.not_mem_nil, or_false] at hop
  rcases hop with rfl | rfl | rfl
  · exact ⟨key, ev, hev, rfl, rfl, rfl, rfl, hk.imp (·.1) (·.1)⟩
  · exact ⟨_, st, hst, rfl, rfl, rfl, rfl⟩
  · rcases hk with ⟨rfl, rfl, rfl⟩ | ⟨h1, rfl⟩
    · exact Or.inl ⟨hev, sp, p, st, i, hp, hst, hi, hop'⟩
    · exact Or.inr ⟨key, h1, ev, hev, sp, p, st, i, hp, hst, hi, hop'⟩

theorem obsOf_append (a b : List (SolverOp K)) : obsOf (a ++ b) = obsOf a ++ obsOf b := by
  simp [obsOf, List.filterMap_append]

theorem parOf_append (a b : List (SolverOp K)) : parOf (a ++ b) = parOf a ++ parOf b := by
  simp [parOf, List.filterMap_append]

theorem observation_ids (o : ObsOptions K) (xc : XCorr.Cache) (mc : K) (refEv ev : Event K)
    (sp : StaPhase) (rp p : Phase K) :
    (observation o xc mc refEv ev sp rp p).e1 = refEv.id ∧ (observation o xc mc refEv ev sp rp p).e2 = ev.id ∧
    (observation o xc mc refEv ev sp rp p).sta = sp.1.toList ∧
    (observation o xc mc refEv ev sp rp p).phase = sp.2.toList := by
  unfold observation
  simp only
  cases xcorrEntry xc refEv.id ev.id sp with
  | none => simp only [and_self]
  | some e => by_cases h : mc ≤ |(e.coeff : K)| <;> simp only [h, if_true, if_false, and_self]

/-- first half of a round: the state after `refStep` -/
structure RefInv (env : Env K) (o : ObsOptions K) (cat : Catalog K) (xc : XCorr.Cache) (nb : Neighbours)
    (refEv : Event K) (ops0 : List (SolverOp K)) (done : List (StaPhase × Nat)) (t : StaPhase × Nat)
    (s s' : ObsState K) (rp : Phase K) : Prop where
  refPhase : s'.refPhase = some rp
  pick : IsPick cat refEv.id t.1 rp
  search : searchPhase cat refEv.id (rp.stationId, rp.type) = some rp
  error : s'.tttError = true → ¬ Computable env cat refEv rp
  new : ∃ new, s'.ops = s.ops ++ new ∧ new.length ≤ 3 ∧ (∀ op ∈ new, GoodOp env o cat xc nb refEv op) ∧
    obsOf new = []
  attempted : s'.attempted ≠ 0
  failed : s'.available = 0 → s'.ops = ops0 ∧ s'.tttError = true
  mono : s.available ≤ s'.available
  succeeded : 0 < s'.available → 0 < s.available ∨ Computable env cat refEv rp ∨
      (s.ops <+: s'.ops ∧ (getObservationParams (Solver.run s.ops) refEv.id t.1.1 t.1.2).isSome)
  station : s'.station = s.station

theorem refStep_inv {env : Env K} {o : ObsOptions K} {cat : Catalog K} {xc : XCorr.Cache}
    {nb : Neighbours} {refEv : Event K} (hev : cat.events.find? nb.refId = some refEv)
    {ops0 : List (SolverOp K)} {done : List (StaPhase × Nat)} {t : StaPhase × Nat} {s s' : ObsState K}
    {rp : Phase K} {st : Station K} (hst : cat.stations.find? t.1.1 = some st) (hid : st.id = t.1.1)
    (hi : ObsInv env o cat xc nb refEv ops0 done s)
    (h : refStep env cat refEv st s t.1 = .ok (s', rp)) :
    RefInv env o cat xc nb refEv ops0 done t s s' rp := by
  have hnew : ∀ p, searchPhase cat refEv.id t.1 = some p →
      s' = { s with ops := (addParams env s.ops refEv st p true).1, refPhase := some p,
                    tttError := !(addParams env s.ops refEv st p true).2, attempted := s.attempted + 1,
                    available := if (addParams env s.ops refEv st p true).2 then s.available + 1 else s.available } →
      rp = p → RefInv env o cat xc nb refEv ops0 done t s s' rp := by
    intro p hp hs hr
    subst hr
    have hpk := searchPhase_pick hp
    have hst' : cat.stations.find? rp.stationId = some st := by rw [hpk.2.1]; exact hst
    have hsearch : searchPhase cat refEv.id (rp.stationId, rp.type) = some rp := by
      rw [hpk.2.1, hpk.2.2]; exact hp
    rcases addParams_cases env s.ops refEv st rp true with ⟨i, h1, h2⟩ | ⟨h1, h2⟩ | ⟨h0, h1, h2⟩
    · rw [h2] at hs
      subst hs
      refine ⟨rfl, hpk, hsearch, by simp, ⟨_, rfl, by simp [paramCalls], ?_, by simp [paramCalls, obsOf]⟩, by simp,
        by simp, by simp, fun _ => Or.inr (Or.inl ((Computable.iff hst').2 ⟨i, h1⟩)), rfl⟩
      exact goodOp_paramCalls hev hpk hst' h1 (Or.inl ⟨rfl, rfl, rfl⟩)
    · rw [h2] at hs
      subst hs
      rw [hid, hpk.2.2] at h1
      refine ⟨rfl, hpk, hsearch, by simp, ⟨[], by simp, by simp, by simp, by simp [obsOf]⟩, by simp, by simp, by simp,
        fun _ => Or.inr (Or.inr ⟨List.prefix_refl _, h1⟩), rfl⟩
    · rw [h2] at hs
      subst hs
      refine ⟨rfl, hpk, hsearch, ?_, ⟨[], by simp, by simp, by simp, by simp [obsOf]⟩, by simp, ?_, by simp, ?_, rfl⟩
      · intro _ hc
        obtain ⟨i, hi'⟩ := (Computable.iff hst').1 hc
        rw [h0] at hi'; cases hi'
      · intro ha
        simp at ha
        exact ⟨(hi.failed ha).1, by simp⟩
      · intro ha
        simp at ha
        exact Or.inl ha
  unfold refStep at h
  split at h
  · rename_i p hp hsame
    simp only [Outcome.ok.injEq, Prod.mk.injEq] at h
    obtain ⟨rfl, rfl⟩ := h
    have hs := hi.ref _ hp
    have hpk := searchPhase_pick hs
    have hsame' : p.stationId = t.1.1 ∧ p.type = t.1.2 := by
      rw [hp] at hsame
      simpa [sameRef] using hsame
    have hpk' : IsPick cat refEv.id t.1 p := ⟨hpk.1, hsame'.1, hsame'.2⟩
    refine ⟨hp, hpk', hs, ?_, ⟨[], by simp, by simp, by simp, by simp [obsOf]⟩, ?_, ?_, le_refl _, fun h => Or.inl h, rfl⟩
    · intro he
      obtain ⟨rp', h1, h2⟩ := hi.error he
      rw [hp] at h1
      simp only [Option.some.injEq] at h1
      subst h1; exact h2
    · intro h0
      have := hi.none h0
      rw [hp] at this; cases this
    · intro h0
      have := hi.failed h0
      exact ⟨this.1, this.2.1 (by rw [hp]; rfl)⟩
  · split at h
    · cases h
    · rename_i p hp
      simp only [Outcome.ok.injEq, Prod.mk.injEq] at h
      exact hnew p hp h.1.symm h.2.symm

/-- second half of a round: the calls added by `neighStep` -/
structure NeighInv (env : Env K) (o : ObsOptions K) (cat : Catalog K) (xc : XCorr.Cache) (nb : Neighbours)
    (refEv : Event K) (t : StaPhase × Nat) (s s' : ObsState K) : Prop where
  same : s'.refPhase = s.refPhase ∧ s'.tttError = s.tttError ∧ s'.attempted = s.attempted ∧
    s'.available = s.available ∧ s'.station = s.station
  skip : s.tttError = true → s'.ops = s.ops
  new : ∃ new, s'.ops = s.ops ++ new ∧ new.length ≤ 4 ∧ ∀ op ∈ new, GoodOp env o cat xc nb refEv op
  complete : s.tttError = false → ∀ ev, cat.events.find? t.2 = some ev →
    (∀ rp, s.refPhase = some rp → refEv.time ≤ rp.time) →
    (∀ p, IsPick cat ev.id t.1 p → Computable env cat ev p ∧ ev.time ≤ p.time) →
    ∃ x ∈ obsOf s'.ops, x.e1 = refEv.id ∧ x.e2 = ev.id ∧ x.sta = t.1.1.toList ∧ x.phase = t.1.2.toList

theorem mem_ids_of_phases {nb : Neighbours} {sp : StaPhase} {n : Nat} (h : (sp, n) ∈ nb.phases) :
    n ∈ nb.ids := by
  unfold Neighbours.phases at h
  rw [List.mem_flatMap] at h
  obtain ⟨kv, hkv, h⟩ := h
  rw [List.mem_map] at h
  obtain ⟨_, _, h⟩ := h
  injection h with _ h
  exact List.mem_map.2 ⟨kv, hkv, h⟩

theorem neighStep_inv {env : Env K} {o : ObsOptions K} {cat : Catalog K} {xc : XCorr.Cache}
    {nb : Neighbours} {refEv : Event K} {t : StaPhase × Nat} {s s' : ObsState K} {rp : Phase K}
    {st : Station K} (hst : cat.stations.find? t.1.1 = some st) (ht : t ∈ nb.phases)
    (hrp : s.refPhase = some rp) (hpick : IsPick cat refEv.id t.1 rp)
    (h : neighStep env o cat xc refEv st rp s t.1 t.2 = .ok s') :
    NeighInv env o cat xc nb refEv t s s' := by
  have hn : t.2 ∈ nb.ids := mem_ids_of_phases (sp := t.1) (n := t.2) ht
  unfold neighStep at h
  by_cases he : s.tttError = true
  · rw [if_pos he] at h
    simp only [Outcome.ok.injEq] at h
    subst h
    exact ⟨⟨rfl, rfl, rfl, rfl, rfl⟩, fun _ => rfl, ⟨[], by simp, by simp, by simp⟩, fun h => by simp [he] at h⟩
  · rw [if_neg he] at h
    cases hm : o.minCoef rp.procType with
    | none => rw [hm] at h; simp at h
    | some mc =>
      cases hev : cat.events.find? t.2 with
      | none => rw [hm, hev] at h; simp at h
      | some ev =>
        rw [hm, hev] at h
        simp only at h
        cases hp : searchPhase cat ev.id t.1 with
        | none => rw [hp] at h; simp at h
        | some p =>
          rw [hp] at h
          simp only at h
          have hpk := searchPhase_pick hp
          have hst' : cat.stations.find? p.stationId = some st := by rw [hpk.2.1]; exact hst
          have hadd : ∃ new, (addParams env s.ops ev st p (!o.keepNeighboursFixed)).1 = s.ops ++ new ∧
              new.length ≤ 3 ∧ ∀ op ∈ new, GoodOp env o cat xc nb refEv op := by
            rcases addParams_cases env s.ops ev st p (!o.keepNeighboursFixed) with ⟨i, h1, h2⟩ | ⟨h1, h2⟩ | ⟨h0, h1, h2⟩
            · rw [h2]
              exact ⟨_, rfl, by simp [paramCalls], goodOp_paramCalls hev hpk hst' h1 (Or.inr ⟨hn, rfl⟩)⟩
            · rw [h2]; exact ⟨[], by simp, by simp, by simp⟩
            · rw [h2]; exact ⟨[], by simp, by simp, by simp⟩
          have hok : Computable env cat ev p → (addParams env s.ops ev st p (!o.keepNeighboursFixed)).2 = true := by
            intro hc
            obtain ⟨i, hi⟩ := (Computable.iff hst').1 hc
            rcases addParams_cases env s.ops ev st p (!o.keepNeighboursFixed) with ⟨i, h1, h2⟩ | ⟨h1, h2⟩ | ⟨h0, h1, h2⟩
            · rw [h2]
            · rw [h2]
            · rw [hi] at h0; cases h0
          obtain ⟨new, hnew, hlen, hgood⟩ := hadd
          generalize addParams env s.ops ev st p (!o.keepNeighboursFixed) = r at *
          by_cases hr : r.2 = false
          · rw [if_pos hr] at h
            simp only [Outcome.ok.injEq] at h
            subst h
            refine ⟨⟨rfl, rfl, rfl, rfl, rfl⟩, fun h => absurd h he, ⟨new, hnew, by omega, hgood⟩, ?_⟩
            intro _ ev' hev' _ hc
            rw [hev] at hev'
            simp only [Option.some.injEq] at hev'
            subst hev'
            have := hok (hc p hpk).1
            rw [hr] at this; cases this
          · rw [if_neg hr] at h
            by_cases hneg : rp.time - refEv.time < 0
            · rw [if_pos hneg] at h
              simp only [Outcome.ok.injEq] at h
              subst h
              refine ⟨⟨rfl, rfl, rfl, rfl, rfl⟩, fun h => absurd h he, ⟨new, hnew, by omega, hgood⟩, ?_⟩
              intro _ ev' hev' hc _
              have := hc rp hrp
              omega
            · rw [if_neg hneg] at h
              by_cases hneg' : p.time - ev.time < 0
              · rw [if_pos hneg'] at h
                simp only [Outcome.ok.injEq] at h
                subst h
                refine ⟨⟨rfl, rfl, rfl, rfl, rfl⟩, fun h => absurd h he, ⟨new, hnew, by omega, hgood⟩, ?_⟩
                intro _ ev' hev' _ hc
                rw [hev] at hev'
                simp only [Option.some.injEq] at hev'
                subst hev'
                have := (hc p hpk).2
                omega
              · rw [if_neg hneg'] at h
                simp only [Outcome.ok.injEq] at h
                subst h
                refine ⟨⟨rfl, rfl, rfl, rfl, rfl⟩, fun h => absurd h he,
                  ⟨new ++ [.obs (observation o xc mc refEv ev t.1 rp p)], ?_, ?_, ?_⟩, ?_⟩
                · simp only [hnew, List.append_assoc]
                · simp only [List.length_append, List.length_cons, List.length_nil]; omega
                · intro op hop
                  rw [List.mem_append, List.mem_singleton] at hop
                  rcases hop with hop | rfl
                  · exact hgood op hop
                  · exact ⟨t.1, t.2, ev, rp, p, mc, ht, hev, hpick, hpk, hm, by omega, by omega, rfl⟩
                · intro _ ev' hev' _ _
                  rw [hev] at hev'
                  simp only [Option.some.injEq] at hev'
                  subst hev'
                  refine ⟨observation o xc mc refEv ev t.1 rp p, ?_, observation_ids ..⟩
                  simp only [obsOf_append]
                  exact List.mem_append_right _ (by simp [obsOf])

theorem obsStep_inv {env : Env K} {o : ObsOptions K} {cat : Catalog K} (hw : cat.WF) {xc : XCorr.Cache}
    {nb : Neighbours} {refEv : Event K} (hev : cat.events.find? nb.refId = some refEv)
    {ops0 : List (SolverOp K)} {done : List (StaPhase × Nat)} {t : StaPhase × Nat} (ht : t ∈ nb.phases)
    {s s' : ObsState K} (hi : ObsInv env o cat xc nb refEv ops0 done s)
    (h : obsStep env o cat xc refEv s t = .ok s') :
    ObsInv env o cat xc nb refEv ops0 (done ++ [t]) s' := by
  unfold obsStep at h
  rw [Outcome.bind_eq_ok] at h
  obtain ⟨st, h1, h⟩ := h
  rw [Outcome.bind_eq_ok] at h
  obtain ⟨⟨s1, rp⟩, h2, h3⟩ := h
  simp only at h3
  obtain ⟨hst, hid⟩ := currentStation_ok hw hi.station h1
  have hi' : ObsInv env o cat xc nb refEv ops0 done { s with station := some st } := by
    refine ⟨?_, hi.ref, hi.error, hi.new, hi.len, hi.attempted, hi.none, hi.failed, hi.succeeded, hi.complete⟩
    intro st' hst'
    simp only [Option.some.injEq] at hst'
    subst hst'
    rw [hid]; exact hst
  have hr := refStep_inv hev hst hid hi' h2
  have hn := neighStep_inv hst ht hr.refPhase hr.pick h3
  obtain ⟨e1, e2, e3, e4, e5⟩ := hn.same
  obtain ⟨new, hnew, hgood⟩ := hi.new
  obtain ⟨new1, hnew1, hlen1, hgood1, hobs1⟩ := hr.new
  obtain ⟨new2, hnew2, hlen2, hgood2⟩ := hn.new
  simp only at hnew1
  have hpre : s.ops <+: s'.ops := by rw [hnew2, hnew1]; exact ⟨new1 ++ new2, by simp⟩
  refine ⟨?_, ?_, ?_, ?_, ?_, ?_, ?_, ?_, ?_, ?_⟩
  · rw [e5, hr.station]; exact hi'.station
  · intro rp' hrp'
    rw [e1, hr.refPhase] at hrp'
    simp only [Option.some.injEq] at hrp'
    subst hrp'; exact hr.search
  · intro he
    rw [e2] at he
    exact ⟨rp, by rw [e1]; exact hr.refPhase, hr.error he⟩
  · refine ⟨new ++ new1 ++ new2, ?_, ?_⟩
    · rw [hnew2, hnew1, hnew]; simp
    · intro op hop
      rw [List.mem_append, List.mem_append] at hop
      rcases hop with (hop | hop) | hop
      · exact hgood op hop
      · exact hgood1 op hop
      · exact hgood2 op hop
  · have := hi.len
    rw [hnew2, hnew1]
    simp only [List.length_append, List.length_cons, List.length_nil]
    omega
  · intro h0; rw [e3] at h0; exact absurd h0 hr.attempted
  · intro h0; rw [e3] at h0; exact absurd h0 hr.attempted
  · intro h0
    rw [e4] at h0
    obtain ⟨h4, h5⟩ := hr.failed h0
    refine ⟨by rw [hn.skip h5]; exact h4, fun _ => by rw [e2]; exact h5, ?_⟩
    intro t' ht'
    have hs0 : s.available = 0 := by
      have := hr.mono
      simp only at this; omega
    rw [List.mem_append, List.mem_singleton] at ht'
    rcases ht' with ht' | rfl
    · exact (hi.failed hs0).2.2 t' ht'
    · exact ⟨rp, hr.pick, hr.error h5⟩
  · intro h0
    rw [e4] at h0
    rcases hr.succeeded h0 with h4 | h4 | ⟨h4, h5⟩
    · obtain ⟨t', ht', rp', mid, hp', hor⟩ := hi.succeeded h4
      refine ⟨t', List.mem_append_left _ ht', rp', mid, hp', hor.imp_right (fun ⟨a, b⟩ => ⟨a.trans hpre, b⟩)⟩
    · exact ⟨t, by simp, rp, [], hr.pick, Or.inl h4⟩
    · exact ⟨t, by simp, rp, s.ops, hr.pick, Or.inr ⟨hpre, h5⟩⟩
  · intro t' ht' ev hev' hc1 hc2
    rw [List.mem_append, List.mem_singleton] at ht'
    rcases ht' with ht' | rfl
    · obtain ⟨x, hx, hx'⟩ := hi.complete t' ht' ev hev' hc1 hc2
      refine ⟨x, ?_, hx'⟩
      obtain ⟨r, hr'⟩ := hpre
      rw [← hr', obsOf_append]
      exact List.mem_append_left _ hx
    · have herr : s1.tttError = false := by
        cases hb : s1.tttError with
        | false => rfl
        | true => exact absurd (hc1 rp hr.pick).1 (hr.error hb)
      refine hn.complete herr ev hev' ?_ hc2
      intro rp' hrp'
      rw [hr.refPhase] at hrp'
      simp only [Option.some.injEq] at hrp'
      subst hrp'; exact (hc1 rp hr.pick).2

theorem addObservations_inv {env : Env K} {o : ObsOptions K} {cat : Catalog K} (hw : cat.WF) {xc : XCorr.Cache}
    {nb : Neighbours} {ops0 ops : List (SolverOp K)} {b : Bool}
    (h : addObservations env o cat xc nb ops0 = .ok (ops, b)) :
    ∃ refEv s, cat.events.find? nb.refId = some refEv ∧ s.ops = ops ∧
      b = decide (s.attempted = 0 ∨ s.available > 0) ∧
      ObsInv env o cat xc nb refEv ops0 (nb.phases.insertionSort tupleLe) s := by
  unfold addObservations at h
  rw [Outcome.bind_eq_ok] at h
  obtain ⟨refEv, h1, h⟩ := h
  rw [Outcome.bind_eq_ok] at h
  obtain ⟨s, h2, h3⟩ := h
  rw [Outcome.ofOption_eq_ok] at h1
  simp only [Outcome.ok.injEq, Prod.mk.injEq] at h3
  refine ⟨refEv, s, h1, h3.1, h3.2.symm, ?_⟩
  refine foldlM_inv _ (fun done s => ObsInv env o cat xc nb refEv ops0 done s) _ ?_ ?_ h2
  · refine ⟨by simp, by simp, by simp, ⟨[], by simp, by simp⟩, by simp, by simp, by simp, by simp, by simp, by simp⟩
  · intro done t s1 s2 ht hi hs
    exact obsStep_inv hw h1 ((List.mem_insertionSort tupleLe).1 ht) hi hs

end Relocate
end Verif
