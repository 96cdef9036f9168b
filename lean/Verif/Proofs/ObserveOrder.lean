import Verif.Proofs.RelocateTotal
import Verif.Proofs.PrepareOrder
import Verif.Spec.RelocateOrder

/-! Helper lemmas for C107: exactly which calls are made to the solver, whatever the order of the events. -/

set_option linter.unusedSectionVars false
set_option linter.unusedSimpArgs false

namespace Verif.Relocate
open Verif.Catalog Verif.Solver

variable {K : Type} [Field K] [LinearOrder K]

/-- the travel time of event `k` at a station for a phase -/
structure Timed (env : Env K) (cat : Catalog K) (k : Nat) (sp : StaPhase) (ev : Event K) (st : Station K) (p : Phase K)
    (i : TravelTimeInfo K) : Prop where
  event : cat.events.find? k = some ev
  station : cat.stations.find? sp.1 = some st
  pick : searchPhase cat ev.id sp = some p
  time : env.ttt ev st (phaseName env p) = some i

theorem Timed.unique {env : Env K} {cat : Catalog K} {k : Nat} {sp : StaPhase} {ev ev' : Event K} {st st' : Station K}
    {p p' : Phase K} {i i' : TravelTimeInfo K} (h : Timed env cat k sp ev st p i) (h' : Timed env cat k sp ev' st' p' i') :
    ev = ev' ∧ st = st' ∧ p = p' ∧ i = i' := by
  obtain ⟨a1, a2, a3, a4⟩ := h
  obtain ⟨b1, b2, b3, b4⟩ := h'
  rw [a1] at b1; cases b1
  rw [a2] at b2; cases b2
  rw [a3] at b3; cases b3
  rw [a4] at b4; cases b4
  exact ⟨rfl, rfl, rfl, rfl⟩

def HasTime (env : Env K) (cat : Catalog K) (k : Nat) (sp : StaPhase) : Prop := ∃ ev st p i, Timed env cat k sp ev st p i

/-- the calls for the parameters of event `k` -/
def Given (env : Env K) (cat : Catalog K) (k : Nat) (sp : StaPhase) (op : SolverOp K) : Prop :=
  ∃ ev st p i, Timed env cat k sp ev st p i ∧ op ∈ paramCalls env ev st p true i

/-- the call for the observation of a pair -/
def PairCall (env : Env K) (o : ObsOptions K) (cat : Catalog K) (xc : XCorr.Cache) (k : Nat) (t : StaPhase × Nat)
    (op : SolverOp K) : Prop :=
  ∃ refEv st rp i ev st' p i' mc, Timed env cat k t.1 refEv st rp i ∧ Timed env cat t.2 t.1 ev st' p i' ∧
    o.minCoef rp.procType = some mc ∧ 0 ≤ rp.time - refEv.time ∧ 0 ≤ p.time - ev.time ∧
    op = .obs (observation o xc mc refEv ev t.1 rp p)

/-- the calls for a pair -/
def Called (env : Env K) (o : ObsOptions K) (cat : Catalog K) (xc : XCorr.Cache) (k : Nat) (t : StaPhase × Nat)
    (op : SolverOp K) : Prop :=
  Given env cat k t.1 op ∨ (HasTime env cat k t.1 ∧ Given env cat t.2 t.1 op) ∨ PairCall env o cat xc k t op

/-- parameters are the ones of the catalog, and come with their event and station -/
def Consistent (env : Env K) (cat : Catalog K) (ops : List (SolverOp K)) : Prop :=
  ∀ q, .params q ∈ ops → ∃ sp : StaPhase, q.sta = sp.1.toList ∧ q.phase = sp.2.toList ∧ Given env cat q.ev sp (.params q) ∧
    ∀ op, Given env cat q.ev sp op → op ∈ ops

theorem Given.time {env : Env K} {cat : Catalog K} {k : Nat} {sp : StaPhase} {op : SolverOp K} (h : Given env cat k sp op) :
    HasTime env cat k sp := by
  obtain ⟨ev, st, p, i, h, -⟩ := h
  exact ⟨ev, st, p, i, h⟩

/-- parameters given for event, station and phase -/
theorem Given.names {env : Env K} {cat : Catalog K} (hw : cat.WF) {k : Nat} {sp : StaPhase} {q : ParArg K}
    (h : Given env cat k sp (.params q)) : q.ev = k ∧ q.sta = sp.1.toList ∧ q.phase = sp.2.toList := by
  obtain ⟨ev, st, p, i, h1, h2⟩ := h
  simp [paramCalls] at h2
  subst h2
  refine ⟨(hw.eventKey _ _ h1.event).1, ?_, ?_⟩
  · exact congrArg String.toList (hw.stationKey _ _ h1.station).1
  · exact congrArg String.toList (searchPhase_pick h1.pick).2.2

theorem addParams_set {env : Env K} {cat : Catalog K} (hw : cat.WF) (hna : NoAt cat) {ops : List (SolverOp K)} (hf : Fits ops)
    (hs : NoSeparator ops) (hc : Consistent env cat ops) {k : Nat} {sp : StaPhase} {ev : Event K} {st : Station K} {p : Phase K}
    (he : cat.events.find? k = some ev) (hst : cat.stations.find? sp.1 = some st) (hp : searchPhase cat ev.id sp = some p) :
    ((addParams env ops ev st p true).2 = true ↔ HasTime env cat k sp) ∧
    (∀ op, op ∈ (addParams env ops ev st p true).1 ↔ op ∈ ops ∨ Given env cat k sp op) ∧
    Consistent env cat (addParams env ops ev st p true).1 := by
  have hid := (hw.eventKey _ _ he).1
  have hsid := (hw.stationKey _ _ hst).1
  have hpk := searchPhase_pick hp
  rcases addParams_cases env ops ev st p true with ⟨i, h1, h2⟩ | ⟨h1, h2⟩ | ⟨h0, h1, h2⟩
  · have ht : Timed env cat k sp ev st p i := ⟨he, hst, hp, h1⟩
    have hgiv : ∀ op, Given env cat k sp op ↔ op ∈ paramCalls env ev st p true i := by
      intro op
      constructor
      · rintro ⟨ev', st', p', i', h', hm⟩
        obtain ⟨rfl, rfl, rfl, rfl⟩ := ht.unique h'
        exact hm
      · exact fun hm => ⟨ev, st, p, i, ht, hm⟩
    rw [h2]
    refine ⟨by simp [show HasTime env cat k sp from ⟨ev, st, p, i, ht⟩], fun op => by rw [hgiv]; exact List.mem_append, ?_⟩
    intro q hq
    rw [List.mem_append] at hq
    rcases hq with hq | hq
    · obtain ⟨sp', a1, a2, a3, a4⟩ := hc q hq
      exact ⟨sp', a1, a2, a3, fun op hop => List.mem_append_left _ (a4 op hop)⟩
    · have hg := (hgiv _).2 hq
      obtain ⟨n1, n2, n3⟩ := hg.names hw
      rw [n1]
      exact ⟨sp, n2, n3, hg, fun op hop => List.mem_append_right _ ((hgiv op).1 hop)⟩
  · rw [h2]
    obtain ⟨q, q1, q2, q3, q4⟩ := params_given hf hs (hna _ _ hpk.1) h1
    obtain ⟨sp', a1, a2, a3, a4⟩ := hc q (mem_parOf.1 q1)
    have hsp : sp' = sp := by
      apply Prod.ext
      · apply String.ext; rw [← a1, q3, hsid]
      · apply String.ext; rw [← a2, q4, hpk.2.2]
    subst hsp
    rw [q2, hid] at a3 a4
    refine ⟨by simp [a3.time], fun op => ⟨.inl, fun h => h.elim id (a4 op)⟩, hc⟩
  · rw [h2]
    have hno : ¬ HasTime env cat k sp := by
      rintro ⟨ev', st', p', i, b1, b2, b3, b4⟩
      rw [he] at b1; cases b1
      rw [hst] at b2; cases b2
      rw [hp] at b3; cases b3
      rw [h0] at b4; cases b4
    exact ⟨by simp [hno], fun op => ⟨.inl, fun h => h.elim id (fun hg => absurd hg.time hno)⟩, hc⟩

theorem exists_done {α : Type} {P : α → Prop} {l : List α} {x : α} : (∃ t ∈ l ++ [x], P t) ↔ (∃ t ∈ l, P t) ∨ P x := by
  simp only [List.mem_append, List.mem_singleton, or_and_right, exists_or, exists_eq_left]

/-- the calls after the pairs `done` -/
structure SetInv (env : Env K) (o : ObsOptions K) (cat : Catalog K) (xc : XCorr.Cache) (refEv : Event K)
    (ops0 : List (SolverOp K)) (done : List (StaPhase × Nat)) (s : ObsState K) : Prop where
  mem : ∀ op, op ∈ s.ops ↔ op ∈ ops0 ∨ ∃ t ∈ done, Called env o cat xc refEv.id t op
  cons : Consistent env cat s.ops
  sep : NoSeparator s.ops
  ref : ∀ rp, s.refPhase = some rp → (s.tttError = false ↔ HasTime env cat refEv.id (rp.stationId, rp.type)) ∧
    ∃ t ∈ done, t.1 = (rp.stationId, rp.type)
  avail : 0 < s.available ↔ ∃ t ∈ done, HasTime env cat refEv.id t.1
  att : s.attempted = 0 ↔ done = []

/-- consistency is kept by observations -/
theorem consistent_obs {env : Env K} {cat : Catalog K} {ops : List (SolverOp K)} (h : Consistent env cat ops) (x : ObsArg K) :
    Consistent env cat (ops ++ [.obs x]) := by
  intro q hq
  simp only [List.mem_append, List.mem_singleton, reduceCtorEq, or_false] at hq
  obtain ⟨sp, a1, a2, a3, a4⟩ := h q hq
  exact ⟨sp, a1, a2, a3, fun op hop => List.mem_append_left _ (a4 op hop)⟩

theorem obsStep_set {env : Env K} {o : ObsOptions K} (hkeep : o.keepNeighboursFixed = false) {cat : Catalog K} (hw : cat.WF)
    (hna : NoAt cat) {xc : XCorr.Cache}
    {nb : Neighbours} {refEv : Event K} (hev : cat.events.find? nb.refId = some refEv)
    {ops0 : List (SolverOp K)} (h0 : NoSeparator ops0) {done : List (StaPhase × Nat)} {t : StaPhase × Nat} (ht : t ∈ nb.phases)
    {s s' : ObsState K} (hi : ObsInv env o cat xc nb refEv ops0 done s)
    (hfit : 2 * (ops0.length + 7 * (done.length + 1)) ≤ IdToIndex.uintMod)
    (hc : SetInv env o cat xc refEv ops0 done s) (h : obsStep env o cat xc refEv s t = .ok s') :
    SetInv env o cat xc refEv ops0 (done ++ [t]) s' := by
  have hi2 := obsStep_inv hw hev ht hi h
  have hsep' : NoSeparator s'.ops := by
    obtain ⟨new, e, g⟩ := hi2.new
    rw [e]; exact goodOp_noAt hna h0 g
  have hlen' := hi2.len
  rw [List.length_append, List.length_singleton] at hlen'
  have hev' : cat.events.find? refEv.id = some refEv := by rw [(hw.eventKey _ _ hev).1]; exact hev
  unfold obsStep at h
  rw [Outcome.bind_eq_ok] at h
  obtain ⟨st, h1, h⟩ := h
  rw [Outcome.bind_eq_ok] at h
  obtain ⟨⟨s1, rp⟩, h2, h3⟩ := h
  simp only at h3
  obtain ⟨hst, hid⟩ := currentStation_ok hw hi.station h1
  have hi' : ObsInv env o cat xc nb refEv ops0 done { s with station := some st } := by
    refine ⟨?_, hi.ref, hi.error, hi.new, hi.len, hi.attempted, hi.none, hi.failed, hi.succeeded, hi.complete⟩
    intro st' hst'
    simp only [Option.some.injEq] at hst'
    subst hst'
    rw [hid]; exact hst
  have hr := refStep_inv hev hst hid hi' h2
  have hsp : (rp.stationId, rp.type) = t.1 := Prod.ext hr.pick.2.1 hr.pick.2.2
  have hrp : searchPhase cat refEv.id t.1 = some rp := by rw [← hsp]; exact hr.search
  have hsep1 : NoSeparator s1.ops := by
    obtain ⟨new2, e2, _⟩ := (neighStep_inv hst ht hr.refPhase hr.pick h3).new
    exact NoSeparator.prefix hsep' ⟨new2, e2.symm⟩
  -- after the reference phase
  have hc1 : (∀ op, op ∈ s1.ops ↔ (op ∈ ops0 ∨ ∃ t ∈ done, Called env o cat xc refEv.id t op) ∨ Given env cat refEv.id t.1 op) ∧
      Consistent env cat s1.ops ∧ (s1.tttError = false ↔ HasTime env cat refEv.id t.1) ∧
      (0 < s1.available ↔ (∃ t ∈ done, HasTime env cat refEv.id t.1) ∨ HasTime env cat refEv.id t.1) ∧ s1.attempted ≠ 0 := by
    unfold refStep at h2
    split at h2
    · rename_i p hp hsame
      simp only [Outcome.ok.injEq, Prod.mk.injEq] at h2
      obtain ⟨rfl, rfl⟩ := h2
      obtain ⟨r1, t', r2, r3⟩ := hc.ref p hp
      rw [hsp] at r1 r3
      refine ⟨fun op => ?_, hc.cons, r1, ?_, ?_⟩
      · show op ∈ s.ops ↔ _
        rw [hc.mem]
        exact ⟨.inl, fun h => h.elim id (fun hg => .inr ⟨t', r2, .inl (by rw [r3]; exact hg)⟩)⟩
      · show 0 < s.available ↔ _
        rw [hc.avail]
        exact ⟨.inl, fun h => h.elim id (fun hg => ⟨t', r2, by rw [r3]; exact hg⟩)⟩
      · show s.attempted ≠ 0
        rw [Ne, hc.att]
        rintro rfl; simp at r2
    · split at h2
      · cases h2
      · rename_i p hp
        simp only [Outcome.ok.injEq, Prod.mk.injEq] at h2
        obtain ⟨hs1, rfl⟩ := h2
        have hfits : Fits s.ops := by have := hi.len; unfold Fits; omega
        obtain ⟨a1, a2, a3⟩ := addParams_set (env := env) hw hna hfits hc.sep hc.cons hev' hst hrp
        subst hs1
        refine ⟨fun op => ?_, a3, ?_, ?_, Nat.succ_ne_zero _⟩
        · show op ∈ (addParams env s.ops refEv st p true).1 ↔ _
          rw [a2, hc.mem]
        · rw [← a1]
          show (!(addParams env s.ops refEv st p true).2) = false ↔ _
          simp
        · rw [← a1, ← hc.avail]
          show 0 < (if (addParams env s.ops refEv st p true).2 then s.available + 1 else s.available) ↔ _
          split
          · rename_i hb; simp [hb]
          · rename_i hb; simp [hb]
  obtain ⟨c1, c2, c3, c4, c5⟩ := hc1
  have hfits1 : Fits s1.ops := by
    obtain ⟨new2, e2, _⟩ := (neighStep_inv hst ht hr.refPhase hr.pick h3).new
    have : s1.ops.length ≤ s'.ops.length := by rw [e2]; simp
    unfold Fits; omega
  -- the rest of the state
  obtain ⟨⟨k1, k2, k3, k4, k5⟩, -, -, -⟩ := neighStep_inv hst ht hr.refPhase hr.pick h3
  have hfinish : (∀ op, op ∈ s'.ops ↔ op ∈ s1.ops ∨ (HasTime env cat refEv.id t.1 ∧ Given env cat t.2 t.1 op) ∨
      PairCall env o cat xc refEv.id t op) → Consistent env cat s'.ops → SetInv env o cat xc refEv ops0 (done ++ [t]) s' := by
    intro hm hcs
    refine ⟨fun op => ?_, hcs, hsep', ?_, ?_, ?_⟩
    · rw [hm, c1]
      rw [exists_done]
      simp only [Called, or_assoc]
    · intro rp' hrp'
      rw [k1, hr.refPhase] at hrp'
      cases hrp'
      rw [k2, hsp]
      exact ⟨c3, t, by simp, rfl⟩
    · rw [k4, c4]
      rw [exists_done]
    · rw [k3]
      simp [c5]
  unfold neighStep at h3
  by_cases he : s1.tttError = true
  · rw [if_pos he] at h3
    simp only [Outcome.ok.injEq] at h3
    subst h3
    have hno : ¬ HasTime env cat refEv.id t.1 := by rw [← c3, he]; simp
    refine hfinish (fun op => ⟨.inl, fun h => ?_⟩) c2
    rcases h with h | ⟨h, -⟩ | ⟨_, _, _, _, _, _, _, _, _, h, -⟩
    · exact h
    · exact absurd h hno
    · exact absurd ⟨_, _, _, _, h⟩ hno
  · rw [if_neg he] at h3
    have hyes : HasTime env cat refEv.id t.1 := by rw [← c3]; simpa using he
    cases hm : o.minCoef rp.procType with
    | none => rw [hm] at h3; simp at h3
    | some mc =>
      cases hnev : cat.events.find? t.2 with
      | none => rw [hm, hnev] at h3; simp at h3
      | some ev =>
        rw [hm, hnev] at h3
        simp only at h3
        cases hp : searchPhase cat ev.id t.1 with
        | none => rw [hp] at h3; simp at h3
        | some p =>
          rw [hp, hkeep] at h3
          simp only [Bool.not_false] at h3
          obtain ⟨a1, a2, a3⟩ := addParams_set (env := env) hw hna hfits1 hsep1 c2 hnev hst hp
          have hplain : s' = { s1 with ops := (addParams env s1.ops ev st p true).1 } →
              (∀ op, ¬ PairCall env o cat xc refEv.id t op) → SetInv env o cat xc refEv ops0 (done ++ [t]) s' := by
            intro hs hno
            subst hs
            refine hfinish (fun op => ?_) a3
            rw [a2]
            simp only [hyes, true_and, hno, or_false]
          have hpair : ∀ op, PairCall env o cat xc refEv.id t op → HasTime env cat t.2 t.1 ∧ 0 ≤ rp.time - refEv.time ∧
              0 ≤ p.time - ev.time ∧ op = .obs (observation o xc mc refEv ev t.1 rp p) := by
            rintro op ⟨refEv', st', rp', i, ev', st'', p', i', mc', b1, b2, b3, b4, b5, b6⟩
            have := b1.event; rw [hev'] at this; cases this
            have := b1.pick; rw [hrp] at this; cases this
            have := b2.event; rw [hnev] at this; cases this
            have := b2.pick; rw [hp] at this; cases this
            rw [hm] at b3; cases b3
            exact ⟨⟨_, _, _, _, b2⟩, b4, b5, b6⟩
          by_cases hr2 : (addParams env s1.ops ev st p true).2 = false
          · rw [if_pos hr2] at h3
            simp only [Outcome.ok.injEq] at h3
            refine hplain h3.symm (fun op hop => ?_)
            have := a1.2 (hpair op hop).1
            rw [hr2] at this; cases this
          · rw [if_neg hr2] at h3
            by_cases hneg : rp.time - refEv.time < 0
            · rw [if_pos hneg] at h3
              simp only [Outcome.ok.injEq] at h3
              refine hplain h3.symm (fun op hop => ?_)
              have := (hpair op hop).2.1
              omega
            · rw [if_neg hneg] at h3
              by_cases hneg' : p.time - ev.time < 0
              · rw [if_pos hneg'] at h3
                simp only [Outcome.ok.injEq] at h3
                refine hplain h3.symm (fun op hop => ?_)
                have := (hpair op hop).2.2.1
                omega
              · rw [if_neg hneg'] at h3
                simp only [Outcome.ok.injEq] at h3
                have eops : s'.ops = (addParams env s1.ops ev st p true).1 ++ [.obs (observation o xc mc refEv ev t.1 rp p)] := by rw [← h3]
                have htn : HasTime env cat t.2 t.1 := a1.1 (by simpa using hr2)
                refine hfinish (fun op => ?_) (by rw [eops]; exact consistent_obs a3 _)
                rw [eops, List.mem_append, a2, List.mem_singleton]
                constructor
                · rintro ((h | h) | rfl)
                  · exact .inl h
                  · exact .inr (.inl ⟨hyes, h⟩)
                  · right; right
                    obtain ⟨e1, s2, p1, i1, b1⟩ := hyes
                    obtain ⟨e2, s3, p2, i2, b2⟩ := htn
                    have := b1.event; rw [hev'] at this; cases this
                    have := b1.pick; rw [hrp] at this; cases this
                    have := b2.event; rw [hnev] at this; cases this
                    have := b2.pick; rw [hp] at this; cases this
                    exact ⟨_, _, _, _, _, _, _, _, mc, b1, b2, hm, by omega, by omega, rfl⟩
                · rintro (h | ⟨-, h⟩ | h)
                  · exact .inl (.inl h)
                  · exact .inl (.inr h)
                  · exact .inr (hpair op h).2.2.2

/-- what `addObservations` does -/
theorem addObservations_set {env : Env K} {o : ObsOptions K} (hkeep : o.keepNeighboursFixed = false) {cat : Catalog K} (hw : cat.WF)
    (hna : NoAt cat) {xc : XCorr.Cache} {nb : Neighbours} {ops0 ops : List (SolverOp K)} {b : Bool}
    (hfit : 2 * (ops0.length + 7 * nb.phases.length) ≤ IdToIndex.uintMod) (h0 : NoSeparator ops0) (hc : Consistent env cat ops0)
    (h : addObservations env o cat xc nb ops0 = .ok (ops, b)) :
    (∀ op, op ∈ ops ↔ op ∈ ops0 ∨ ∃ t ∈ nb.phases, Called env o cat xc nb.refId t op) ∧ Consistent env cat ops ∧
    (b = true ↔ nb.phases = [] ∨ ∃ t ∈ nb.phases, HasTime env cat nb.refId t.1) := by
  unfold addObservations at h
  rw [Outcome.bind_eq_ok] at h
  obtain ⟨refEv, h1, h⟩ := h
  rw [Outcome.bind_eq_ok] at h
  obtain ⟨s, h2, h3⟩ := h
  rw [Outcome.ofOption_eq_ok] at h1
  simp only [Outcome.ok.injEq, Prod.mk.injEq] at h3
  have hl : (nb.phases.insertionSort tupleLe).length = nb.phases.length := List.length_insertionSort ..
  suffices H : ∀ (rest done : List (StaPhase × Nat)) (t : ObsState K), done ++ rest = nb.phases.insertionSort tupleLe →
      ObsInv env o cat xc nb refEv ops0 done t → SetInv env o cat xc refEv ops0 done t →
      rest.foldlM (obsStep env o cat xc refEv) t = .ok s → SetInv env o cat xc refEv ops0 (nb.phases.insertionSort tupleLe) s by
    have := H _ [] _ (by simp) ?_ ?_ h2
    · obtain ⟨m1, m2, -, -, m5, m6⟩ := this
      rw [(hw.eventKey _ _ h1).1] at m1 m5
      simp only [List.mem_insertionSort] at m1 m5
      rw [← h3.1, ← h3.2]
      refine ⟨m1, m2, ?_⟩
      rw [decide_eq_true_iff, m6, ← m5, ← List.length_eq_zero_iff, hl, List.length_eq_zero_iff]
    · refine ⟨by simp, by simp, by simp, ⟨[], by simp, by simp⟩, by simp, by simp, by simp, by simp, by simp, by simp⟩
    · exact ⟨by simp, hc, h0, by simp, by simp, by simp⟩
  intro rest
  induction rest with
  | nil =>
    intro done t hd _ hci h
    simp only [List.foldlM_nil, Outcome.pure_eq, Outcome.ok.injEq] at h
    rw [List.append_nil] at hd
    rw [← h, ← hd]; exact hci
  | cons x rest ih =>
    intro done t hd hi hci h
    rw [List.foldlM_cons, Outcome.bind_eq_ok] at h
    obtain ⟨t', g1, g2⟩ := h
    have hx : x ∈ nb.phases := by
      rw [← List.mem_insertionSort tupleLe, ← hd]; simp
    have hdl : done.length + 1 ≤ nb.phases.length := by
      rw [← hl, ← hd]; simp
    exact ih (done ++ [x]) t' (by simpa using hd) (obsStep_inv hw h1 hx hi g1)
      (obsStep_set hkeep hw hna h1 h0 hx hi (by omega) hci g1) g2

end Verif.Relocate

namespace Verif.Relocate
open Verif.Catalog Verif.Solver

variable {K : Type} [Field K] [LinearOrder K]

/-! ## over the cluster -/

/-- the event of an entry of the cluster is not restored -/
def Stays (env : Env K) (prev cur : Catalog K) (kv : Nat × Neighbours) : Prop :=
  isEmpty prev = true ∨ (∀ ev, cur.events.find? kv.1 = some ev → ev.isRelocated = false) ∨ kv.2.phases = [] ∨
    ∃ t ∈ kv.2.phases, HasTime env cur kv.2.refId t.1

theorem observeStep_set {env : Env K} {o : ObsOptions K} (hkeep : o.keepNeighboursFixed = false) {xc : XCorr.Cache} {prev cur : Catalog K}
    (hw : cur.WF) (hna : NoAt cur) {kv : Nat × Neighbours} {s s' : ObserveState K} (hcur : s.cur = cur)
    (hfit : 2 * (s.ops.length + 7 * kv.2.phases.length) ≤ IdToIndex.uintMod) (h0 : NoSeparator s.ops) (hc : Consistent env cur s.ops)
    (h : observeStep env o xc prev s kv = .ok s') :
    (Stays env prev cur kv ∧ s'.cur = cur ∧ s'.reverted = s.reverted ∧
      (∀ op, op ∈ s'.ops ↔ op ∈ s.ops ∨ ∃ t ∈ kv.2.phases, Called env o cur xc kv.2.refId t op) ∧ Consistent env cur s'.ops ∧
      NoSeparator s'.ops ∧ s'.ops.length ≤ s.ops.length + 7 * kv.2.phases.length) ∨
    (¬ Stays env prev cur kv ∧ s'.reverted = s.reverted ++ [kv.1]) := by
  unfold observeStep at h
  rw [Outcome.bind_eq_ok] at h
  obtain ⟨⟨ops, b⟩, g1, g⟩ := h
  simp only at g
  rw [hcur] at g1 g
  obtain ⟨m1, m2, m3⟩ := addObservations_set hkeep hw hna hfit h0 hc g1
  obtain ⟨refEv, ha⟩ := addObservations_added hw g1
  obtain ⟨new, hnew, hgood⟩ := ha.new
  have hsep : NoSeparator ops := by rw [hnew]; exact goodOp_noAt hna h0 hgood
  by_cases hb : (b || isEmpty prev) = true
  · rw [if_pos hb] at g
    simp only [Outcome.ok.injEq] at g
    subst g
    refine .inl ⟨?_, rfl, rfl, m1, m2, hsep, ha.len⟩
    rcases Bool.or_eq_true_iff.1 hb with hb | hb
    · exact .inr (.inr (m3.1 hb))
    · exact .inl hb
  · rw [if_neg hb] at g
    rw [Outcome.bind_eq_ok] at g
    obtain ⟨ev, g2, g⟩ := g
    rw [Outcome.ofOption_eq_ok] at g2
    rw [Bool.or_eq_true_iff, not_or] at hb
    by_cases hr : ev.isRelocated = true
    · rw [if_pos hr] at g
      right
      cases hx : (cur.removeEvent kv.1).addFrom kv.1 prev true with
      | mk c r =>
        rw [hx] at g
        cases r with
        | throws => simp at g
        | ub => simp at g
        | ok u =>
          simp only at g
          rw [Outcome.bind_eq_ok] at g
          obtain ⟨⟨ops2, b2⟩, g3, g4⟩ := g
          simp only [Outcome.ok.injEq] at g4
          subst g4
          refine ⟨?_, rfl⟩
          rintro (h | h | h)
          · exact hb.2 h
          · rw [h ev g2] at hr; cases hr
          · exact hb.1 (m3.2 h)
    · rw [if_neg hr] at g
      simp only [Outcome.ok.injEq] at g
      subst g
      refine .inl ⟨.inr (.inl ?_), rfl, rfl, m1, m2, hsep, ha.len⟩
      intro ev' hev'
      rw [g2] at hev'; cases hev'
      simpa using hr

theorem observe_fold {env : Env K} {o : ObsOptions K} (hkeep : o.keepNeighboursFixed = false) {xc : XCorr.Cache} {prev cur : Catalog K}
    (hw : cur.WF) (hna : NoAt cur) (rest : Cluster) {s s' : ObserveState K} (hcur : s.cur = cur)
    (hfit : 2 * (s.ops.length + 7 * (rest.map (·.2.phases.length)).sum) ≤ IdToIndex.uintMod) (h0 : NoSeparator s.ops)
    (hc : Consistent env cur s.ops) (h : rest.foldlM (observeStep env o xc prev) s = .ok s') :
    s.reverted.length ≤ s'.reverted.length ∧
    ((∀ kv ∈ rest, Stays env prev cur kv) ↔ s'.reverted = s.reverted) ∧
    ((∀ kv ∈ rest, Stays env prev cur kv) → s'.cur = cur ∧ Consistent env cur s'.ops ∧
      ∀ op, op ∈ s'.ops ↔ op ∈ s.ops ∨ ∃ kv ∈ rest, ∃ t ∈ kv.2.phases, Called env o cur xc kv.2.refId t op) := by
  induction rest generalizing s with
  | nil =>
    simp only [List.foldlM_nil, Outcome.pure_eq, Outcome.ok.injEq] at h
    subst h
    exact ⟨le_refl _, by simp, fun _ => ⟨hcur, hc, by simp⟩⟩
  | cons kv rest ih =>
    rw [List.foldlM_cons, Outcome.bind_eq_ok] at h
    obtain ⟨t, h1, h2⟩ := h
    simp only [List.map_cons, List.sum_cons] at hfit
    rcases observeStep_set hkeep hw hna hcur (by omega) h0 hc h1 with ⟨a1, a2, a3, a4, a5, a6, a7⟩ | ⟨a1, a2⟩
    · obtain ⟨b1, b2, b3⟩ := ih a2 (by omega) a6 a5 h2
      rw [a3] at b1 b2
      refine ⟨b1, ?_, fun hall => ?_⟩
      · rw [← b2]; simp [a1]
      · obtain ⟨c1, c2, c3⟩ := b3 (fun kv' hkv' => hall kv' (List.mem_cons_of_mem _ hkv'))
        refine ⟨c1, c2, fun op => ?_⟩
        rw [c3, a4]
        simp only [List.mem_cons, or_and_right, exists_or, exists_eq_left, or_assoc]
    · have hmono : ∀ (l : Cluster) (x y : ObserveState K), l.foldlM (observeStep env o xc prev) x = .ok y →
          x.reverted.length ≤ y.reverted.length := by
        intro l
        induction l with
        | nil => intro x y h; simp only [List.foldlM_nil, Outcome.pure_eq, Outcome.ok.injEq] at h; rw [h]
        | cons kv l ihl =>
          intro x y h
          rw [List.foldlM_cons, Outcome.bind_eq_ok] at h
          obtain ⟨z, h3, h4⟩ := h
          refine le_trans ?_ (ihl z y h4)
          unfold observeStep at h3
          rw [Outcome.bind_eq_ok] at h3
          obtain ⟨⟨ops, b⟩, -, g⟩ := h3
          simp only at g
          split at g
          · simp only [Outcome.ok.injEq] at g; rw [← g]
          · rw [Outcome.bind_eq_ok] at g
            obtain ⟨ev, -, g⟩ := g
            split at g
            · split at g
              · rw [Outcome.bind_eq_ok] at g
                obtain ⟨⟨ops2, b2⟩, -, g4⟩ := g
                simp only [Outcome.ok.injEq] at g4
                rw [← g4]; simp
              · cases g
              · cases g
            · simp only [Outcome.ok.injEq] at g; rw [← g]
      have hl := hmono rest t s' h2
      rw [a2, List.length_append, List.length_singleton] at hl
      refine ⟨by omega, ?_, fun hall => absurd (hall kv (by simp)) a1⟩
      constructor
      · intro hall; exact absurd (hall kv (by simp)) a1
      · intro he; rw [he] at hl; omega

/-- the calls of an iteration in which no event is restored -/
theorem observe_set {env : Env K} {o : ObsOptions K} (hkeep : o.keepNeighboursFixed = false) {xc : XCorr.Cache} {prev cur : Catalog K}
    (hw : cur.WF) (hna : NoAt cur) {cluster : Cluster} (hfit : 28 * (cluster.map (·.2.phases.length)).sum ≤ IdToIndex.uintMod)
    {s : ObserveState K} (h : observe env o xc cluster prev cur = .ok s) :
    ((∀ kv ∈ cluster, Stays env prev cur kv) ↔ s.reverted = []) ∧
    (s.reverted = [] → s.cur = cur ∧ Consistent env cur s.ops ∧
      ∀ op, op ∈ s.ops ↔ ∃ kv ∈ cluster, ∃ t ∈ kv.2.phases, Called env o cur xc kv.2.refId t op) := by
  unfold observe at h
  obtain ⟨-, h2, h3⟩ := observe_fold hkeep hw hna cluster (s := ⟨cur, [], []⟩) rfl (by simp; omega) (by simp [NoSeparator, obsOf, parOf])
    (by intro q hq; simp at hq) h
  refine ⟨h2, fun hr => ?_⟩
  obtain ⟨a, b, c⟩ := h3 (h2.2 hr)
  exact ⟨a, b, fun op => by rw [c]; simp⟩

/-! ## the same data -/

theorem SameCatalog.symm {c c' : Catalog K} (h : SameCatalog c c') : SameCatalog c' c :=
  ⟨fun k => (h.events k).symm, fun k => (h.stations k).symm, fun k => (h.phases k).symm⟩

theorem SameCluster.symm {c c' : Cluster} (h : SameCluster c c') : SameCluster c' c := by
  constructor
  · intro kv hkv; obtain ⟨a, b, c, d⟩ := h.back kv hkv; exact ⟨a, b, c.symm, d.symm⟩
  · intro kv hkv; obtain ⟨a, b, c, d⟩ := h.forth kv hkv; exact ⟨a, b, c.symm, d.symm⟩

theorem SameCatalog.timed {env : Env K} {c c' : Catalog K} (h : SameCatalog c c') {k : Nat} {sp : StaPhase} {ev : Event K} {st : Station K}
    {p : Phase K} {i : TravelTimeInfo K} (ht : Timed env c k sp ev st p i) : Timed env c' k sp ev st p i := by
  obtain ⟨a, b, d, e⟩ := ht
  refine ⟨by rw [← h.events]; exact a, by rw [← h.stations]; exact b, ?_, e⟩
  unfold searchPhase at *
  rw [← h.phases]; exact d

theorem SameCatalog.timed_iff {env : Env K} {c c' : Catalog K} (h : SameCatalog c c') : Timed env c = Timed env c' := by
  funext k sp ev st p i
  exact propext ⟨h.timed, h.symm.timed⟩

theorem SameCatalog.hasTime {env : Env K} {c c' : Catalog K} (h : SameCatalog c c') : HasTime env c = HasTime env c' := by
  unfold HasTime; rw [h.timed_iff]

theorem SameCatalog.called {env : Env K} {o : ObsOptions K} {xc : XCorr.Cache} {c c' : Catalog K} (h : SameCatalog c c') :
    Called env o c xc = Called env o c' xc := by
  unfold Called PairCall Given; rw [h.timed_iff, h.hasTime]

theorem AMap.isEmpty_iff_find {κ V : Type} [DecidableEq κ] (m : AMap κ V) : List.isEmpty m = true ↔ ∀ k, AMap.find? m k = none := by
  rw [List.isEmpty_iff]
  cases m with
  | nil => simp [AMap.find?]
  | cons x l =>
    simp only [reduceCtorEq, false_iff, not_forall]
    exact ⟨x.1, by rw [AMap.find?_cons, if_pos rfl]; simp⟩

theorem phases_empty_iff {c : Catalog K} : c.phases.isEmpty = true ↔ ∀ k, c.phasesOf k = [] := by
  rw [List.isEmpty_iff, List.eq_nil_iff_forall_not_mem]
  constructor
  · intro h k
    rw [List.eq_nil_iff_forall_not_mem]
    exact fun p hp => h _ (Catalog.mem_phasesOf.1 hp)
  · intro h kp hkp
    have : kp.2 ∈ c.phasesOf kp.1 := Catalog.mem_phasesOf.2 hkp
    rw [h] at this
    simp at this

theorem SameCatalog.isEmpty {c c' : Catalog K} (h : SameCatalog c c') : Relocate.isEmpty c = Relocate.isEmpty c' := by
  unfold Relocate.isEmpty
  rw [Bool.eq_iff_iff]
  rw [Bool.and_eq_true, Bool.and_eq_true, Bool.and_eq_true, Bool.and_eq_true, phases_empty_iff, phases_empty_iff,
    AMap.isEmpty_iff_find c.events, AMap.isEmpty_iff_find c'.events, AMap.isEmpty_iff_find c.stations, AMap.isEmpty_iff_find c'.stations]
  simp only [h.events, h.stations, h.phases]

theorem SameCatalog.stays {env : Env K} {prev prev' cur cur' : Catalog K} (hp : SameCatalog prev prev') (hc : SameCatalog cur cur')
    {kv kv' : Nat × Neighbours} (h1 : kv'.1 = kv.1) (h2 : kv'.2.refId = kv.2.refId) (h3 : kv'.2.phases.Perm kv.2.phases) :
    Stays env prev cur kv ↔ Stays env prev' cur' kv' := by
  unfold Stays
  rw [hp.isEmpty, hc.hasTime, h1, h2]
  simp only [hc.events, h3.mem_iff]
  rw [← List.length_eq_zero_iff, ← List.length_eq_zero_iff, h3.length_eq]

/-- the calls cannot be mistaken for one another -/
theorem unambiguous_of {env : Env K} {o : ObsOptions K} {xc : XCorr.Cache} {cur : Catalog K} (hw : cur.WF) {cluster : Cluster}
    {ops : List (SolverOp K)} (h : ∀ op, op ∈ ops ↔ ∃ kv ∈ cluster, ∃ t ∈ kv.2.phases, Called env o cur xc kv.2.refId t op)
    (hc : Consistent env cur ops) : Unambiguous ops := by
  constructor
  · have key : ∀ x : ObsArg K, .obs x ∈ ops → ∃ sp : StaPhase, x.sta = sp.1.toList ∧ x.phase = sp.2.toList ∧
        PairCall env o cur xc x.e1 (sp, x.e2) (.obs x) := by
      intro x hx
      obtain ⟨kv, -, t, -, hw'⟩ := (h _).1 hx
      rcases hw' with ⟨_, _, _, _, -, h1⟩ | ⟨-, _, _, _, _, -, h1⟩ | ⟨refEv, st, rp, i, ev, st', p, i', mc, b1, b2, b3, b4, b5, b6⟩
      · simp [paramCalls] at h1
      · simp [paramCalls] at h1
      · have hx' : x = observation o xc mc refEv ev t.1 rp p := by injection b6
        obtain ⟨i1, i2, i3, i4⟩ := observation_ids o xc mc refEv ev t.1 rp p
        rw [← hx'] at i1 i2 i3 i4
        refine ⟨t.1, i3, i4, ?_⟩
        rw [i1, i2, (hw.eventKey _ _ b1.event).1, (hw.eventKey _ _ b2.event).1]
        exact ⟨refEv, st, rp, i, ev, st', p, i', mc, b1, b2, b3, b4, b5, b6⟩
    intro x x' hx hx' e1 e2 e3 e4
    obtain ⟨sp, a1, a2, refEv, st, rp, i, ev, st', p, i', mc, b1, b2, b3, b4, b5, b6⟩ := key x hx
    obtain ⟨sp', a1', a2', refEv', st2, rp', i2, ev', st2', p', i2', mc', c1, c2, c3, c4, c5, c6⟩ := key x' hx'
    have hsp : sp' = sp := by
      apply Prod.ext
      · apply String.ext; rw [← a1, ← a1', e3]
      · apply String.ext; rw [← a2, ← a2', e4]
    subst hsp
    rw [← e1] at c1
    rw [← e2] at c2
    obtain ⟨rfl, rfl, rfl, rfl⟩ := b1.unique c1
    obtain ⟨rfl, rfl, rfl, rfl⟩ := b2.unique c2
    rw [b3] at c3; cases c3
    rw [← c6] at b6
    injection b6
  · intro q q' hq hq' e1 e2 e3
    obtain ⟨sp, a1, a2, ⟨ev, st, p, i, b1, b2⟩, -⟩ := hc q hq
    obtain ⟨sp', a1', a2', ⟨ev', st', p', i', c1, c2⟩, -⟩ := hc q' hq'
    have hsp : sp' = sp := by
      apply Prod.ext
      · apply String.ext; rw [← a1, ← a1', e2]
      · apply String.ext; rw [← a2, ← a2', e3]
    subst hsp
    rw [← e1] at c1
    obtain ⟨rfl, rfl, rfl, rfl⟩ := b1.unique c1
    simp [paramCalls] at b2 c2
    rw [b2, c2]

/-- both orders: no event is restored, and the same calls are made -/
theorem observe_same {env : Env K} {o : ObsOptions K} (hkeep : o.keepNeighboursFixed = false) {xc : XCorr.Cache}
    {prev prev' cur cur' : Catalog K} (hp : SameCatalog prev prev') (hcc : SameCatalog cur cur') (hw : cur.WF) (hw' : cur'.WF)
    (hna : NoAt cur) (hna' : NoAt cur') {cluster cluster' : Cluster} (hg : GoodCluster cluster) (hg' : GoodCluster cluster')
    (hcl : SameCluster cluster cluster')
    (hfit : 28 * (cluster.map (·.2.phases.length)).sum ≤ IdToIndex.uintMod)
    (hfit' : 28 * (cluster'.map (·.2.phases.length)).sum ≤ IdToIndex.uintMod)
    {s s' : ObserveState K} (h : observe env o xc cluster prev cur = .ok s) (h' : observe env o xc cluster' prev' cur' = .ok s')
    (hr : s.reverted = []) :
    s.cur = cur ∧ s'.cur = cur' ∧ s'.reverted = [] ∧ SameCalls s.ops s'.ops ∧ Unambiguous s.ops := by
  obtain ⟨a1, a2⟩ := observe_set hkeep hw hna hfit h
  obtain ⟨b1, b2⟩ := observe_set hkeep hw' hna' hfit' h'
  have href : ∀ kv ∈ cluster, ∀ kv' ∈ cluster', kv'.1 = kv.1 → kv'.2.refId = kv.2.refId := by
    intro kv h1 kv' h2 e
    rw [hg.key kv h1, hg'.key kv' h2, e]
  have hr' : s'.reverted = [] := by
    rw [← b1]
    intro kv' hkv'
    obtain ⟨kv, e1, e2, e3⟩ := hcl.back kv' hkv'
    exact (SameCatalog.stays hp hcc e2 (href kv e1 kv' hkv' e2) e3).1 (a1.2 hr kv e1)
  obtain ⟨c1, c2, c3⟩ := a2 hr
  obtain ⟨d1, d2, d3⟩ := b2 hr'
  refine ⟨c1, d1, hr', fun op => ?_, unambiguous_of hw c3 c2⟩
  rw [c3, d3, hcc.called]
  constructor
  · rintro ⟨kv, hkv, t, ht, hwant⟩
    obtain ⟨kv', e1, e2, e3⟩ := hcl.forth kv hkv
    exact ⟨kv', e1, t, e3.mem_iff.2 ht, by rw [href kv hkv kv' e1 e2]; exact hwant⟩
  · rintro ⟨kv', hkv', t, ht, hwant⟩
    obtain ⟨kv, e1, e2, e3⟩ := hcl.back kv' hkv'
    exact ⟨kv, e1, t, e3.mem_iff.1 ht, by rw [← href kv e1 kv' hkv' e2]; exact hwant⟩

end Verif.Relocate
