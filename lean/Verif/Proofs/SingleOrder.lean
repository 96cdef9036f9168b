import Verif.Spec.SingleOrder
import Verif.Proofs.RunOrder
import Verif.Proofs.ClusterAlike
import Verif.Proofs.RelocateTop

/-! Helper lemmas for C131: relocations with the same data stored in another order. -/

set_option linter.unusedSectionVars false
set_option linter.unusedSimpArgs false

namespace Verif.Relocate
open Verif.Catalog Verif.Catalog.Catalog Verif.Solver Verif.XCorr

variable {K : Type} [Field K] [LinearOrder K]

/-- both fail the same way, or both return and the results are related -/
inductive Both {α β : Type} (R : α → β → Prop) : Outcome α → Outcome β → Prop
  | ok {a b} (h : R a b) : Both R (.ok a) (.ok b)
  | throws : Both R .throws .throws
  | ub : Both R .ub .ub

theorem Both.bind {α β α' β' : Type} {R : α → β → Prop} {S : α' → β' → Prop} {x : Outcome α} {y : Outcome β} {f : α → Outcome α'}
    {g : β → Outcome β'} (h : Both R x y) (hf : ∀ a b, R a b → Both S (f a) (g b)) : Both S (x >>= f) (y >>= g) := by
  cases h with
  | ok h => exact hf _ _ h
  | throws => exact .throws
  | ub => exact .ub

theorem Both.refl {α : Type} {R : α → α → Prop} (hR : ∀ a, R a a) (x : Outcome α) : Both R x x := by
  cases x with
  | ok a => exact .ok (hR a)
  | throws => exact .throws
  | ub => exact .ub

theorem Both.foldlM {S S' A A' : Type} {R : S → S' → Prop} {Q : A → A' → Prop} {f : S → A → Outcome S} {g : S' → A' → Outcome S'}
    (hstep : ∀ s s' a a', R s s' → Q a a' → Both R (f s a) (g s' a')) {l : List A} {l' : List A'} (hl : List.Forall₂ Q l l') :
    ∀ {s s'}, R s s' → Both R (l.foldlM f s) (l'.foldlM g s') := by
  induction hl with
  | nil => intro s s' h; exact .ok h
  | cons h1 _ ih =>
    intro s s' h
    rw [List.foldlM_cons, List.foldlM_cons]
    exact (hstep _ _ _ _ h h1).bind (fun a b hab => ih hab)

/-! ## catalogs -/

/-- the same content, the events stored once -/
structure Twin (c c' : Catalog K) : Prop where
  same : SameCatalog c c'
  keys : c.events.NodupKeys
  keys' : c'.events.NodupKeys

theorem Twin.init : Twin (Catalog.init : Catalog K) Catalog.init := ⟨SameCatalog.refl _, List.nodup_nil, List.nodup_nil⟩

theorem Twin.setEvent {c c' : Catalog K} (h : Twin c c') (k : Nat) (e : Event K) :
    Twin { c with events := c.events.set k e } { c' with events := c'.events.set k e } :=
  ⟨⟨fun i => by simp only [AMap.find?_set, h.same.events], h.same.stations, h.same.phases⟩, AMap.nodupKeys_set h.keys _ _,
    AMap.nodupKeys_set h.keys' _ _⟩

theorem Twin.removeEvent {c c' : Catalog K} (h : Twin c c') (k : Nat) : Twin (c.removeEvent k) (c'.removeEvent k) := by
  refine ⟨⟨fun i => ?_, h.same.stations, fun i => ?_⟩, AMap.nodupKeys_erase h.keys _, AMap.nodupKeys_erase h.keys' _⟩
  · simp only [Catalog.removeEvent, AMap.find?_erase, h.same.events]
  · have e : ∀ c : Catalog K, (c.removeEvent k).phasesOf i = if i = k then [] else c.phasesOf i := by
      intro c
      unfold Catalog.removeEvent Catalog.phasesOf
      simp only [List.filter_filter]
      split
      · rename_i hi
        subst hi
        simp
      · rename_i hi
        congr 1
        refine List.filter_congr (fun kp _ => ?_)
        by_cases hk : kp.1 = i
        · simp [hk, hi]
        · simp [hk]
    rw [e, e, h.same.phases]

theorem maxKey_twin {c c' : Catalog K} (h : SameCatalog c c') : c.maxKey = c'.maxKey := by
  have hk : ∀ i, i ∈ c.events.keys ↔ i ∈ c'.events.keys := by
    intro i
    rw [← AMap.find?_isSome, ← AMap.find?_isSome, h.events]
  have le : ∀ {c c' : Catalog K}, (∀ i, i ∈ c.events.keys → i ∈ c'.events.keys) → c.maxKey ≤ c'.maxKey := by
    intro c c' hk
    unfold Catalog.maxKey
    refine Catalog.foldl_max_le _ _ _ (Nat.zero_le _) (fun x hx => ?_)
    exact (Catalog.le_foldl_max _ _).2 _ (hk x hx)
  exact le_antisymm (le (fun i => (hk i).1)) (le (fun i => (hk i).2))

theorem Twin.addStation {c c' : Catalog K} (h : Twin c c') (s : Station K) : Twin (c.addStation s) (c'.addStation s) := by
  unfold Catalog.addStation
  simp only [h.same.stations]
  split
  · exact h
  · exact ⟨⟨h.same.events, fun i => by simp only [AMap.find?_set, h.same.stations], h.same.phases⟩, h.keys, h.keys'⟩

theorem Twin.addPhase {c c' : Catalog K} (h : Twin c c') (p : Phase K) : Twin (c.addPhase p) (c'.addPhase p) := by
  refine ⟨⟨h.same.events, h.same.stations, fun i => ?_⟩, h.keys, h.keys'⟩
  have := h.same.phases i
  unfold Catalog.addPhase Catalog.phasesOf at *
  simp only [List.filter_append, List.map_append, this]

theorem copyPhases_twin {sts sts' : AMap String (Station K)} (hs : ∀ s, sts.find? s = sts'.find? s) (n : Nat) (ps : List (Phase K)) :
    ∀ {c c' : Catalog K}, Twin c c' → Twin (copyPhases sts n c ps).1 (copyPhases sts' n c' ps).1 ∧
      (copyPhases sts n c ps).2 = (copyPhases sts' n c' ps).2 := by
  induction ps with
  | nil => intro c c' h; exact ⟨h, rfl⟩
  | cons p ps ih =>
    intro c c' h
    unfold copyPhases copyPhase
    rw [hs]
    cases sts'.find? p.stationId with
    | none => exact ⟨h, rfl⟩
    | some s => exact ih ((h.addStation s).addPhase _)

theorem addEvent_twin {r r' : Catalog K} (h : Twin r r') (e : Event K) (keep : Bool) :
    Twin (r.addEvent e keep).1 (r'.addEvent e keep).1 ∧ (r.addEvent e keep).2 = (r'.addEvent e keep).2 := by
  unfold Catalog.addEvent
  rw [h.same.events, maxKey_twin h.same]
  split
  · split
    · exact ⟨h, rfl⟩
    · exact ⟨h.setEvent _ _, rfl⟩
  · exact ⟨h.setEvent _ _, rfl⟩

theorem addFrom_twin {r r' c c' : Catalog K} (h : Twin r r') (hc : SameCatalog c c') (k : Nat) (keep : Bool) :
    Twin (r.addFrom k c keep).1 (r'.addFrom k c' keep).1 ∧ (r.addFrom k c keep).2 = (r'.addFrom k c' keep).2 := by
  rw [← addFrom_same hc]
  unfold addFrom
  cases hk : c.events.find? k with
  | none => exact ⟨h, rfl⟩
  | some e =>
    simp only
    obtain ⟨h1, h2⟩ := addEvent_twin h e keep
    revert h1 h2
    rcases r.addEvent e keep with ⟨x, o⟩
    rcases r'.addEvent e keep with ⟨x', o'⟩
    simp only
    rintro h1 rfl
    cases o with
    | throws => exact ⟨h1, rfl⟩
    | ub => exact ⟨h1, rfl⟩
    | ok n =>
      simp only
      obtain ⟨h3, h4⟩ := copyPhases_twin (sts := c.stations) (sts' := c.stations) (fun _ => rfl) n (c.phasesOf e.id) h1
      revert h3 h4
      rcases copyPhases c.stations n x (c.phasesOf e.id) with ⟨y, o⟩
      rcases copyPhases c.stations n x' (c.phasesOf e.id) with ⟨y', o'⟩
      simp only
      rintro h3 rfl
      cases o <;> exact ⟨h3, rfl⟩

theorem mapPhases_twin {c c' : Catalog K} (h : Twin c c') {evs evs' : AMap Nat (Event K)} (he : ∀ i, evs.find? i = evs'.find? i)
    (hk : evs.NodupKeys) (hk' : evs'.NodupKeys) (k : Nat) {f f' : Phase K → Phase K} (hf : ∀ p, f p = f' p) :
    Twin { c with events := evs, phases := c.phases.map (fun kp => if kp.1 = k then (kp.1, f kp.2) else kp) }
      { c' with events := evs', phases := c'.phases.map (fun kp => if kp.1 = k then (kp.1, f' kp.2) else kp) } := by
  obtain rfl : f = f' := funext hf
  refine ⟨⟨he, h.same.stations, fun i => ?_⟩, hk, hk'⟩
  have e : ∀ (l : List (Nat × Phase K)),
      ((l.map (fun kp => if kp.1 = k then (kp.1, f kp.2) else kp)).filter (fun kp => kp.1 = i)).map (·.2) =
        ((l.filter (fun kp => kp.1 = i)).map (·.2)).map (fun p => if i = k then f p else p) := by
    intro l
    induction l with
    | nil => rfl
    | cons kp l ih =>
      simp only [List.map_cons, List.filter_cons]
      by_cases h1 : kp.1 = k
      · by_cases h2 : kp.1 = i
        · have : i = k := h2.symm.trans h1
          simp only [if_pos h1, h2, decide_true, if_true, List.map_cons, ih, if_pos this]
        · simp only [if_pos h1, h2, decide_false, Bool.false_eq_true, if_false, ih]
      · by_cases h2 : kp.1 = i
        · have : i ≠ k := fun h => h1 (h2.trans h)
          simp only [if_neg h1, h2, decide_true, if_true, List.map_cons, ih, if_neg this]
        · simp only [if_neg h1, h2, decide_false, Bool.false_eq_true, if_false, ih]
  have := h.same.phases i
  unfold Catalog.phasesOf at *
  rw [e, e, this]

/-! ## the observations -/

theorem searchPhase_twin {c c' : Catalog K} (h : SameCatalog c c') (k : Nat) (sp : StaPhase) : searchPhase c k sp = searchPhase c' k sp := by
  unfold searchPhase
  rw [h.phases]

theorem obsStep_twin (env : Env K) (o : ObsOptions K) {c c' : Catalog K} (h : SameCatalog c c') {x y : Cache}
    (hx : ∀ a b s p, XCorr.get x a b s p = XCorr.get y a b s p) (refEv : Event K) :
    obsStep env o c x refEv = obsStep env o c' y refEv := by
  funext s t
  unfold obsStep neighStep refStep currentStation observation
  simp only [h.stations, h.events, searchPhase_twin h, xcorrEntry_get, hx]

theorem addObservations_twin (env : Env K) (o : ObsOptions K) {c c' : Catalog K} (h : SameCatalog c c') {x y : Cache}
    (hx : ∀ a b s p, XCorr.get x a b s p = XCorr.get y a b s p) {n m : Neighbours} (hr : n.refId = m.refId)
    (hp : n.phases.Perm m.phases) (ops : List (SolverOp K)) :
    addObservations env o c x n ops = addObservations env o c' y m ops := by
  unfold addObservations
  rw [hr, sorted_perm hp, h.events]
  congr 1
  funext refEv
  rw [obsStep_twin env o h hx]

/-- the same calls and the same events restored -/
structure TwinObserve (s s' : ObserveState K) : Prop where
  cur : Twin s.cur s'.cur
  ops : s.ops = s'.ops
  reverted : s.reverted = s'.reverted

theorem observe_twin (env : Env K) (o : ObsOptions K) {x y : Cache} (hx : ∀ a b s p, XCorr.get x a b s p = XCorr.get y a b s p)
    {l l' : Cluster} (hl : SamePairs l l') {prev prev' cur cur' : Catalog K} (hp : SameCatalog prev prev') (hc : Twin cur cur') :
    Both TwinObserve (observe env o x l prev cur) (observe env o y l' prev' cur') := by
  unfold observe
  refine Both.foldlM ?_ hl ⟨hc, rfl, rfl⟩
  rintro ⟨c, ops, rev⟩ ⟨c', ops', rev'⟩ ⟨k, n⟩ ⟨k', m⟩ ⟨h1, h2, h3⟩ ⟨h4, h5, h6⟩
  simp only at h1 h2 h3 h4 h5 h6
  subst h2 h3 h4
  unfold observeStep
  simp only
  rw [addObservations_twin env o h1.same hx h5 h6, hp.isEmpty, h1.same.events]
  refine Both.bind (Both.refl (R := Eq) (fun _ => rfl) _) ?_
  rintro ⟨ops2, ok⟩ _ rfl
  simp only
  split
  · exact .ok ⟨h1, rfl, rfl⟩
  · refine Both.bind (Both.refl (R := Eq) (fun _ => rfl) _) ?_
    rintro ev _ rfl
    split
    · obtain ⟨g1, g2⟩ := addFrom_twin (h1.removeEvent k) hp k true
      revert g1 g2
      rcases (c.removeEvent k).addFrom k prev true with ⟨d, q⟩
      rcases (c'.removeEvent k).addFrom k prev' true with ⟨d', q'⟩
      simp only
      rintro g1 rfl
      cases q with
      | throws => exact .throws
      | ub => exact .ub
      | ok i =>
        simp only
        rw [addObservations_twin env o g1.same hx h5 h6]
        refine Both.bind (Both.refl (R := Eq) (fun _ => rfl) _) ?_
        rintro ⟨ops3, ok3⟩ _ rfl
        exact .ok ⟨g1, rfl, rfl⟩
    · exact .ok ⟨h1, rfl, rfl⟩

/-! ## residuals and updates -/

theorem residuals_twin (env : Env K) (u first : Bool) (ops : List (SolverOp K)) {l l' : Cluster} (hl : SamePairs l l')
    {c c' : Catalog K} (hc : Twin c c') :
    Both Twin (computeEventResiduals env u first ops l c) (computeEventResiduals env u first ops l' c') := by
  unfold computeEventResiduals
  refine Both.foldlM ?_ hl hc
  rintro c c' ⟨k, n⟩ ⟨k', m⟩ h ⟨-, h5, -⟩
  simp only at h5
  have hres : ∀ i p, residualOf ops c i p = residualOf ops c' i p := by
    intro i p
    unfold residualOf
    rw [h.same.stations]
  have hrms : ∀ i, rmsOf env u ops c i = rmsOf env u ops c' i := by
    intro i
    unfold rmsOf
    simp only [h.same.phases, show residualOf ops c i = residualOf ops c' i from funext (hres i)]
  unfold residualsStep
  simp only [h5, h.same.events, h.same.stations, h.same.phases, hrms]
  refine Both.bind (Both.refl (R := Eq) (fun _ => rfl) _) ?_
  rintro ev _ rfl
  refine Both.bind (Both.refl (R := Eq) (fun _ => rfl) _) ?_
  rintro _ _ rfl
  refine .ok (mapPhases_twin h (fun i => ?_) (AMap.nodupKeys_set h.keys _ _) (AMap.nodupKeys_set h.keys' _ _) _
    (f := fun p => residualPhase u first (residualOf ops c ev.id p) p)
    (f' := fun p => residualPhase u first (residualOf ops c' ev.id p) p) (fun p => by rw [hres]))
  simp only [AMap.find?_set, h.same.events]

theorem update_twin (env : Env K) (first : Bool) (ans : Answer K) {l l' : Cluster} (hl : SamePairs l l')
    {c c' : Catalog K} (hc : Twin c c') :
    Both Twin (updateRelocatedEvents env first ans l c) (updateRelocatedEvents env first ans l' c') := by
  unfold updateRelocatedEvents
  refine Both.foldlM ?_ hl hc
  rintro c c' ⟨k, n⟩ ⟨k', m⟩ h ⟨-, h5, -⟩
  simp only at h5
  unfold updateStep
  simp only [h5, h.same.events, h.same.stations, h.same.phases]
  refine Both.bind (Both.refl (R := Eq) (fun _ => rfl) _) ?_
  rintro ev _ rfl
  split
  · exact .ok (h.setEvent _ _)
  · refine Both.bind (Both.refl (R := Eq) (fun _ => rfl) _) ?_
    rintro _ _ rfl
    refine .ok (mapPhases_twin h (fun i => ?_) (AMap.nodupKeys_set h.keys _ _) (AMap.nodupKeys_set h.keys' _ _) _
      (f := fun p => updatePhase first ans c ev.id p) (f' := fun p => updatePhase first ans c' ev.id p) (fun p => ?_))
    · simp only [AMap.find?_set, h.same.events]
    · unfold updatePhase
      rw [h.same.stations]

/-! ## the loop -/

/-- the same state of the loop -/
structure TwinLoop (s s' : LoopState K) : Prop where
  cur : Twin s.cur s'.cur
  prev : SameCatalog s.prev s'.prev
  log : List.Forall₂ SameStep s.log s'.log

theorem iteration_twin (env : Env K) (so : SolverOptions K) (o : ObsOptions K) {x y : Cache}
    (hx : ∀ a b s p, XCorr.get x a b s p = XCorr.get y a b s p) {l l' : Cluster} (hl : SamePairs l l') (sol : SolverAnswers K)
    (it : Nat) {s s' : LoopState K} (h : TwinLoop s s') :
    Both (fun a b => TwinLoop a.1 b.1 ∧ a.2 = b.2) (iteration ⟨env, so, o, x, l, sol⟩ it s) (iteration ⟨env, so, o, y, l', sol⟩ it s') := by
  unfold iteration
  simp only
  refine (observe_twin env o hx hl h.prev h.cur).bind ?_
  rintro ob ob' hob
  rw [hob.ops]
  refine (residuals_twin env o.usePickUncertainties (decide (it = 0)) ob'.ops hl hob.cur).bind ?_
  rintro cur cur' hcur
  refine Both.bind (Both.refl (R := Eq) (fun _ => rfl) _) ?_
  rintro _ _ -
  have hstep : ∀ ans, List.Forall₂ SameStep (s.log ++ [(⟨s.cur, cur,
      interpolate so.algoIterations it so.dampingFactorStart so.dampingFactorEnd,
      interpolate so.algoIterations it so.downWeightingByResidualStart so.downWeightingByResidualEnd,
      interpolate so.algoIterations it so.absLocConstraintStart so.absLocConstraintEnd, ob'.ops, ob.reverted, ans⟩ : IterLog K)])
      (s'.log ++ [(⟨s'.cur, cur',
      interpolate so.algoIterations it so.dampingFactorStart so.dampingFactorEnd,
      interpolate so.algoIterations it so.downWeightingByResidualStart so.downWeightingByResidualEnd,
      interpolate so.algoIterations it so.absLocConstraintStart so.absLocConstraintEnd, ob'.ops, ob'.reverted, ans⟩ : IterLog K)]) :=
    fun ans => List.rel_append h.log (.cons ⟨h.cur.same, hcur.same, rfl, rfl, rfl, rfl, hob.reverted, rfl⟩ .nil)
  split
  · exact .ok ⟨⟨hcur, h.prev, hstep _⟩, rfl⟩
  · split
    · exact .ok ⟨⟨hcur, h.prev, hstep _⟩, rfl⟩
    · rename_i ans _
      refine (update_twin env (decide (it = 0)) ans hl hcur).bind ?_
      rintro new new' hnew
      exact .ok ⟨⟨hnew, hcur.same, hstep _⟩, rfl⟩

theorem loop_twin (env : Env K) (so : SolverOptions K) (o : ObsOptions K) {x y : Cache}
    (hx : ∀ a b s p, XCorr.get x a b s p = XCorr.get y a b s p) {l l' : Cluster} (hl : SamePairs l l') (sol : SolverAnswers K)
    (n : Nat) : ∀ (it : Nat) {s s' : LoopState K}, TwinLoop s s' →
    Both TwinLoop (loop ⟨env, so, o, x, l, sol⟩ n it s) (loop ⟨env, so, o, y, l', sol⟩ n it s') := by
  induction n with
  | zero => intro it s s' h; exact .ok h
  | succ n ih =>
    intro it s s' h
    unfold loop
    refine (iteration_twin env so o hx hl sol it h).bind ?_
    rintro ⟨t, g⟩ ⟨t', g'⟩ ⟨h1, h2⟩
    simp only at h1 h2
    subst h2
    simp only
    split
    · exact ih _ h1
    · exact .ok h1

theorem eventsSorted_twin {c c' : Catalog K} (h : Twin c c') : c.eventsSorted = c'.eventsSorted := by
  have hperm : c.events.Perm c'.events := by
    rw [List.perm_ext_iff_of_nodup (List.Nodup.of_map _ h.keys) (List.Nodup.of_map _ h.keys')]
    rintro ⟨k, e⟩
    rw [AMap.mem_iff_find? h.keys, AMap.mem_iff_find? h.keys', h.same.events]
  have hp : c.eventsSorted.Perm c'.eventsSorted := (eventsSorted_perm c).trans (hperm.trans (eventsSorted_perm c').symm)
  have : Std.Total (fun a b : Nat × Event K => a.1 ≤ b.1) := ⟨fun a b => le_total _ _⟩
  have : IsTrans (Nat × Event K) (fun a b => a.1 ≤ b.1) := ⟨fun a b c => le_trans⟩
  refine List.Perm.eq_of_pairwise (le := fun a b => a.1 ≤ b.1) ?_ (List.pairwise_insertionSort _ _) (List.pairwise_insertionSort _ _) hp
  rintro ⟨k, e⟩ ⟨k', e'⟩ ha hb h1 h2
  have : k = k' := le_antisymm h1 h2
  subst this
  have ha' := (AMap.mem_iff_find? h.keys).1 ((eventsSorted_perm c).mem_iff.1 ha)
  have hb' := (AMap.mem_iff_find? h.keys').1 ((eventsSorted_perm c').mem_iff.1 hb)
  rw [← h.same.events, ha'] at hb'
  cases hb'
  rfl

theorem relocate_twin (env : Env K) (so : SolverOptions K) (o : ObsOptions K) {x y : Cache}
    (hx : ∀ a b s p, XCorr.get x a b s p = XCorr.get y a b s p) {l l' : Cluster} (hl : SamePairs l l') (sol : SolverAnswers K)
    {cat cat' : Catalog K} (h : Twin cat cat') :
    Both (fun a b => a.1 = b.1 ∧ List.Forall₂ SameStep a.2 b.2) (relocate ⟨env, so, o, x, l, sol⟩ cat)
      (relocate ⟨env, so, o, y, l', sol⟩ cat') := by
  unfold relocate
  refine (loop_twin env so o hx hl sol _ 0 (s := ⟨cat, Catalog.init, []⟩) (s' := ⟨cat', Catalog.init, []⟩) ⟨h, SameCatalog.refl _, .nil⟩).bind ?_
  rintro s s' hs
  rw [eventsSorted_twin hs.cur, returnedLoop_same hs.cur.same]
  refine Both.bind (Both.refl (R := Eq) (fun _ => rfl) _) ?_
  rintro r _ rfl
  exact .ok ⟨rfl, hs.log⟩

theorem Both.result {x y : Outcome (Catalog K × List (IterLog K))}
    (h : Both (fun a b => a.1 = b.1 ∧ List.Forall₂ SameStep a.2 b.2) x y) : SameResult x y := by
  cases h with
  | ok h => exact h
  | throws => trivial
  | ub => trivial

/-! ## the catalog of the neighbours -/

theorem copy_stations {o : Catalog K} (ho : o.Sound) (ids : List Nat) : ∀ {r r' : Catalog K}, ids.foldlM (copyStep o) r = .ok r' →
    ∀ s, r'.stations.find? s = (r.stations.find? s).or
      (if ∃ k ∈ ids, s ∈ (o.phasesOf k).map (·.stationId) then o.stations.find? s else none) := by
  induction ids with
  | nil =>
    intro r r' h s
    cases h
    simp
  | cons id ids ih =>
    intro r r' h s
    rw [List.foldlM_cons, Outcome.bind_eq_ok] at h
    obtain ⟨c, h1, h2⟩ := h
    rw [ih h2 s]
    unfold copyStep at h1
    cases he : o.events.find? id with
    | none =>
      have : (r.addFrom id o true).2 = .ub := by unfold Catalog.addFrom; rw [he]
      revert h1 this
      rcases r.addFrom id o true with ⟨d, q⟩
      rintro h1 rfl
      cases h1
    | some e =>
      have hid := (ho.eventKey _ _ he).1
      cases hn : r.events.find? id with
      | some e' =>
        have : (r.addFrom id o true).2 = .throws := by
          unfold Catalog.addFrom Catalog.addEvent; rw [he]; simp [hid, hn]
        revert h1 this
        rcases r.addFrom id o true with ⟨d, q⟩
        rintro h1 rfl
        cases h1
      | none =>
        have hadd := Catalog.addEvent_true (c := r) (e := e) (by rw [hid]; exact hn)
        obtain ⟨c', k1, k2⟩ := Catalog.addFrom_ok ho.toWF ho.phaseStation he hadd (by simp)
        rw [k1] at h1
        cases h1
        rw [k2.stations, hid, Option.or_assoc]
        congr 1
        by_cases a : s ∈ (o.phasesOf id).map (·.stationId)
        · have a' : ∃ k ∈ id :: ids, s ∈ (o.phasesOf k).map (·.stationId) := ⟨id, List.mem_cons_self .., a⟩
          rw [if_pos a, if_pos a']
          split
          · cases o.stations.find? s <;> rfl
          · cases o.stations.find? s <;> rfl
        · rw [if_neg a]
          simp only [Option.none_or]
          by_cases b : ∃ k ∈ ids, s ∈ (o.phasesOf k).map (·.stationId)
          · obtain ⟨k, hk, hs⟩ := b
            rw [if_pos ⟨k, hk, hs⟩, if_pos ⟨k, by simp [hk], hs⟩]
          · rw [if_neg b, if_neg]
            rintro ⟨k, hk, hs⟩
            rcases List.mem_cons.1 hk with rfl | hk
            · exact a hs
            · exact b ⟨k, hk, hs⟩

theorem toCatalog_twin {bg bg' : Catalog K} (hb : bg.Sound) (hb' : bg'.Sound) {nb nb' : Neighbours} (hn : nb.ids.Nodup)
    (hids : nb.ids.Perm nb'.ids) (hin : ∀ k ∈ nb.ids, (bg.events.find? k).isSome = true)
    (he : ∀ k ∈ nb.ids, bg.events.find? k = bg'.events.find? k) (hp : ∀ k ∈ nb.ids, bg.phasesOf k = bg'.phasesOf k)
    (hs : ∀ s, bg.stations.find? s = bg'.stations.find? s) :
    ∃ c c', toCatalog nb bg = .ok c ∧ toCatalog nb' bg' = .ok c' ∧ Twin c c' := by
  obtain ⟨c, g1, g2⟩ := copy_spec hb init_sound nb.ids hn hin (by intro k _; simp [Catalog.init])
  obtain ⟨c', g1', g2'⟩ := copy_spec hb' init_sound nb'.ids (hids.nodup_iff.1 hn)
    (by intro k hk; rw [← he k (hids.mem_iff.2 hk)]; exact hin k (hids.mem_iff.2 hk)) (by intro k _; simp [Catalog.init])
  refine ⟨c, c', g1, g1', ⟨fun k => ?_, fun s => ?_, fun k => ?_⟩, g2.sound.eventsUnique, g2'.sound.eventsUnique⟩
  · rw [g2.events, g2'.events]
    simp only [← hids.mem_iff]
    split
    · exact he k ‹_›
    · rfl
  · rw [copy_stations hb _ g1, copy_stations hb' _ g1', hs]
    have : (∃ k ∈ nb.ids, s ∈ (bg.phasesOf k).map (·.stationId)) ↔ (∃ k ∈ nb'.ids, s ∈ (bg'.phasesOf k).map (·.stationId)) := by
      constructor
      · rintro ⟨k, h1, h2⟩; exact ⟨k, hids.mem_iff.1 h1, by rw [← hp k h1]; exact h2⟩
      · rintro ⟨k, h1, h2⟩; exact ⟨k, hids.mem_iff.2 h1, by rw [hp k (hids.mem_iff.2 h1)]; exact h2⟩
    simp only [this]
  · rw [g2.phases, g2'.phases]
    simp only [← hids.mem_iff]
    split
    · exact hp k ‹_›
    · rfl

theorem phases_eq {nb : Neighbours} (h : nb.ids.Nodup) : nb.phases = nb.ids.flatMap (fun k => (nb.phasesOf k).map (fun sp => (sp, k))) := by
  unfold Neighbours.phases Neighbours.ids AMap.keys
  rw [List.flatMap_map]
  refine List.flatMap_congr ?_
  rintro ⟨k, l⟩ hk
  have : nb.nbs.find? k = some l := AMap.find?_of_mem h hk
  simp [Neighbours.phasesOf, this]

theorem phases_same {nb nb' : Neighbours} (h : nb.ids.Nodup) (hs : Selection.SameNeighbours nb nb') : nb.phases.Perm nb'.phases := by
  rw [phases_eq h, phases_eq (hs.ids.nodup_iff.1 h)]
  refine (List.Perm.flatMap_left _ (fun k _ => (hs.phases k).map _)).trans (List.Perm.flatMap_right _ hs.ids)

end Verif.Relocate
