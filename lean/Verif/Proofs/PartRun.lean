import Verif.Spec.PartRun
import Verif.Proofs.SingleOrder
import Verif.Proofs.SelectionOrder
import Verif.Props.Relocate
import Verif.Proofs.RelocateMulti

/-! Helper lemmas for C132: a relocation done with a part of the catalog. -/

set_option linter.unusedSectionVars false
set_option linter.unusedSimpArgs false

namespace Verif.Relocate
open Verif.Catalog Verif.Catalog.Catalog Verif.Solver Verif.XCorr Verif.Selection

variable {K : Type} [Field K] [LinearOrder K] {S : Nat → Bool}

/-! ## catalogs -/

theorem find_part (c : Catalog K) {k : Nat} (hk : S k = true) : (restrict c S).events.find? k = c.events.find? k := by
  rw [show (restrict c S).events.find? k = if S k then c.events.find? k else none from find?_filter_key c.events S k, if_pos hk]

theorem phases_part (c : Catalog K) {k : Nat} (hk : S k = true) : (restrict c S).phasesOf k = c.phasesOf k := by
  unfold Catalog.phasesOf restrict
  simp only [List.filter_filter]
  congr 1
  refine List.filter_congr (fun kp _ => ?_)
  by_cases h : kp.1 = k
  · simp [h, hk]
  · simp [h]

theorem set_part {V : Type} (m : AMap Nat V) {k : Nat} (hk : S k = true) (v : V) :
    (m.set k v).filter (fun kv => S kv.1) = AMap.set (m.filter (fun kv => S kv.1)) k v := by
  unfold AMap.set AMap.erase
  rw [List.filter_cons, if_pos (by simpa using hk), List.filter_filter, List.filter_filter]
  congr 1
  refine List.filter_congr (fun kv _ => ?_)
  rw [Bool.and_comm]

/-- the part of a catalog, with what is needed of the whole -/
structure Part (S : Nat → Bool) (c c' : Catalog K) : Prop where
  eq : c' = restrict c S
  keyed : ∀ k e, c.events.find? k = some e → e.id = k
  plain : ∀ k, S k = false → ¬ Marked c k
  live : ∃ k, S k = true ∧ (c.events.find? k).isSome = true
  nodup : c.events.NodupKeys

theorem Part.setEvent {c c' : Catalog K} (h : Part S c c') {k : Nat} (hk : S k = true) {e : Event K} (he : e.id = k)
    {sts : AMap String (Station K)} (hst : sts = c'.stations) :
    Part S { c with events := c.events.set k e } ⟨sts, c'.events.set k e, c'.phases⟩ := by
  refine ⟨?_, fun j f hf => ?_, fun j hj hm => ?_, ⟨k, hk, by simp⟩, AMap.nodupKeys_set h.nodup _ _⟩
  · rw [hst, h.eq]
    simp only [restrict, set_part _ hk]
  · simp only [AMap.find?_set] at hf
    split at hf
    · cases hf
      rename_i hj
      rw [hj]
      exact he
    · exact h.keyed j f hf
  · obtain ⟨f, hf, hr⟩ := hm
    simp only [AMap.find?_set] at hf
    split at hf
    · rename_i hjk
      rw [hjk, hk] at hj
      cases hj
    · exact h.plain j hj ⟨f, hf, hr⟩

theorem mapPhases_part {c c' : Catalog K} (h : Part S c c') {k : Nat} (hk : S k = true) {e : Event K} (he : e.id = k)
    {f f' : Phase K → Phase K} (hf : ∀ p, f p = f' p) {sts : AMap String (Station K)} (hst : sts = c'.stations) :
    Part S { c with events := c.events.set k e, phases := c.phases.map (fun kp => if kp.1 = k then (kp.1, f kp.2) else kp) }
      ⟨sts, c'.events.set k e, c'.phases.map (fun kp => if kp.1 = k then (kp.1, f' kp.2) else kp)⟩ := by
  obtain rfl : f = f' := funext hf
  have h2 := h.setEvent hk he hst
  refine ⟨?_, h2.keyed, h2.plain, h2.live, h2.nodup⟩
  rw [hst, h.eq]
  simp only [restrict, set_part _ hk, List.filter_map]
  congr 2
  refine List.filter_congr (fun kp _ => ?_)
  simp only [Function.comp]
  split <;> rfl

theorem removeEvent_part (c : Catalog K) (k : Nat) : (restrict c S).removeEvent k = restrict (c.removeEvent k) S := by
  unfold Catalog.removeEvent restrict AMap.erase
  simp only [List.filter_filter, Bool.and_comm]

theorem addStation_part (c : Catalog K) (s : Station K) : (restrict c S).addStation s = restrict (c.addStation s) S := by
  unfold Catalog.addStation
  simp only [restrict]
  split <;> rfl

theorem addPhase_part (c : Catalog K) {p : Phase K} (hp : S p.eventId = true) : (restrict c S).addPhase p = restrict (c.addPhase p) S := by
  unfold Catalog.addPhase restrict
  simp [List.filter_append, hp]

theorem copyPhases_part (sts : AMap String (Station K)) {n : Nat} (hn : S n = true) (ps : List (Phase K)) : ∀ c : Catalog K,
    copyPhases sts n (restrict c S) ps = (restrict (copyPhases sts n c ps).1 S, (copyPhases sts n c ps).2) := by
  induction ps with
  | nil => intro c; rfl
  | cons p ps ih =>
    intro c
    unfold copyPhases copyPhase
    cases sts.find? p.stationId with
    | none => rfl
    | some s =>
      simp only
      rw [addStation_part, addPhase_part _ (by exact hn), ih]

theorem copyPhases_events (sts : AMap String (Station K)) (n : Nat) (ps : List (Phase K)) : ∀ c : Catalog K,
    (copyPhases sts n c ps).1.events = c.events := by
  induction ps with
  | nil => intro c; rfl
  | cons p ps ih =>
    intro c
    unfold copyPhases copyPhase
    cases sts.find? p.stationId with
    | none => rfl
    | some s =>
      simp only
      rw [ih]
      unfold Catalog.addPhase Catalog.addStation
      simp only
      split <;> rfl

/-- an event taken out and put back as it was in another catalog -/
theorem restore_part {c prev : Catalog K} {k : Nat} (hk : S k = true) (hp : ∀ k e, prev.events.find? k = some e → e.id = k) :
    ((restrict c S).removeEvent k).addFrom k (restrict prev S) true =
      (restrict ((c.removeEvent k).addFrom k prev true).1 S, ((c.removeEvent k).addFrom k prev true).2) := by
  rw [removeEvent_part]
  generalize c.removeEvent k = c
  unfold Catalog.addFrom
  rw [find_part _ hk]
  cases he : prev.events.find? k with
  | none => rfl
  | some e =>
    have hid := hp k e he
    simp only
    unfold Catalog.addEvent
    simp only [if_true, hid, find_part c hk]
    cases c.events.find? k with
    | some _ => rfl
    | none =>
      simp only
      have : ({ restrict c S with events := (restrict c S).events.set k e } : Catalog K) = restrict { c with events := c.events.set k e } S := by
        simp only [restrict, set_part _ hk]
      rw [this, phases_part _ hk, show (restrict prev S).stations = prev.stations from rfl, copyPhases_part _ hk]
      rcases copyPhases prev.stations k { c with events := c.events.set k e } (prev.phasesOf k) with ⟨d, q⟩
      cases q <;> rfl

theorem restore_inv {c prev : Catalog K} (hd : c.events.NodupKeys) (h : ∀ j e, c.events.find? j = some e → e.id = j) (hm : ∀ k, S k = false → ¬ Marked c k)
    {k : Nat} (hk : S k = true) (hp : ∀ k e, prev.events.find? k = some e → e.id = k) {d : Catalog K} {i : Nat}
    (ho : (c.removeEvent k).addFrom k prev true = (d, .ok i)) : Part S d (restrict d S) := by
  unfold Catalog.addFrom at ho
  cases he : prev.events.find? k with
  | none => rw [he] at ho; simp at ho
  | some e =>
    have hid := hp k e he
    rw [he] at ho
    simp only at ho
    unfold Catalog.addEvent at ho
    simp only [if_true, hid] at ho
    have hnone : (c.removeEvent k).events.find? k = none := by simp [Catalog.removeEvent]
    rw [hnone] at ho
    simp only at ho
    have hev := copyPhases_events prev.stations k (prev.phasesOf k) { c.removeEvent k with events := (c.removeEvent k).events.set k e }
    revert ho hev
    rcases copyPhases prev.stations k { c.removeEvent k with events := (c.removeEvent k).events.set k e } (prev.phasesOf k) with ⟨d', q⟩
    intro ho hev
    cases q with
    | throws => simp at ho
    | ub => simp at ho
    | ok u =>
      simp only [Prod.mk.injEq] at ho
      obtain ⟨rfl, -⟩ := ho
      simp only at hev
      have hfind : ∀ j, d'.events.find? j = if j = k then some e else c.events.find? j := by
        intro j
        rw [hev, AMap.find?_set]
        split
        · rfl
        · rename_i hj
          simp [Catalog.removeEvent, AMap.find?_erase, hj]
      refine ⟨rfl, fun j f hf => ?_, fun j hj hmk => ?_, ⟨k, hk, by rw [hfind, if_pos rfl]; rfl⟩,
        by rw [hev]; exact AMap.nodupKeys_set (AMap.nodupKeys_erase hd _) _ _⟩
      · rw [hfind] at hf
        split at hf
        · cases hf
          rename_i hjk
          rw [hjk, hid]
        · exact h j f hf
      · obtain ⟨f, hf, hr⟩ := hmk
        rw [hfind] at hf
        split at hf
        · rename_i hjk
          rw [hjk, hk] at hj
          cases hj
        · exact hm j hj ⟨f, hf, hr⟩

/-! ## the observations -/

theorem mem_phases_ids {nb : Neighbours} {t : StaPhase × Nat} (h : t ∈ nb.phases) : t.2 ∈ nb.ids := by
  unfold Neighbours.phases at h
  obtain ⟨kv, h1, h2⟩ := List.mem_flatMap.1 h
  obtain ⟨sp, _, rfl⟩ := List.mem_map.1 h2
  exact List.mem_map.2 ⟨kv, h1, rfl⟩

theorem searchPhase_part (c : Catalog K) {k : Nat} (hk : S k = true) (sp : StaPhase) : searchPhase (restrict c S) k sp = searchPhase c k sp := by
  unfold searchPhase
  rw [phases_part c hk]

theorem obsStep_part (env : Env K) (o : ObsOptions K) {c c' : Catalog K} (h : Part S c c') (x : Cache) {refEv : Event K}
    (hr : S refEv.id = true) (s : ObsState K) {t : StaPhase × Nat} (ht : S t.2 = true) :
    obsStep env o c' x refEv s t = obsStep env o c x refEv s t := by
  have hn : ∀ st rp s, neighStep env o c' x refEv st rp s t.1 t.2 = neighStep env o c x refEv st rp s t.1 t.2 := by
    intro st rp s
    unfold neighStep
    rw [h.eq, find_part c ht]
    split
    · rfl
    · split
      · rename_i mc ev _ he
        have : S ev.id = true := by rw [h.keyed _ _ he]; exact ht
        rw [searchPhase_part c this]
      · rfl
  have hs : ∀ st s, refStep env c' refEv st s t.1 = refStep env c refEv st s t.1 := by
    intro st s
    unfold refStep
    rw [h.eq, searchPhase_part c hr]
  have hc : ∀ st, currentStation c' st t.1.1 = currentStation c st t.1.1 := by
    intro st
    unfold currentStation
    rw [h.eq]
    rfl
  unfold obsStep
  simp only [hc, hs, hn]

theorem foldlM_congr_mem {σ α : Type} {f g : σ → α → Outcome σ} (l : List α) : (∀ s, ∀ a ∈ l, f s a = g s a) → ∀ s, l.foldlM f s = l.foldlM g s := by
  induction l with
  | nil => intro _ s; rfl
  | cons a l ih =>
    intro h s
    rw [List.foldlM_cons, List.foldlM_cons, h s a (by simp)]
    congr 1
    funext t
    exact ih (fun s b hb => h s b (by simp [hb])) t

theorem addObservations_part (env : Env K) (o : ObsOptions K) {c c' : Catalog K} (h : Part S c c') (x : Cache) {nb : Neighbours}
    (hr : S nb.refId = true) (hn : ∀ n ∈ nb.ids, S n = true) (ops : List (SolverOp K)) :
    addObservations env o c' x nb ops = addObservations env o c x nb ops := by
  unfold addObservations
  rw [show c'.events.find? nb.refId = c.events.find? nb.refId by rw [h.eq, find_part c hr]]
  cases he : c.events.find? nb.refId with
  | none => rfl
  | some ev =>
    have hid : S ev.id = true := by rw [h.keyed _ _ he]; exact hr
    simp only [Outcome.ofOption, Outcome.bind_ok]
    rw [foldlM_congr_mem (f := obsStep env o c' x ev) (g := obsStep env o c x ev)]
    intro s t ht
    exact obsStep_part env o h x hid s (hn _ (mem_phases_ids ((List.perm_insertionSort _ _).mem_iff.1 ht)))

/-- the same calls and the same events restored -/
structure PartObserve (S : Nat → Bool) (s s' : ObserveState K) : Prop where
  cur : Part S s.cur s'.cur
  ops : s.ops = s'.ops
  reverted : s.reverted = s'.reverted

/-- the catalog of the iteration before, if there is one -/
structure PartPrev (S : Nat → Bool) (c c' : Catalog K) : Prop where
  eq : c' = restrict c S
  keyed : ∀ k e, c.events.find? k = some e → e.id = k
  empty : isEmpty c' = isEmpty c

theorem Part.prev {c c' : Catalog K} (h : Part S c c') : PartPrev S c c' := by
  refine ⟨h.eq, h.keyed, ?_⟩
  obtain ⟨k, hk, hs⟩ := h.live
  have h1 : c.events.isEmpty = false := by
    cases hc : c.events with
    | nil => rw [hc] at hs; simp at hs
    | cons _ _ => rfl
  have h2 : c'.events.isEmpty = false := by
    have : (c'.events.find? k).isSome = true := by rw [h.eq, find_part c hk]; exact hs
    cases hc : c'.events with
    | nil => rw [hc] at this; simp at this
    | cons _ _ => rfl
  unfold isEmpty
  simp [h1, h2]

theorem forall₂_self {α : Type} {P : α → Prop} {l : List α} (h : ∀ a ∈ l, P a) : List.Forall₂ (fun a b => a = b ∧ P a) l l := by
  induction l with
  | nil => exact .nil
  | cons a l ih => exact .cons ⟨rfl, h a (by simp)⟩ (ih (fun b hb => h b (by simp [hb])))

theorem observe_part (env : Env K) (o : ObsOptions K) (x : Cache) {l : Cluster} (hl : Within S l) {prev prev' cur cur' : Catalog K}
    (hp : PartPrev S prev prev') (hc : Part S cur cur') :
    Both (PartObserve S) (observe env o x l prev cur) (observe env o x l prev' cur') := by
  unfold observe
  refine Both.foldlM ?_ (forall₂_self hl) ⟨hc, rfl, rfl⟩
  rintro ⟨c, ops, rev⟩ ⟨c', ops', rev'⟩ ⟨k, n⟩ _ ⟨h1, h2, h3⟩ ⟨rfl, hk, hr, hn⟩
  simp only at h1 h2 h3 hk hr hn
  subst h2 h3
  unfold observeStep
  simp only
  rw [addObservations_part env o h1 x hr hn, hp.empty, show c'.events.find? k = c.events.find? k by rw [h1.eq, find_part c hk]]
  refine Both.bind (Both.refl (R := Eq) (fun _ => rfl) _) ?_
  rintro ⟨ops2, ok⟩ _ rfl
  simp only
  split
  · exact .ok ⟨h1, rfl, rfl⟩
  · refine Both.bind (Both.refl (R := Eq) (fun _ => rfl) _) ?_
    rintro ev _ rfl
    split
    · have g := restore_part (c := c) hk hp.keyed
      rw [h1.eq, hp.eq, g]
      have g2 := fun d i => restore_inv (c := c) (d := d) (i := i) h1.nodup h1.keyed h1.plain hk hp.keyed
      revert g2
      rcases (c.removeEvent k).addFrom k prev true with ⟨d, q⟩
      intro g2
      cases q with
      | throws => exact .throws
      | ub => exact .ub
      | ok i =>
        simp only
        have g3 := g2 d i rfl
        rw [addObservations_part env o g3 x hr hn]
        refine Both.bind (Both.refl (R := Eq) (fun _ => rfl) _) ?_
        rintro ⟨ops3, ok3⟩ _ rfl
        exact .ok ⟨g3, rfl, rfl⟩
    · exact .ok ⟨h1, rfl, rfl⟩

/-! ## residuals and updates -/

theorem residuals_part (env : Env K) (u first : Bool) (ops : List (SolverOp K)) {l : Cluster} (hl : Within S l)
    {c c' : Catalog K} (hc : Part S c c') :
    Both (Part S) (computeEventResiduals env u first ops l c) (computeEventResiduals env u first ops l c') := by
  unfold computeEventResiduals
  refine Both.foldlM ?_ (forall₂_self hl) hc
  rintro c c' ⟨k, n⟩ _ h ⟨rfl, -, hr, -⟩
  simp only at hr
  unfold residualsStep
  simp only [show c'.events.find? n.refId = c.events.find? n.refId by rw [h.eq, find_part c hr]]
  cases he : c.events.find? n.refId with
  | none => first | exact .throws | exact .ub
  | some ev =>
    have hid := h.keyed _ _ he
    simp only [Outcome.ofOption, Outcome.bind_ok]
    have hph : c'.phasesOf ev.id = c.phasesOf ev.id := by rw [h.eq, hid, phases_part c hr]
    have hst : c'.stations = c.stations := by rw [h.eq]; rfl
    have hres : ∀ i, residualOf ops c' i = residualOf ops c i := by
      intro i
      funext p
      unfold residualOf
      rw [hst]
    have hrms : rmsOf env u ops c' ev.id = rmsOf env u ops c ev.id := by
      unfold rmsOf
      simp only [hph, hres]
    rw [hph, hst, hrms]
    refine Both.bind (Both.refl (R := Eq) (fun _ => rfl) _) ?_
    rintro _ _ rfl
    rw [hres, hid]
    refine .ok (mapPhases_part h hr ?_ (f := fun p => residualPhase u first (residualOf ops c n.refId p) p)
      (f' := fun p => residualPhase u first (residualOf ops c n.refId p) p) (fun _ => rfl) hst.symm)
    rfl

theorem update_part (env : Env K) (first : Bool) (ans : Answer K) {l : Cluster} (hl : Within S l)
    {c c' : Catalog K} (hc : Part S c c') :
    Both (Part S) (updateRelocatedEvents env first ans l c) (updateRelocatedEvents env first ans l c') := by
  unfold updateRelocatedEvents
  refine Both.foldlM ?_ (forall₂_self hl) hc
  rintro c c' ⟨k, n⟩ _ h ⟨rfl, -, hr, -⟩
  simp only at hr
  unfold updateStep
  simp only [show c'.events.find? n.refId = c.events.find? n.refId by rw [h.eq, find_part c hr]]
  cases he : c.events.find? n.refId with
  | none => first | exact .throws | exact .ub
  | some ev =>
    have hid := h.keyed _ _ he
    simp only [Outcome.ofOption, Outcome.bind_ok]
    have hph : c'.phasesOf ev.id = c.phasesOf ev.id := by rw [h.eq, hid, phases_part c hr]
    have hst : c'.stations = c.stations := by rw [h.eq]; rfl
    rw [hph, hst]
    split
    · refine .ok (h.setEvent hr ?_ hst.symm)
      exact hid
    · refine Both.bind (Both.refl (R := Eq) (fun _ => rfl) _) ?_
      rintro _ _ rfl
      have hup : ∀ p, updatePhase first ans c ev.id p = updatePhase first ans c' ev.id p := by
        intro p
        unfold updatePhase
        rw [hst]
      rw [hid] at hup
      simp only [hid]
      refine .ok (mapPhases_part h hr ?_ hup hst.symm)
      first | rfl | exact hid

/-! ## the loop -/

theorem Part.agree {c c' : Catalog K} (h : Part S c c') : AgreeOn S c c' := by
  rw [h.eq]
  exact ⟨fun k hk => (find_part c hk).symm, fun k hk => (phases_part c hk).symm, fun _ => rfl⟩

/-- the same state of the loop -/
structure PartLoop (S : Nat → Bool) (s s' : LoopState K) : Prop where
  cur : Part S s.cur s'.cur
  prev : PartPrev S s.prev s'.prev
  log : List.Forall₂ (SameStepOn S) s.log s'.log

theorem iteration_part (env : Env K) (so : SolverOptions K) (o : ObsOptions K) (x : Cache) {l : Cluster} (hl : Within S l)
    (sol : SolverAnswers K) (it : Nat) {s s' : LoopState K} (h : PartLoop S s s') :
    Both (fun a b => PartLoop S a.1 b.1 ∧ a.2 = b.2) (iteration ⟨env, so, o, x, l, sol⟩ it s) (iteration ⟨env, so, o, x, l, sol⟩ it s') := by
  unfold iteration
  simp only
  refine (observe_part env o x hl h.prev h.cur).bind ?_
  rintro ob ob' hob
  rw [hob.ops]
  refine (residuals_part env o.usePickUncertainties (decide (it = 0)) ob'.ops hl hob.cur).bind ?_
  rintro cur cur' hcur
  refine Both.bind (Both.refl (R := Eq) (fun _ => rfl) _) ?_
  rintro _ _ -
  have hstep : ∀ ans, List.Forall₂ (SameStepOn S) (s.log ++ [(⟨s.cur, cur,
      interpolate so.algoIterations it so.dampingFactorStart so.dampingFactorEnd,
      interpolate so.algoIterations it so.downWeightingByResidualStart so.downWeightingByResidualEnd,
      interpolate so.algoIterations it so.absLocConstraintStart so.absLocConstraintEnd, ob'.ops, ob.reverted, ans⟩ : IterLog K)])
      (s'.log ++ [(⟨s'.cur, cur',
      interpolate so.algoIterations it so.dampingFactorStart so.dampingFactorEnd,
      interpolate so.algoIterations it so.downWeightingByResidualStart so.downWeightingByResidualEnd,
      interpolate so.algoIterations it so.absLocConstraintStart so.absLocConstraintEnd, ob'.ops, ob'.reverted, ans⟩ : IterLog K)]) :=
    fun ans => List.rel_append h.log (.cons ⟨h.cur.agree, hcur.agree, rfl, rfl, rfl, rfl, hob.reverted, rfl⟩ .nil)
  split
  · exact .ok ⟨⟨hcur, h.prev, hstep _⟩, rfl⟩
  · split
    · exact .ok ⟨⟨hcur, h.prev, hstep _⟩, rfl⟩
    · rename_i ans _
      refine (update_part env (decide (it = 0)) ans hl hcur).bind ?_
      rintro new new' hnew
      exact .ok ⟨⟨hnew, hcur.prev, hstep _⟩, rfl⟩

theorem loop_part (env : Env K) (so : SolverOptions K) (o : ObsOptions K) (x : Cache) {l : Cluster} (hl : Within S l)
    (sol : SolverAnswers K) (n : Nat) : ∀ (it : Nat) {s s' : LoopState K}, PartLoop S s s' →
    Both (PartLoop S) (loop ⟨env, so, o, x, l, sol⟩ n it s) (loop ⟨env, so, o, x, l, sol⟩ n it s') := by
  induction n with
  | zero => intro it s s' h; exact .ok h
  | succ n ih =>
    intro it s s' h
    unfold loop
    refine (iteration_part env so o x hl sol it h).bind ?_
    rintro ⟨t, g⟩ ⟨t', g'⟩ ⟨h1, h2⟩
    simp only at h1 h2
    subst h2
    simp only
    split
    · exact ih _ h1
    · exact .ok h1

theorem filter_insertionSort_key {V : Type} (l : List (Nat × V)) :
    (l.filter (fun kv => S kv.1)).insertionSort (fun a b => a.1 ≤ b.1) = (l.insertionSort (fun a b => a.1 ≤ b.1)).filter (fun kv => S kv.1) := by
  induction l with
  | nil => rfl
  | cons a l ih =>
    have hins : ∀ m : List (Nat × V), m.Pairwise (fun a b => a.1 ≤ b.1) →
        (m.orderedInsert (fun a b => a.1 ≤ b.1) a).filter (fun kv => S kv.1) =
          if S a.1 then (m.filter (fun kv => S kv.1)).orderedInsert (fun a b => a.1 ≤ b.1) a else m.filter (fun kv => S kv.1) := by
      intro m
      induction m with
      | nil => intro _; by_cases h : S a.1 = true <;> simp [h]
      | cons b m ihm =>
        intro hm
        rw [List.pairwise_cons] at hm
        by_cases hab : a.1 ≤ b.1
        · rw [List.orderedInsert_cons, if_pos hab]
          by_cases h : S a.1 = true
          · rw [if_pos h, List.filter_cons, if_pos (by simpa using h)]
            have hle : ∀ x ∈ (b :: m).filter (fun kv => S kv.1), a.1 ≤ x.1 := by
              intro x hx
              rcases List.mem_cons.1 (List.mem_of_mem_filter hx) with rfl | hx
              · exact hab
              · exact le_trans hab (hm.1 x hx)
            revert hle
            cases (b :: m).filter (fun kv => S kv.1) with
            | nil => intro _; rfl
            | cons y ys => intro hle; rw [List.orderedInsert_cons, if_pos (hle y (by simp))]
          · rw [if_neg h, List.filter_cons, if_neg (by simpa using h)]
        · rw [List.orderedInsert_cons, if_neg hab, List.filter_cons, ihm hm.2]
          by_cases h : S a.1 = true
          · rw [if_pos h, if_pos h]
            by_cases hb : S b.1 = true
            · rw [if_pos (by simpa using hb), List.filter_cons, if_pos (by simpa using hb), List.orderedInsert_cons, if_neg hab]
            · rw [if_neg (by simpa using hb), List.filter_cons, if_neg (by simpa using hb)]
          · rw [if_neg h, if_neg h, List.filter_cons]
    have : Std.Total (fun a b : Nat × V => a.1 ≤ b.1) := ⟨fun a b => le_total _ _⟩
    have : IsTrans (Nat × V) (fun a b => a.1 ≤ b.1) := ⟨fun a b c => le_trans⟩
    rw [List.insertionSort_cons, hins _ (List.pairwise_insertionSort _ _), ← ih, List.filter_cons]
    by_cases h : S a.1 = true
    · simp [h, List.insertionSort_cons]
    · simp [h]

theorem returnedLoop_part {c c' : Catalog K} (h : Part S c c') (l : List (Nat × Event K)) :
    (∀ kv ∈ l, c.events.find? kv.1 = some kv.2) → ∀ r,
    returnedLoop c' r (l.filter (fun kv => S kv.1)) = returnedLoop c r l := by
  induction l with
  | nil => intro _ r; rfl
  | cons kv l ih =>
    intro hl r
    have hkv := hl kv (by simp)
    have ih := ih (fun x hx => hl x (by simp [hx]))
    by_cases hS : S kv.1 = true
    · rw [List.filter_cons, if_pos (by simpa using hS)]
      have hid := h.keyed _ _ hkv
      have ha : r.addFrom kv.2.id c' true = r.addFrom kv.2.id c true := by
        unfold Catalog.addFrom
        rw [hid, h.eq, find_part c hS, hkv]
        simp only [hid]
        rw [phases_part c hS]
        rfl
      unfold returnedLoop
      rw [ha]
      split
      · split
        · exact ih _
        · rfl
        · rfl
      · exact ih _
    · rw [List.filter_cons, if_neg (by simpa using hS)]
      have hm : kv.2.isRelocated = false := by
        cases hr : kv.2.isRelocated with
        | false => rfl
        | true => exact absurd ⟨kv.2, hkv, hr⟩ (h.plain kv.1 (by simpa using hS))
      rw [ih]
      conv_rhs => unfold returnedLoop
      rw [hm]
      rfl

theorem relocate_part (env : Env K) (so : SolverOptions K) (o : ObsOptions K) (x : Cache) {l : Cluster} (hl : Within S l)
    (sol : SolverAnswers K) {cat : Catalog K} (h : Part S cat (restrict cat S)) :
    Both (fun a b => a.1 = b.1 ∧ List.Forall₂ (SameStepOn S) a.2 b.2) (relocate ⟨env, so, o, x, l, sol⟩ cat)
      (relocate ⟨env, so, o, x, l, sol⟩ (restrict cat S)) := by
  unfold relocate
  refine (loop_part env so o x hl sol _ 0 (s := ⟨cat, Catalog.init, []⟩) (s' := ⟨restrict cat S, Catalog.init, []⟩)
    ⟨h, ⟨rfl, fun k e he => by simp [Catalog.init] at he, rfl⟩, .nil⟩).bind ?_
  rintro s s' hs
  have he : s'.cur.eventsSorted = s.cur.eventsSorted.filter (fun kv => S kv.1) := by
    rw [hs.cur.eq]
    exact filter_insertionSort_key s.cur.events
  rw [he, returnedLoop_part hs.cur]
  · refine Both.bind (Both.refl (R := Eq) (fun _ => rfl) _) ?_
    rintro r _ rfl
    exact .ok ⟨rfl, hs.log⟩
  · intro kv hkv
    exact (AMap.mem_iff_find? hs.cur.nodup).1 ((eventsSorted_perm s.cur).mem_iff.1 hkv)

/-! ## two catalogs with the same part -/

theorem AgreeOn.trans {a b c : Catalog K} (h : AgreeOn S a b) (h' : AgreeOn S b c) : AgreeOn S a c :=
  ⟨fun k hk => (h.events k hk).trans (h'.events k hk), fun k hk => (h.phases k hk).trans (h'.phases k hk),
    fun s => (h.stations s).trans (h'.stations s)⟩

theorem AgreeOn.symm {a b : Catalog K} (h : AgreeOn S a b) : AgreeOn S b a :=
  ⟨fun k hk => (h.events k hk).symm, fun k hk => (h.phases k hk).symm, fun s => (h.stations s).symm⟩

theorem SameCatalog.agree {a b : Catalog K} (h : SameCatalog a b) : AgreeOn S a b :=
  ⟨fun k _ => h.events k, fun k _ => h.phases k, h.stations⟩

theorem SameStepOn.trans {a b c : IterLog K} (h : SameStepOn S a b) (h' : SameStepOn S b c) : SameStepOn S a c :=
  ⟨h.before.trans h'.before, h.after.trans h'.after, h.damping.trans h'.damping, h.downWeighting.trans h'.downWeighting,
    h.absLoc.trans h'.absLoc, h.ops.trans h'.ops, h.reverted.trans h'.reverted, h.answer.trans h'.answer⟩

theorem SameStepOn.symm {a b : IterLog K} (h : SameStepOn S a b) : SameStepOn S b a :=
  ⟨h.before.symm, h.after.symm, h.damping.symm, h.downWeighting.symm, h.absLoc.symm, h.ops.symm, h.reverted.symm, h.answer.symm⟩

theorem SameStep.on {a b : IterLog K} (h : SameStep a b) : SameStepOn S a b :=
  ⟨SameCatalog.agree h.before, SameCatalog.agree h.after, h.damping, h.downWeighting, h.absLoc, h.ops, h.reverted, h.answer⟩

theorem forall₂_trans {α : Type} {R T U : α → α → Prop} (h : ∀ a b c, R a b → T b c → U a c) {l m n : List α}
    (h1 : List.Forall₂ R l m) : List.Forall₂ T m n → List.Forall₂ U l n := by
  induction h1 generalizing n with
  | nil => intro h2; cases h2; exact .nil
  | cons a _ ih => intro h2; cases h2 with | cons b h2 => exact .cons (h _ _ _ a b) (ih h2)

theorem Both.trans {α : Type} {R T U : α → α → Prop} (h : ∀ a b c, R a b → T b c → U a c) {x y z : Outcome α} (h1 : Both R x y)
    (h2 : Both T y z) : Both U x z := by
  cases h1 with
  | ok a => cases h2 with | ok b => exact .ok (h _ _ _ a b)
  | throws => cases h2; exact .throws
  | ub => cases h2; exact .ub

theorem Both.symm {α : Type} {R T : α → α → Prop} (h : ∀ a b, R a b → T b a) {x y : Outcome α} (h1 : Both R x y) : Both T y x := by
  cases h1 with
  | ok a => exact .ok (h _ _ a)
  | throws => exact .throws
  | ub => exact .ub

theorem restrict_twin {c c' : Catalog K} (h : AgreeOn S c c') (hk : c.events.NodupKeys) (hk' : c'.events.NodupKeys) :
    Twin (restrict c S) (restrict c' S) := by
  have hf : ∀ (c : Catalog K) k, (restrict c S).events.find? k = if S k then c.events.find? k else none :=
    fun c k => find?_filter_key c.events S k
  have hn : ∀ c : Catalog K, c.events.NodupKeys → (restrict c S).events.NodupKeys := by
    intro c hc
    exact List.Nodup.sublist (List.Sublist.map _ List.filter_sublist) hc
  refine ⟨⟨fun k => ?_, h.stations, fun k => ?_⟩, hn c hk, hn c' hk'⟩
  · rw [hf, hf]
    split
    · exact h.events k ‹_›
    · rfl
  · by_cases hS : S k = true
    · rw [phases_part c hS, phases_part c' hS]
      exact h.phases k hS
    · have : ∀ c : Catalog K, (restrict c S).phasesOf k = [] := by
        intro c
        unfold Catalog.phasesOf restrict
        simp only [List.filter_filter, List.map_eq_nil_iff]
        rw [List.filter_eq_nil_iff]
        intro kp _
        by_cases h : kp.1 = k
        · simp [h, hS]
        · simp [h]
      rw [this, this]

theorem relocate_agree (env : Env K) (so : SolverOptions K) (o : ObsOptions K) {x y : Cache}
    (hx : ∀ a b s p, XCorr.get x a b s p = XCorr.get y a b s p) {l l' : Cluster} (hp : SamePairs l l') (hl : Within S l)
    (hl' : Within S l') (sol : SolverAnswers K) {c c' : Catalog K} (h : Part S c (restrict c S)) (h' : Part S c' (restrict c' S))
    (ha : AgreeOn S c c') :
    Both (fun a b => a.1 = b.1 ∧ List.Forall₂ (SameStepOn S) a.2 b.2) (relocate ⟨env, so, o, x, l, sol⟩ c)
      (relocate ⟨env, so, o, y, l', sol⟩ c') := by
  have h1 := relocate_part env so o x hl sol h
  have h2 := relocate_twin env so o hx hp sol (restrict_twin ha h.nodup h'.nodup)
  have h3 := relocate_part env so o y hl' sol h'
  refine Both.trans (U := fun a b => a.1 = b.1 ∧ List.Forall₂ (SameStepOn S) a.2 b.2) ?_ (Both.trans
    (U := fun a b => a.1 = b.1 ∧ List.Forall₂ (SameStepOn S) a.2 b.2) ?_ h1 h2) (Both.symm
    (T := fun a b => a.1 = b.1 ∧ List.Forall₂ (SameStepOn S) a.2 b.2) ?_ h3)
  · rintro a b c ⟨g1, g2⟩ ⟨g3, g4⟩
    exact ⟨g1.trans g3, forall₂_trans (R := SameStepOn S) (T := SameStepOn S) (fun _ _ _ p q => p.trans q) g2 g4⟩
  · rintro a b c ⟨g1, g2⟩ ⟨g3, g4⟩
    exact ⟨g1.trans g3, forall₂_trans (R := SameStepOn S) (T := SameStep) (fun _ _ _ p q => p.trans q.on) g2 g4⟩
  · rintro a b ⟨g1, g2⟩
    exact ⟨g1.symm, List.Forall₂.flip (g2.imp (fun _ _ p => p.symm))⟩

/-! ## cross-correlation -/

/-- the cache is the same -/
def PartBuild (s s' : BuildState K) : Prop := s.cache = s'.cache

theorem build_part {x : XcorrArgs K} (hx : Steady x) {c c' : Catalog K} (ha : AgreeOn S c c')
    (hk : ∀ k e, c.events.find? k = some e → e.id = k) {pre pre' : Cache}
    (hp : SameResultsOn S pre pre') {l : Cluster} (hl : Within S l) (hself : NoSelf l) (calls calls' : List (XcorrCall K)) :
    Both PartBuild (buildXCorrCache x c l pre calls) (buildXCorrCache x c' l pre' calls') := by
  unfold buildXCorrCache
  split
  · refine Both.foldlM (Q := fun a b => a = b ∧ (S a.1 = true ∧ S a.2.refId = true ∧ ∀ n ∈ a.2.ids, S n = true) ∧ a.2.refId ∉ a.2.ids) ?_ ?_
      (show PartBuild ⟨[], calls⟩ ⟨[], calls'⟩ from rfl)
    · rintro s s' ⟨k, nb⟩ _ hs ⟨rfl, ⟨-, hr, hn⟩, hne⟩
      simp only at hr hn hne
      unfold clusterStep
      simp only [← ha.events _ hr]
      cases he : c.events.find? nb.refId with
      | none => exact .throws
      | some refEv =>
        have hid := hk _ _ he
        simp only [hid, ← ha.phases _ hr]
        refine Both.foldlM (Q := Eq) ?_ (List.forall₂_same.2 (fun _ _ => rfl)) hs
        rintro s s' rp _ hs rfl
        unfold refPhaseStep
        rw [← ha.stations]
        cases c.stations.find? rp.stationId with
        | none => exact .throws
        | some st =>
          simp only
          split
          · exact .ok hs
          · split
            · exact .ok hs
            · refine Both.foldlM (Q := fun a b => a = b ∧ a ∈ nb.ids) ?_ (forall₂_self (fun a h => h)) hs
              rintro s s' n _ hs ⟨rfl, hmem⟩
              have hSn := hn n hmem
              unfold pairStep
              rw [← ha.events _ hSn]
              cases hev : c.events.find? n with
              | none => exact .throws
              | some ev =>
                have hid' := hk _ _ hev
                simp only
                split
                · exact .ok hs
                · split
                  · have : searchPhase c' ev.id (rp.stationId, rp.type) = searchPhase c ev.id (rp.stationId, rp.type) := by
                      unfold searchPhase
                      rw [hid', ha.phases _ hSn]
                    rw [this]
                    cases searchPhase c ev.id (rp.stationId, rp.type) with
                    | none => exact .ub
                    | some p =>
                      simp only
                      split
                      · exact .throws
                      · unfold request
                        rw [← show s.cache = s'.cache from hs, ← hp refEv.id ev.id (by rw [hid]; exact hr) (by rw [hid']; exact hSn)
                          (by rw [hid, hid']; rintro rfl; exact hne hmem)]
                        split
                        · exact .ok hs
                        · split
                          · exact .ok rfl
                          · rw [hx s.calls.length s'.calls.length]
                            refine Both.bind (Both.refl (R := Eq) (fun _ => rfl) _) ?_
                            rintro e _ rfl
                            exact .ok rfl
                  · exact .ok hs
    · clear calls calls'
      induction l with
      | nil => exact .nil
      | cons a l ih =>
        exact .cons ⟨rfl, hl a (by simp), hself a (by simp)⟩ (ih (fun b hb => hl b (by simp [hb])) (fun b hb => hself b (by simp [hb])))
  · exact .ok rfl

/-! ## all clusters -/

/-- the states of a relocation of the whole and of the part -/
structure RunPart (S : Nat → Bool) (s s' : MultiState K) : Prop where
  sound : s.reloc.Sound
  sound' : s'.reloc.Sound
  events : ∀ k, S k = true → s.reloc.events.find? k = s'.reloc.events.find? k
  phases : ∀ k, S k = true → s.reloc.phasesOf k = s'.reloc.phasesOf k
  only : ∀ k, S k = false → s'.reloc.events.find? k = none
  data : SameResultsOn S s.xcorrData s'.xcorrData
  od : OneDir s.xcorrData
  uq : Uniq s.xcorrData
  od' : OneDir s'.xcorrData
  uq' : Uniq s'.xcorrData

theorem merge_part {d o : Cache} (hd : OneDir d) (ud : Uniq d) (ho : OneDir o) (uo : Uniq o) {a b : Nat} (hab : a ≠ b) (s p : String) :
    XCorr.get (merge d o) a b s p = (XCorr.get o a b s p).or (XCorr.get d a b s p) := by
  rw [XCorr.get_merge hd ud ho uo hab]
  unfold XCorrSpec.View.overlay
  beta_reduce
  cases hx : XCorr.get o a b s p <;> rfl

theorem merged_phases {a b r : Catalog K} (hb : b.Sound)
    (h : ∀ k, r.phasesOf k = if (a.events.find? k).isSome then a.phasesOf k else if (b.events.find? k).isSome then b.phasesOf k else [])
    (k : Nat) : r.phasesOf k = if (a.events.find? k).isSome then a.phasesOf k else b.phasesOf k := by
  rw [h]
  cases hr : b.events.find? k with
  | some e => rfl
  | none =>
    rw [Catalog.phasesOf_of_no_event hb hr]
    simp

theorem multi_part {m : MultiArgs K} (hx : Steady m.x) (hsol : ∀ i j, m.sol i = m.sol j) {bg bg' : Catalog K} (hs : bg.Sound)
    (hs' : bg'.Sound) (hn : NoAt bg) (hnew : ∀ k, ¬ Marked bg k) (hnew' : ∀ k, ¬ Marked bg' k) (ha : AgreeOn S bg bg')
    (hlive : ∃ k, S k = true ∧ (bg.events.find? k).isSome = true) (cls : List Cluster) :
    (∀ cl ∈ cls, GoodCluster cl ∧ NoSelf cl ∧ 28 * (cl.map (·.2.phases.length)).sum ≤ IdToIndex.uintMod) → Split S cls →
    ∀ (s s' t : MultiState K), RunPart S s s' → cls.foldlM (multiStep m bg) s = .ok t →
      ∃ t', (ofPart S cls).foldlM (multiStep m bg') s' = .ok t' ∧ RunPart S t t' := by
  have hpart : Part S bg (restrict bg S) := ⟨rfl, fun k e he => (hs.eventKey k e he).1, fun k _ => hnew k, hlive, hs.eventsUnique⟩
  have hpart' : Part S bg' (restrict bg' S) := by
    obtain ⟨k, h1, h2⟩ := hlive
    exact ⟨rfl, fun k e he => (hs'.eventKey k e he).1, fun k _ => hnew' k, ⟨k, h1, by rw [← ha.events k h1]; exact h2⟩, hs'.eventsUnique⟩
  induction cls with
  | nil =>
    intro _ _ s s' t h ht
    cases ht
    exact ⟨s', rfl, h⟩
  | cons cl cls ih =>
    intro hg hsp s s' t h ht
    rw [List.foldlM_cons, Outcome.bind_eq_ok] at ht
    obtain ⟨u, hu, ht⟩ := ht
    obtain ⟨hgc, hself, hfit⟩ := hg cl (by simp)
    have ih := ih (fun d hd => hg d (by simp [hd])) (fun d hd => hsp d (by simp [hd]))
    unfold multiStep at hu
    rw [Outcome.bind_eq_ok] at hu
    obtain ⟨b, hb, hu⟩ := hu
    rw [Outcome.bind_eq_ok] at hu
    obtain ⟨⟨r, log⟩, hrel, hu⟩ := hu
    have hext := build_ext hs h.od hself hb
    obtain ⟨new, hcalls, hbuilt⟩ := hext.built ⟨[], by simp, Built.start _ _ _ _⟩
    have hga : GoodArgs (m.toArgs s.done.length cl b.cache) := ⟨hgc, hfit⟩
    obtain ⟨_, _, _, hrs, _⟩ := relocate_summary hga hs hn hrel
    have hret := relocate_returns_solved_partial hga hs hn hnew hrel
    obtain ⟨rc, k1, k2, k3, k4, _⟩ := Catalog.catalog_merge_keep_ids h.sound hrs.placed
    have k4 := merged_phases hrs k4
    simp only [k1, Outcome.ok.injEq] at hu
    rcases hsp cl (by simp) with hw | ⟨hne, hw⟩
    · -- a cluster of the part
      have hin : ofPart S (cl :: cls) = cl :: ofPart S cls := by
        unfold ofPart
        rw [List.filter_cons, if_pos]
        simp only [List.all_eq_true]
        exact fun kv hkv => (hw kv hkv).1
      have hbp := build_part hx ha hpart.keyed h.data hw hself s.calls s'.calls
      rw [hb] at hbp
      obtain ⟨b', hb', hc⟩ : ∃ b', buildXCorrCache m.x bg' cl s'.xcorrData s'.calls = .ok b' ∧ b.cache = b'.cache := by
        revert hbp
        cases buildXCorrCache m.x bg' cl s'.xcorrData s'.calls with
        | ok b' => intro h; cases h with | ok h => exact ⟨b', rfl, h⟩
        | throws => intro h; cases h
        | ub => intro h; cases h
      have hrp := relocate_agree m.env m.so ⟨false, m.usePickUncertainties, m.xcorrWeightScaler, m.minCoef⟩ (x := b.cache) (y := b'.cache)
        (fun a b s p => by rw [hc]) (l := cl) (l' := cl) (List.forall₂_same.2 (fun _ _ => ⟨rfl, rfl, List.Perm.refl _⟩)) hw hw
        (m.sol s.done.length) hpart hpart' ha
      have hrel' : relocate (⟨m.env, m.so, ⟨false, m.usePickUncertainties, m.xcorrWeightScaler, m.minCoef⟩, b.cache, cl, m.sol s.done.length⟩ : Args K) bg = .ok (r, log) := hrel
      rw [hrel'] at hrp
      obtain ⟨log', hr'⟩ : ∃ log', relocate (m.toArgs s'.done.length cl b'.cache) bg' = .ok (r, log') := by
        unfold MultiArgs.toArgs
        rw [hsol s'.done.length s.done.length]
        revert hrp
        generalize relocate (⟨m.env, m.so, ⟨false, m.usePickUncertainties, m.xcorrWeightScaler, m.minCoef⟩, b'.cache, cl, m.sol s.done.length⟩ : Args K) bg' = z
        intro hrp
        cases hrp with | ok g => rename_i q; exact ⟨q.2, by rw [show q = (r, q.2) from Prod.ext g.1.symm rfl]⟩
      obtain ⟨rc', l1, l2, l3, l4, _⟩ := Catalog.catalog_merge_keep_ids h.sound' hrs.placed
      have l4 := merged_phases hrs l4
      rw [hin, List.foldlM_cons]
      have hstep : multiStep m bg' s' cl = .ok ⟨rc', XCorr.merge s'.xcorrData b'.cache, b'.calls, s'.done ++ [(b'.cache, r, log')]⟩ := by
        unfold multiStep
        rw [hb']
        simp only [Outcome.bind_ok]
        rw [hr']
        simp only [Outcome.bind_ok, l1]
      rw [hstep]
      simp only [Outcome.bind_ok]
      refine ih u _ t ?_ ht
      subst hu
      refine ⟨k2, l2, fun k hk => ?_, fun k hk => ?_, fun k hk => ?_, fun a b hA hB hab st p => ?_, (merge_inv h.od h.uq).1, (merge_inv h.od h.uq).2,
        (merge_inv h.od' h.uq').1, (merge_inv h.od' h.uq').2⟩
      · simp only
        rw [k3, l3, h.events k hk]
      · simp only
        rw [k4, l4, h.events k hk, h.phases k hk]
      · simp only
        rw [l3, h.only k hk]
        cases hr : r.events.find? k with
        | none => rfl
        | some e =>
          have := ((hret k).1 (by rw [hr]; rfl)).1
          obtain ⟨kv, h1, h2⟩ := List.mem_map.1 this
          have := (hw kv h1).1
          rw [h2, hk] at this
          cases this
      · simp only
        rw [merge_part h.od h.uq hbuilt.od hbuilt.uq hab, merge_part h.od' h.uq' (hc ▸ hbuilt.od) (hc ▸ hbuilt.uq) hab, hc, h.data a b hA hB hab]
    · -- another cluster
      have hin : ofPart S (cl :: cls) = ofPart S cls := by
        unfold ofPart
        rw [List.filter_cons, if_neg]
        obtain ⟨kv, rest, rfl⟩ := List.exists_cons_of_ne_nil hne
        have := (hw kv (by simp)).1
        simp only [Bool.not_eq_true'] at this
        simp [this]
      rw [hin]
      refine ih u s' t ?_ ht
      subst hu
      have hnone : ∀ k, S k = true → r.events.find? k = none := by
        intro k hk
        cases hr : r.events.find? k with
        | none => rfl
        | some e =>
          have := ((hret k).1 (by rw [hr]; rfl)).1
          obtain ⟨kv, h1, h2⟩ := List.mem_map.1 this
          have := (hw kv h1).1
          simp [h2, hk] at this
      refine ⟨k2, h.sound', fun k hk => ?_, fun k hk => ?_, h.only, fun a c hA hB hab st p => ?_, (merge_inv h.od h.uq).1, (merge_inv h.od h.uq).2,
        h.od', h.uq'⟩
      · simp only
        rw [k3, hnone k hk, Option.or_none, h.events k hk]
      · simp only
        rw [k4, ← h.phases k hk, Catalog.phasesOf_of_no_event hrs (hnone k hk)]
        cases he : s.reloc.events.find? k with
        | some e => rfl
        | none => rw [Catalog.phasesOf_of_no_event h.sound he]; rfl
      · simp only
        rw [merge_part h.od h.uq hbuilt.od hbuilt.uq hab, ← h.data a c hA hB hab]
        have : look b.cache a c (st, p) = none := by
          cases hl : look b.cache a c (st, p) with
          | none => rfl
          | some e =>
            have hwant : ∀ a c sp, S a = true → ¬ Wanted m.x bg cl a c sp := by
              rintro a c sp hA ⟨kv, h1, h2, -⟩
              have := (hw kv h1).2.1
              simp [h2, hA] at this
            rcases hext.only OneDir.nil a c (st, p) (by rw [hl]; rfl) with h1 | h1 | h1
            · cases h1
            · exact absurd h1.2 (hwant _ _ _ hA)
            · exact absurd h1.2 (hwant _ _ _ hB)
        unfold look at this
        rw [this]
        rfl

end Verif.Relocate
