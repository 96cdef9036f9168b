import Verif.Proofs.RelocateParams
import Verif.Spec.Residuals
import Verif.Props.Relocate
import Verif.Props.Solver

/-!
# Residuals, parameters and marks of a relocation (C61, C70, C83)
-/

set_option linter.unusedSectionVars false
set_option linter.unusedSimpArgs false

namespace Verif.Relocate
open Verif.Catalog Verif.Solver

variable {K : Type} [Field K] [LinearOrder K]

theorem givenAt_parametersAt {env : Env K} {c : Catalog K} {q : ParArg K} (h : GivenAt env c q) : ParametersAt env c q := by
  obtain ⟨ev, p, st, i, h1, h2, h3, h4, h5, h6, h7⟩ := h
  simp only [paramCalls, List.mem_cons, List.not_mem_nil, or_false, reduceCtorEq, false_or,
        SolverOp.params.injEq] at h7
  refine ⟨ev, p, st, phaseName env p, i, h1, h2, h3, h4, h5, ?_, h6, ?_, ?_, ?_, ?_, ?_⟩
  · unfold phaseName
    cases env.psTableOnly <;> cases p.procType <;> simp
  · rw [h7]
  · rw [h7]; rfl
  · rw [h7]; simp only; ring
  · rw [h7]; simp only; ring
  · rw [h7]

/-- the catalogs around the entries of a log -/
theorem entry_facts {a : Args K} (hg : GoodArgs a) {cat r : Catalog K} (hs : cat.Sound) (hn : NoAt cat)
    {log : List (IterLog K)} (h : relocate a cat = .ok (r, log)) {i : Nat} {x : IterLog K} (hx : log[i]? = some x) :
    ∃ prev, IterOk a i prev x.before x ∧ Rel a.cluster cat x.before ∧
      (i = 0 ∧ prev = Catalog.init ∧ x.before = cat ∨
        ∃ w ans, 0 < i ∧ log[i - 1]? = some w ∧ prev = w.after ∧ Rel a.cluster cat w.after ∧ w.answer = some ans ∧
          updateRelocatedEvents a.env (decide (i - 1 = 0)) ans a.cluster w.after = .ok x.before) := by
  obtain ⟨hrun, _⟩ := relocate_run h
  have hrel := hrun.rel hg (Rel.refl hs hn) (Or.inl rfl)
  cases i with
  | zero =>
    have hi : IterOk a 0 Catalog.init cat x := by
      cases hrun with
      | last _ hi _ _ => simp at hx; subst hx; exact hi
      | step hi _ _ _ => simp at hx; subst hx; exact hi
    refine ⟨Catalog.init, by rw [hi.before]; exact hi, (hrel x (List.mem_of_getElem? hx)).1, Or.inl ⟨rfl, rfl, hi.before⟩⟩
  | succ i =>
    have hlt : i < log.length := by
      have := (List.getElem?_eq_some_iff.1 hx).1; omega
    have hw : log[i]? = some log[i] := List.getElem?_eq_getElem hlt
    obtain ⟨h1, ans, h2, h3⟩ := hrun.link i _ _ hw hx
    rw [Nat.zero_add] at h1 h3
    exact ⟨log[i].after, h1, (hrel x (List.mem_of_getElem? hx)).1,
      Or.inr ⟨log[i], ans, by omega, by simpa using hw, rfl, (hrel _ (List.mem_of_getElem? hw)).2, h2, by simpa using h3⟩⟩

/-- **C61d.** In every iteration each observation given to the solver has parameters for both its events, and
both events are known to it: no observation reaches the equations without derivatives. -/
theorem observations_have_parameters {a : Args K} (hg : GoodArgs a) {cat r : Catalog K} (hs : cat.Sound) (hn : NoAt cat)
    {log : List (IterLog K)} (h : relocate a cat = .ok (r, log)) : ∀ x ∈ log, Complete x.ops := by
  intro x hx
  obtain ⟨i, hi⟩ := List.getElem?_of_mem hx
  obtain ⟨prev, hok, hrel, hcase⟩ := entry_facts hg hs hn h hi
  obtain ⟨ob, h1, h2, h3, h4⟩ := hok.observe
  have hp : prev = Catalog.init ∨ Rel a.cluster cat prev := by
    rcases hcase with ⟨_, h, _⟩ | ⟨w, ans, _, _, h, h', _⟩
    · exact Or.inl h
    · exact Or.inr (h ▸ h')
  obtain ⟨p1, p2, p3⟩ := prev_ok hrel hp
  rw [← h2]
  exact (observe_ops hrel.sound hrel.noAt p1 p2 p3 hg.cluster hg.fits h1).complete

/-- **C70c (partial: events that are not restored).** In every iteration the parameters given to the solver for an
event that was not restored describe its position at the beginning of the iteration; those for a restored event
describe either the position it was moved to or the one it was restored to. -/
theorem iteration_parameters_partial {a : Args K} (hg : GoodArgs a) {cat r : Catalog K} (hs : cat.Sound) (hn : NoAt cat)
    {log : List (IterLog K)} (h : relocate a cat = .ok (r, log)) {i : Nat} {x : IterLog K} (hx : log[i]? = some x) :
    ∀ q ∈ parOf x.ops, (q.ev ∉ x.reverted → ParametersAt a.env x.before q) ∧
      (q.ev ∈ x.reverted → ParametersAt a.env x.before q ∨
        ∃ w, 0 < i ∧ log[i - 1]? = some w ∧ ParametersAt a.env w.after q) := by
  obtain ⟨prev, hok, hrel, hcase⟩ := entry_facts hg hs hn h hx
  obtain ⟨ob, h1, h2, h3, h4⟩ := hok.observe
  have hp : prev = Catalog.init ∨ Rel a.cluster cat prev := by
    rcases hcase with ⟨_, h, _⟩ | ⟨w, ans, _, _, h, h', _⟩
    · exact Or.inl h
    · exact Or.inr (h ▸ h')
  obtain ⟨p1, p2, p3⟩ := prev_ok hrel hp
  have hops := observe_ops hrel.sound hrel.noAt p1 p2 p3 hg.cluster hg.fits h1
  intro q hq
  rw [← h2] at hq
  rw [← h3]
  rcases hops.given q hq with hgv | ⟨hrv, hgv⟩
  · exact ⟨fun _ => givenAt_parametersAt hgv, fun _ => Or.inl (givenAt_parametersAt hgv)⟩
  · refine ⟨fun hc => absurd hrv hc, fun _ => Or.inr ?_⟩
    rcases hcase with ⟨_, h, _⟩ | ⟨w, ans, hpos, hw, h, _⟩
    · rw [h] at hgv
      obtain ⟨ev, _, _, _, e1, _⟩ := hgv
      simp [Catalog.init] at e1
    · exact ⟨w, hpos, hw, givenAt_parametersAt (h ▸ hgv)⟩

/-! ## C83 -/

/-- an entry in terms of the catalog it started from -/
theorem entry_exact {a : Args K} (hg : GoodArgs a) {cat r : Catalog K} (hs : cat.Sound) (hn : NoAt cat)
    {log : List (IterLog K)} (h : relocate a cat = .ok (r, log)) {i : Nat} {x : IterLog K} (hx : log[i]? = some x)
    {prev : Catalog K} (hok : IterOk a i prev x.before x) (hrel : Rel a.cluster cat x.before)
    (hp : prev = Catalog.init ∨ Rel a.cluster cat prev) {k : Nat} (hk : k ∈ a.cluster.map (·.1)) :
    ∃ src : Catalog K, src = (if k ∈ x.reverted then prev else x.before) ∧ ∃ ev, src.events.find? k = some ev ∧
      (∃ rms, IsRms a.env.sqrt (residualsOf a.o x k) rms ∧
        x.after.events.find? k = some { ev with
          startRms := if i = 0 then rms else ev.startRms
          finalRms := if i = 0 then 0 else rms }) ∧
      x.after.phasesOf k = (src.phasesOf k).map
        (fun p => residualPhase a.o.usePickUncertainties (decide (i = 0)) (givenResidual x.ops k p) p) := by
  obtain ⟨ob, h1, h2, h3, h4⟩ := hok.observe
  obtain ⟨p1, p2, p3⟩ := prev_ok hrel hp
  have hi := observe_inv hrel.sound hrel.noAt p1 p2 p3 hg.cluster hg.fits h1
  have hnd : (a.cluster.map (·.2.refId)).Nodup := by rw [refIds_eq hg.cluster]; exact hg.cluster.nodup
  obtain ⟨ev, e1, e2, e3⟩ := computeEventResiduals_exact hi.sound hnd h4 k (by rw [refIds_eq hg.cluster]; exact hk)
  have hfits : Fits ob.ops := by
    have := hi.len; have := hg.fits; unfold Fits; omega
  have hres : ∀ p ∈ ob.cur.phasesOf k, residualOf ob.ops ob.cur k p = givenResidual x.ops k p := by
    intro p hp
    have hm := Catalog.mem_phasesOf.1 hp
    obtain ⟨st, hst⟩ := Option.isSome_iff_exists.1 (hi.sound.phaseStation _ hm)
    simp only at hst
    have hid := (hi.sound.stationKey _ _ hst).1
    unfold residualOf givenResidual
    rw [hst]
    simp only
    rw [getParams_eq hfits hi.sep k st.id (hi.noAt _ _ hp), hid, h2]
    cases paramsOf x.ops k p.stationId.toList p.type.toList <;> rfl
  have hph : x.after.phasesOf k = (ob.cur.phasesOf k).map
      (fun p => residualPhase a.o.usePickUncertainties (decide (i = 0)) (givenResidual x.ops k p) p) := by
    rw [e3]
    apply List.map_congr_left
    intro p hp
    rw [hres p hp]
  have hrms : IsRms a.env.sqrt (residualsOf a.o x k) (rmsOf a.env a.o.usePickUncertainties ob.ops ob.cur k) := by
    have hlist : residualsOf a.o x k = ((ob.cur.phasesOf k).filter
        (fun p => (residualOf ob.ops ob.cur k p).isSome)).map
        (fun p => ((residualOf ob.ops ob.cur k p).getD 0, pickWeight a.o p)) := by
      unfold residualsOf
      rw [hph, List.filterMap_map]
      have : ∀ l : List (Phase K), (∀ p ∈ l, p ∈ ob.cur.phasesOf k) → l.filterMap
          ((fun p => (givenResidual x.ops k p).map (fun r => (r, pickWeight a.o p))) ∘
            fun p => residualPhase a.o.usePickUncertainties (decide (i = 0)) (givenResidual x.ops k p) p) =
          (l.filter (fun p => (residualOf ob.ops ob.cur k p).isSome)).map
            (fun p => ((residualOf ob.ops ob.cur k p).getD 0, pickWeight a.o p)) := by
        intro l
        induction l with
        | nil => intro _; rfl
        | cons p l ih =>
          intro hl
          have h0 := hres p (hl p (by simp))
          have hgr : ∀ f, givenResidual x.ops k (residualPhase a.o.usePickUncertainties (decide (i = 0)) f p) =
              givenResidual x.ops k p := fun _ => rfl
          have hpw : ∀ f, pickWeight a.o (residualPhase a.o.usePickUncertainties (decide (i = 0)) f p) =
              pickWeight a.o p := fun _ => rfl
          have ih := ih (fun y hy => hl y (List.mem_cons_of_mem _ hy))
          rw [List.filterMap_cons, List.filter_cons]
          simp only [Function.comp_apply, hgr, hpw]
          rw [h0]
          cases hgp : givenResidual x.ops k p with
          | none => simpa using ih
          | some r => simpa [h0, hgp] using ih
      exact this _ (fun _ h => h)
    unfold IsRms
    rw [hlist]
    unfold rmsOf
    simp only [List.map_map, Function.comp_def, pickWeight, pow_two]
  refine ⟨_, rfl, ?_⟩
  rw [← h3]
  by_cases hk' : k ∈ ob.reverted
  · rw [if_pos hk']
    obtain ⟨r1, r2, r3⟩ := hi.restored k hk'
    refine ⟨ev, by rw [← r1]; exact e1, ⟨_, hrms, ?_⟩, by rw [← r3]; exact hph⟩
    rw [e2]; simp
  · rw [if_neg hk']
    refine ⟨ev, by rw [← hi.keep.events k hk']; exact e1, ⟨_, hrms, ?_⟩, by rw [← hi.keep.phases k hk']; exact hph⟩
    rw [e2]; simp

theorem entry_prev {a : Args K} {cat prev : Catalog K} {log : List (IterLog K)} {i : Nat} {x : IterLog K}
    (hcase : i = 0 ∧ prev = Catalog.init ∧ x.before = cat ∨
        ∃ w ans, 0 < i ∧ log[i - 1]? = some w ∧ prev = w.after ∧ Rel a.cluster cat w.after ∧ w.answer = some ans ∧
          updateRelocatedEvents a.env (decide (i - 1 = 0)) ans a.cluster w.after = .ok x.before) :
    prev = Catalog.init ∨ Rel a.cluster cat prev := by
  rcases hcase with ⟨_, h, _⟩ | ⟨w, ans, _, _, h, h', _⟩
  · exact Or.inl h
  · exact Or.inr (h ▸ h')

/-- **C83a.** After every iteration, each event of the cluster reports: for every pick its a-priori weight and the
residual the solver was given for it (0 without one), as start residual in the first iteration and as final
residual in the others; and the weighted root mean square of these residuals, as start and final value likewise. -/
theorem residuals_reported {a : Args K} (hg : GoodArgs a) {cat r : Catalog K} (hs : cat.Sound) (hn : NoAt cat)
    {log : List (IterLog K)} (h : relocate a cat = .ok (r, log)) {i : Nat} {x : IterLog K} (hx : log[i]? = some x)
    {k : Nat} (hk : k ∈ a.cluster.map (·.1)) :
    (∀ p ∈ x.after.phasesOf k, p.weight = pickWeight a.o p ∧
      (i = 0 → p.startResidual = (givenResidual x.ops k p).getD 0 ∧ p.finalResidual = 0) ∧
      (i ≠ 0 → p.finalResidual = (givenResidual x.ops k p).getD 0)) ∧
    ∃ e, x.after.events.find? k = some e ∧
      (i = 0 → IsRms a.env.sqrt (residualsOf a.o x k) e.startRms ∧ e.finalRms = 0) ∧
      (i ≠ 0 → IsRms a.env.sqrt (residualsOf a.o x k) e.finalRms) := by
  obtain ⟨prev, hok, hrel, hcase⟩ := entry_facts hg hs hn h hx
  obtain ⟨src, _, ev, e1, ⟨rms, e2, e3⟩, e4⟩ := entry_exact hg hs hn h hx hok hrel (entry_prev hcase) hk
  refine ⟨?_, _, e3, ?_, ?_⟩
  · intro p hp
    rw [e4, List.mem_map] at hp
    obtain ⟨p0, _, rfl⟩ := hp
    have hgr : ∀ f, givenResidual x.ops k (residualPhase a.o.usePickUncertainties (decide (i = 0)) f p0) =
        givenResidual x.ops k p0 := fun _ => rfl
    rw [hgr]
    refine ⟨rfl, ?_, ?_⟩
    · intro h0; simp [residualPhase, h0]
    · intro h0; simp [residualPhase, h0]
  · intro h0; simp [h0]; exact e2
  · intro h0; simp [h0]; exact e2

/-- **C83b.** What was reported as start value in the first iteration stays, through all iterations and whatever is
restored. -/
theorem start_values_kept {a : Args K} (hg : GoodArgs a) {cat r : Catalog K} (hs : cat.Sound) (hn : NoAt cat)
    {log : List (IterLog K)} (h : relocate a cat = .ok (r, log)) {first : IterLog K} (hf : log[0]? = some first)
    {k : Nat} (hk : k ∈ a.cluster.map (·.1)) : ∀ (i : Nat) (x : IterLog K), log[i]? = some x →
    (x.after.events.find? k).map (·.startRms) = (first.after.events.find? k).map (·.startRms) ∧
    (x.after.phasesOf k).map (·.startResidual) = (first.after.phasesOf k).map (·.startResidual) := by
  intro i
  induction i with
  | zero => intro x hx; rw [hf] at hx; simp only [Option.some.injEq] at hx; subst hx; exact ⟨rfl, rfl⟩
  | succ i ih =>
    intro x hx
    obtain ⟨prev, hok, hrel, hcase⟩ := entry_facts hg hs hn h hx
    obtain ⟨src, hsrc, ev, e1, ⟨rms, e2, e3⟩, e4⟩ := entry_exact hg hs hn h hx hok hrel (entry_prev hcase) hk
    rcases hcase with ⟨h0, _⟩ | ⟨w, ans, _, hw, rfl, hrw, _, hu⟩
    · cases h0
    · rw [Nat.add_sub_cancel] at hw hu
      obtain ⟨w1, w2⟩ := ih w hw
      rw [← w1, ← w2]
      have hupd := (updateRelocatedEvents_spec hrw.sound (by rw [refIds_eq hg.cluster]; exact hg.cluster.nodup) hu).2.2 k
        (by rw [refIds_eq hg.cluster]; exact hk)
      have key : (src.events.find? k).map (·.startRms) = (w.after.events.find? k).map (·.startRms) ∧
          (src.phasesOf k).map (·.startResidual) = (w.after.phasesOf k).map (·.startResidual) := by
        by_cases hrv : k ∈ x.reverted
        · rw [if_pos hrv] at hsrc; rw [hsrc]; exact ⟨rfl, rfl⟩
        · rw [if_neg hrv] at hsrc
          rw [hsrc]
          obtain ⟨e, he⟩ := Option.isSome_iff_exists.1 hupd.exists_
          refine ⟨?_, ?_⟩
          · rw [hupd.event e he, he]
            cases ans.changes k <;> simp [moveEvent]
          · rw [hupd.marks]
            cases ans.changes k with
            | none => rfl
            | some d => simp only [List.map_map]; rfl
      rw [← key.1, ← key.2, e3, e4, e1]
      refine ⟨by simp, ?_⟩
      rw [List.map_map]
      apply List.map_congr_left
      intro p _
      simp [residualPhase]

/-- **C83c.** A returned event, and its picks, are those after the last iteration: with **C83a** and **C83b** the
start values reported are those of the first iteration, the final values those of the last. -/
theorem returned_residuals {a : Args K} (hg : GoodArgs a) {cat r : Catalog K} (hs : cat.Sound) (hn : NoAt cat)
    {log : List (IterLog K)} (h : relocate a cat = .ok (r, log)) {first last : IterLog K}
    (hf : log[0]? = some first) (hl : log.getLast? = some last)
    {k : Nat} (hk : k ∈ a.cluster.map (·.1)) {e : Event K} (he : r.events.find? k = some e) :
    IsRms a.env.sqrt (residualsOf a.o first k) e.startRms ∧
    (log.length = 1 → e.finalRms = 0) ∧
    (1 < log.length → IsRms a.env.sqrt (residualsOf a.o last k) e.finalRms) ∧
    (r.phasesOf k).map (·.startResidual) =
      (first.after.phasesOf k).map (fun p => (givenResidual first.ops k p).getD 0) ∧
    ∀ p ∈ r.phasesOf k, p.weight = pickWeight a.o p ∧
      (log.length = 1 → p.finalResidual = 0) ∧
      (1 < log.length → p.finalResidual = (givenResidual last.ops k p).getD 0) := by
  obtain ⟨last', hl', hrel, g2, g3, g4, g5, g6, g7⟩ := relocate_summary hg hs hn h
  rw [hl] at hl'
  simp only [Option.some.injEq] at hl'
  subst hl'
  have hflag : flag last.after k = true := by
    rw [g3] at he
    split at he
    · assumption
    · cases he
  rw [g3, if_pos hflag] at he
  rw [g4, if_pos hflag]
  have hpos : 0 < log.length := by
    have := (List.getElem?_eq_some_iff.1 hf).1; exact this
  have hlast : log[log.length - 1]? = some last := by rw [← List.getLast?_eq_getElem?]; exact hl
  obtain ⟨a1, e1, a2, a3, a4⟩ := residuals_reported hg hs hn h hf hk
  obtain ⟨b1, e2, b2, b3, b4⟩ := residuals_reported hg hs hn h hlast hk
  obtain ⟨c1, c2⟩ := start_values_kept hg hs hn h hf hk _ _ hlast
  rw [he] at b2 c1
  simp only [Option.some.injEq] at b2
  subst b2
  rw [a2] at c1
  simp only [Option.map_some, Option.some.injEq] at c1
  refine ⟨by rw [c1]; exact (a3 rfl).1, fun h1 => (b3 (by omega)).2, fun h1 => b4 (by omega), ?_, ?_⟩
  · rw [c2]
    apply List.map_congr_left
    intro p hp
    exact ((a1 p hp).2.1 rfl).1
  · intro p hp
    exact ⟨(b1 p hp).1, fun h1 => ((b1 p hp).2.1 (by omega)).2, fun h1 => (b1 p hp).2.2 (by omega)⟩

/-- **C83d.** Events outside of the cluster, and their picks, are left entirely as they are. -/
theorem others_untouched {a : Args K} (hg : GoodArgs a) {cat r : Catalog K} (hs : cat.Sound) (hn : NoAt cat)
    {log : List (IterLog K)} (h : relocate a cat = .ok (r, log)) {x : IterLog K} (hx : x ∈ log)
    {k : Nat} (hk : k ∉ a.cluster.map (·.1)) :
    x.after.events.find? k = cat.events.find? k ∧ x.after.phasesOf k = cat.phasesOf k := by
  obtain ⟨hrun, _⟩ := relocate_run h
  exact (hrun.rel hg (Rel.refl hs hn) (Or.inl rfl) x hx).2.others k hk

/-- **C83e (partial: no pick of the event is marked on input).** A pick is marked as used exactly if a solution of an
iteration before, which was kept, used it. -/
theorem pick_marks_partial {a : Args K} (hg : GoodArgs a) {cat r : Catalog K} (hs : cat.Sound) (hn : NoAt cat)
    {log : List (IterLog K)} (h : relocate a cat = .ok (r, log)) {k : Nat} (hk : k ∈ a.cluster.map (·.1))
    (hm : ∀ p ∈ cat.phasesOf k, p.isRelocated = false) : ∀ (i : Nat) (x : IterLog K), log[i]? = some x →
    ∀ p ∈ x.after.phasesOf k, p.isRelocated = true ↔ KeptUse log i k p.stationId p.type := by
  intro i
  induction i with
  | zero =>
    intro x hx p hp
    obtain ⟨prev, hok, hrel, hcase⟩ := entry_facts hg hs hn h hx
    have hpv := entry_prev hcase
    obtain ⟨src, hsrc, ev, e1, _, e4⟩ := entry_exact hg hs hn h hx hok hrel hpv hk
    rcases hcase with ⟨_, rfl, hb⟩ | ⟨w, ans, h0, _⟩
    · have hrv : x.reverted = [] := by rw [hb] at hok; exact reverted_first hg hok (Rel.refl hs hn)
      rw [hrv] at hsrc
      simp only [List.not_mem_nil, if_false] at hsrc
      rw [e4, hsrc, hb, List.mem_map] at hp
      obtain ⟨p0, hp0, rfl⟩ := hp
      have : (residualPhase a.o.usePickUncertainties (decide (0 = 0)) (givenResidual x.ops k p0) p0).isRelocated = false :=
        hm p0 hp0
      rw [this]
      simp only [Bool.false_eq_true, false_iff]
      rintro ⟨i, _, _, hi, _⟩
      omega
    · omega
  | succ i ih =>
    intro x hx p hp
    obtain ⟨prev, hok, hrel, hcase⟩ := entry_facts hg hs hn h hx
    obtain ⟨src, hsrc, ev, e1, _, e4⟩ := entry_exact hg hs hn h hx hok hrel (entry_prev hcase) hk
    rcases hcase with ⟨h0, _⟩ | ⟨w, ans, _, hw, rfl, hrw, hans, hu⟩
    · cases h0
    · rw [Nat.add_sub_cancel] at hw hu
      have hupd := (updateRelocatedEvents_spec hrw.sound (by rw [refIds_eq hg.cluster]; exact hg.cluster.nodup) hu).2.2 k
        (by rw [refIds_eq hg.cluster]; exact hk)
      have ih := ih w hw
      have hstep : ∀ sta ty, KeptUse log (i + 1) k sta ty ↔ (KeptUse log i k sta ty ∨
          ((ans.changes k).isSome = true ∧ ans.used k sta ty = true ∧ k ∉ x.reverted)) := by
        intro sta ty
        constructor
        · rintro ⟨j, y, an, h1, h2, h3, h4, h5, h6⟩
          by_cases hj : j = i
          · subst hj
            rw [hw] at h2
            simp only [Option.some.injEq] at h2
            subst h2
            rw [hans] at h3
            simp only [Option.some.injEq] at h3
            subst h3
            exact Or.inr ⟨h4, h5, h6 x hx⟩
          · exact Or.inl ⟨j, y, an, by omega, h2, h3, h4, h5, h6⟩
        · rintro (⟨j, y, an, h1, h2⟩ | ⟨h1, h2, h3⟩)
          · exact ⟨j, y, an, by omega, h2⟩
          · refine ⟨i, w, ans, by omega, hw, hans, h1, h2, ?_⟩
            intro y hy
            rw [hx] at hy
            simp only [Option.some.injEq] at hy
            subst hy; exact h3
      rw [hstep]
      rw [e4, List.mem_map] at hp
      obtain ⟨p0, hp0, rfl⟩ := hp
      have hr : ∀ f, (residualPhase a.o.usePickUncertainties (decide (i + 1 = 0)) f p0).isRelocated = p0.isRelocated ∧
          (residualPhase a.o.usePickUncertainties (decide (i + 1 = 0)) f p0).stationId = p0.stationId ∧
          (residualPhase a.o.usePickUncertainties (decide (i + 1 = 0)) f p0).type = p0.type := fun _ => ⟨rfl, rfl, rfl⟩
      rw [(hr _).1, (hr _).2.1, (hr _).2.2]
      by_cases hrv : k ∈ x.reverted
      · rw [if_pos hrv] at hsrc
        rw [hsrc] at hp0
        rw [ih p0 hp0]
        simp [hrv]
      · rw [if_neg hrv] at hsrc
        rw [hsrc, hupd.marks] at hp0
        cases hch : ans.changes k with
        | none =>
          rw [hch] at hp0
          rw [ih p0 hp0]
          simp
        | some d =>
          rw [hch] at hp0
          simp only [List.mem_map] at hp0
          obtain ⟨p1, hp1, rfl⟩ := hp0
          obtain ⟨st, hst⟩ := Option.isSome_iff_exists.1 (hrw.sound.phaseStation _ (Catalog.mem_phasesOf.1 hp1))
          simp only at hst
          have hid := (hrw.sound.stationKey _ _ hst).1
          have hih := ih p1 hp1
          have h0 : i = 0 → p1.isRelocated = false := by
            intro hi0
            cases hb : p1.isRelocated with
            | false => rfl
            | true =>
              obtain ⟨j, _, _, hj, _⟩ := hih.1 hb
              omega
          simp only [updatePhase, hst, hid, Option.isSome_some, true_and, hrv, not_false_eq_true, and_true]
          rw [Bool.or_eq_true, Bool.and_eq_true, ← hih]
          by_cases hi0 : i = 0
          · simp [hi0, h0 hi0]
          · simp [hi0]
            tauto

/-! ## Concrete cases -/

namespace Example

/-- a pick of a returned catalog: station, start and final residual, weight, mark -/
structure SeenPick where
  event : Nat
  station : String
  time : Int
  start : ℚ
  final : ℚ
  weight : ℚ
  used : Bool
deriving DecidableEq

def picks (r : Catalog ℚ) : List SeenPick :=
  r.phases.map (fun kp => ⟨kp.1, kp.2.stationId, kp.2.time, kp.2.startResidual, kp.2.finalResidual, kp.2.weight, kp.2.isRelocated⟩)

/-- start and final RMS -/
structure SeenRms where
  event : Nat
  latitude : ℚ
  time : Int
  start : ℚ
  final : ℚ
deriving DecidableEq

def rmses (r : Catalog ℚ) : List SeenRms := r.events.map (fun kv => ⟨kv.1, kv.2.latitude, kv.2.time, kv.2.startRms, kv.2.finalRms⟩)

def checkRes (x : Outcome (Catalog ℚ × List (IterLog ℚ))) (ps : List SeenPick) (es : List SeenRms) (its : List Done) : Bool :=
  match x with
  | .ok (r, log) => decide (picks r = ps) && decide (rmses r = es) && decide (doneIn log = its)
  | _ => false

theorem checkRes_true {x : Outcome (Catalog ℚ × List (IterLog ℚ))} {ps es its} (h : checkRes x ps es its = true) :
    ∃ r log, x = .ok (r, log) ∧ picks r = ps ∧ rmses r = es ∧ doneIn log = its := by
  match x, h with
  | .ok (r, log), h =>
    simp only [checkRes, Bool.and_eq_true, decide_eq_true_eq] at h
    exact ⟨r, log, rfl, h.1.1, h.1.2, h.2⟩

/-- the theorems of this file apply to a run that returns event 1 with a residual of 1 s before and, its origin being
one second later, 0 s after; the pick was used (`sqrt` of this environment is the identity) -/
example : ∃ r log, relocate args cat = .ok (r, log) ∧
    picks r = [⟨1, "N.A.", 15000000, 1, 0, 1/2, true⟩] ∧ rmses r = [⟨1, 47, 11000000, 1, 0⟩] ∧
    doneIn log = [⟨[], 1, true⟩, ⟨[], 3, true⟩, ⟨[1], 5, false⟩] :=
  checkRes_true (by decide +kernel)

example : (∀ p ∈ cat.phasesOf 1, p.isRelocated = false) ∧ 1 ∈ args.cluster.map (·.1) := by decide +kernel

def st2 : Station ℚ := ⟨"N.B.", 1, 2, 0, "N", "B", ""⟩

def ph2 (id : Nat) (t : Int) : Phase ℚ :=
  ⟨id, "N.B.", t, 0, 0, "Pg", "N", "B", "", "HHZ", .P, 1/2, .catalog, false, 0, 0, 0⟩

/-- two events with picks at two stations -/
def cat2 : Catalog ℚ :=
  ((((((Catalog.init.addStation st).addStation st2).addEvent (ev 1 10000000 46) true).1.addEvent (ev 2 20000000 46) true).1.addPhase
    (ph 1 15000000)).addPhase (ph 2 23000000)).addPhase (ph2 1 15000000) |>.addPhase (ph2 2 23000000)

/-- travel times to station A are known everywhere (9 s beyond 1000 degrees), to station B only below 1000 degrees -/
def env2 : Env ℚ :=
  { env with ttt := fun e s _ => if e.latitude < 1000 then some ⟨4, 90, 100, 2, 1⟩
      else if s.id = "N.A." then some ⟨9, 90, 100, 2, 1⟩ else none }

/-- event 2 is a neighbour of event 1 at station A, event 1 a neighbour of event 2 at station B; event 2 moves by one
degree, then by 5000 -/
def stale : Args ℚ :=
  ⟨env2, ⟨2, 1, 3, 0, 0, 0, 0⟩, opt, [], [(1, ⟨1, [(2, [("N.A.", "Pg")])]⟩), (2, ⟨2, [(1, [("N.B.", "Pg")])]⟩)],
    solver 2 (fun it => if it = 0 then 1 else 5000)⟩

end Example

/-- **C70 and C83 are false of restored events**: an event that left the travel-time model and was restored is returned
with a residual that belongs to the place it was restored from, and the solver was given that residual: parameters given
for it as a neighbour, before its own turn, are not replaced. -/
theorem restored_event_stale_residual :
    ∃ (a : Args ℚ) (cat : Catalog ℚ) (r : Catalog ℚ) (log : List (IterLog ℚ)) (e : Event ℚ) (p : Phase ℚ),
      GoodArgs a ∧ cat.Sound ∧ NoAt cat ∧ relocate a cat = .ok (r, log) ∧
      r.events.find? 2 = some e ∧ p ∈ r.phasesOf 2 ∧
      ∀ st tt, a.env.ttt e st "P" = some tt → p.finalResidual ≠ travelTime e p - tt.tt := by
  obtain ⟨r, log, h1, h2, h3, h4⟩ := Example.checkRes_true (x := relocate Example.stale Example.cat2)
    (ps := [⟨2, "N.A.", 23000000, -1, -8, 1/2, true⟩, ⟨2, "N.B.", 23000000, -1, -2, 1/2, true⟩])
    (es := [⟨2, 47, 21000000, 1, 34⟩])
    (its := [⟨[], 1, true⟩, ⟨[], 3, true⟩, ⟨[2], 5, false⟩]) (by decide +kernel)
  have hg : GoodArgs Example.stale := ⟨⟨by decide, by decide⟩, by decide⟩
  have hcs : Example.cat2.Sound := Example.sound_of (.addPhase _ (.addPhase _ (.addPhase _ (.addPhase _
    (.addEvent _ _ (by decide) (.addEvent _ _ (by decide) (.addStation _ (.addStation _ .init)))))))) (by decide +kernel) (by decide +kernel)
  have hna : NoAt Example.cat2 := Example.noAt_of (by decide +kernel)
  have hsr := (relocate_content hg hcs hna h1).1
  have he : (⟨2, 47, 21000000, 1, 34⟩ : Example.SeenRms) ∈ Example.rmses r := by rw [h3]; simp
  have hp : (⟨2, "N.A.", 23000000, -1, -8, 1/2, true⟩ : Example.SeenPick) ∈ Example.picks r := by rw [h2]; simp
  unfold Example.rmses at he
  unfold Example.picks at hp
  rw [List.mem_map] at he hp
  obtain ⟨⟨ke, e⟩, hke, e1⟩ := he
  obtain ⟨⟨kp, p⟩, hkp, p1⟩ := hp
  simp only [Example.SeenRms.mk.injEq] at e1
  simp only [Example.SeenPick.mk.injEq] at p1
  obtain ⟨rfl, elat, etime, _⟩ := e1
  obtain ⟨rfl, psta, ptime, _, pfin, _⟩ := p1
  refine ⟨Example.stale, Example.cat2, r, log, e, p, hg, hcs, hna, h1, AMap.find?_of_mem hsr.eventsUnique hke,
    Catalog.mem_phasesOf.2 hkp, ?_⟩
  intro st tt htt
  have hlt : e.latitude < 1000 := by rw [elat]; norm_num
  simp only [Example.stale, Example.env2, hlt, if_true, Option.some.injEq] at htt
  rw [← htt, pfin]
  unfold travelTime
  rw [ptime, etime]
  norm_num

namespace Example

def markedPick : Catalog ℚ :=
  ((((Catalog.init.addStation st).addEvent (ev 1 10000000 46) true).1.addEvent (ev 2 20000000 46) true).1.addPhase
    { ph 1 15000000 with isRelocated := true }).addPhase (ph 2 23000000)

/-- no solution for event 1 in the first iteration, one that does not use any phase in the second -/
def late : Args ℚ :=
  ⟨env, ⟨2, 1, 3, 0, 0, 0, 0⟩, opt, xc, [(1, nb), (2, nb2)],
    { prepare := fun _ _ _ _ => .ok ()
      solve := fun it _ _ => some ⟨fun j => if j = 1 ∧ it = 1 then some ⟨0, 1, 0, 1⟩ else none, fun _ _ _ => false⟩ }⟩

end Example

/-- **C83e is false of picks marked on input**: an event without a solution in the first iteration keeps the marks of its
picks from an earlier relocation, and is returned with a pick marked as used that no solution used. -/
theorem old_pick_mark_returned :
    ∃ (a : Args ℚ) (cat : Catalog ℚ) (r : Catalog ℚ) (log : List (IterLog ℚ)) (p : Phase ℚ),
      GoodArgs a ∧ cat.Sound ∧ NoAt cat ∧ relocate a cat = .ok (r, log) ∧
      p ∈ r.phasesOf 1 ∧ p.isRelocated = true ∧
      ∀ it ops d ans, a.sol.solve it ops d = some ans → ∀ k s t, ans.used k s t = false := by
  obtain ⟨r, log, h1, h2, h3, h4⟩ := Example.checkRes_true (x := relocate Example.late Example.markedPick)
    (ps := [⟨1, "N.A.", 15000000, 1, 0, 1/2, true⟩])
    (es := [⟨1, 47, 11000000, 1, 0⟩])
    (its := [⟨[], 1, true⟩, ⟨[], 3, true⟩, ⟨[], 5, false⟩]) (by decide +kernel)
  have hg : GoodArgs Example.late := ⟨⟨by decide, by decide⟩, by decide⟩
  have hcs : Example.markedPick.Sound := Example.sound_of (.addPhase _ (.addPhase _
    (.addEvent _ _ (by decide) (.addEvent _ _ (by decide) (.addStation _ .init))))) (by decide +kernel) (by decide +kernel)
  have hna : NoAt Example.markedPick := Example.noAt_of (by decide +kernel)
  have hp : (⟨1, "N.A.", 15000000, 1, 0, 1/2, true⟩ : Example.SeenPick) ∈ Example.picks r := by rw [h2]; simp
  unfold Example.picks at hp
  rw [List.mem_map] at hp
  obtain ⟨⟨kp, p⟩, hkp, p1⟩ := hp
  simp only [Example.SeenPick.mk.injEq] at p1
  obtain ⟨rfl, _, _, _, _, _, pm⟩ := p1
  refine ⟨Example.late, Example.markedPick, r, log, p, hg, hcs, hna, h1, Catalog.mem_phasesOf.2 hkp, pm, ?_⟩
  intro it ops d ans ha k s t
  simp only [Example.late, Option.some.injEq] at ha
  rw [← ha]

end Verif.Relocate
