import Verif.Proofs.ObserveOrder
import Verif.Proofs.RelocateOrder

/-! Helper lemmas for C107: relocations of the same events stored and listed in another order. -/

set_option linter.unusedSectionVars false
set_option linter.unusedSimpArgs false

namespace Verif.Relocate
open Verif.Catalog Verif.Catalog.Catalog Verif.Solver

variable {K : Type} [Field K] [LinearOrder K]

theorem SameCatalog.refl (c : Catalog K) : SameCatalog c c := ⟨fun _ => rfl, fun _ => rfl, fun _ => rfl⟩

theorem SameCluster.keys {cl cl' : Cluster} (h : SameCluster cl cl') (hg : GoodCluster cl) (hg' : GoodCluster cl') (k : Nat) :
    k ∈ cl.map (·.2.refId) ↔ k ∈ cl'.map (·.2.refId) := by
  simp only [List.mem_map]
  constructor
  · rintro ⟨kv, h1, rfl⟩
    obtain ⟨kv', a, b, -⟩ := h.forth kv h1
    exact ⟨kv', a, by rw [hg.key kv h1, hg'.key kv' a, b]⟩
  · rintro ⟨kv, h1, rfl⟩
    obtain ⟨kv', a, b, -⟩ := h.back kv h1
    exact ⟨kv', a, by rw [hg'.key kv h1, hg.key kv' a, b]⟩

/-! ## residuals -/

theorem residualOf_same {ops ops' : List (SolverOp K)} {c c' : Catalog K} (hc : SameCatalog c c') (h : SameData ops ops')
    (hb : Fits ops) (hb' : Fits ops') (hs : NoSeparator ops) (hs' : NoSeparator ops') (k : Nat) {p : Phase K}
    (hp : '@' ∉ p.type.toList) : residualOf ops c k p = residualOf ops' c' k p := by
  unfold residualOf
  rw [hc.stations]
  cases c'.stations.find? p.stationId with
  | none => rfl
  | some st =>
    simp only
    rw [getParams_eq hb hs k _ hp, getParams_eq hb' hs' k _ hp, h.params]

theorem rmsOf_same {env : Env K} {u : Bool} {ops ops' : List (SolverOp K)} {c c' : Catalog K} (hc : SameCatalog c c')
    (h : SameData ops ops') (hb : Fits ops) (hb' : Fits ops') (hs : NoSeparator ops) (hs' : NoSeparator ops') (hna : NoAt c) (k : Nat) :
    rmsOf env u ops c k = rmsOf env u ops' c' k := by
  have e : ∀ p ∈ c.phasesOf k, residualOf ops c k p = residualOf ops' c' k p :=
    fun p hp => residualOf_same hc h hb hb' hs hs' k (hna k p hp)
  unfold rmsOf
  simp only
  rw [← hc.phases]
  have f : (c.phasesOf k).filter (fun p => (residualOf ops c k p).isSome) =
      (c.phasesOf k).filter (fun p => (residualOf ops' c' k p).isSome) :=
    List.filter_congr (fun p hp => by rw [e p hp])
  rw [f]
  have m : ((c.phasesOf k).filter (fun p => (residualOf ops' c' k p).isSome)).map (fun p =>
        ((residualOf ops c k p).getD 0 * (if u = true then p.classWeight else 1)) *
          ((residualOf ops c k p).getD 0 * (if u = true then p.classWeight else 1))) =
      ((c.phasesOf k).filter (fun p => (residualOf ops' c' k p).isSome)).map (fun p =>
        ((residualOf ops' c' k p).getD 0 * (if u = true then p.classWeight else 1)) *
          ((residualOf ops' c' k p).getD 0 * (if u = true then p.classWeight else 1))) :=
    List.map_congr_left (fun p hp => by rw [e p (List.mem_filter.1 hp).1])
  rw [m]

theorem residuals_same_catalog {env : Env K} {u first : Bool} {ops ops' : List (SolverOp K)} {cl cl' : Cluster}
    (hg : GoodCluster cl) (hg' : GoodCluster cl') (hcl : SameCluster cl cl') {c c' d d' : Catalog K} (hc : c.Sound) (hc' : c'.Sound)
    (hna : NoAt c) (hcc : SameCatalog c c') (h : SameData ops ops') (hb : Fits ops) (hb' : Fits ops') (hs : NoSeparator ops)
    (hs' : NoSeparator ops') (h1 : computeEventResiduals env u first ops cl c = .ok d)
    (h2 : computeEventResiduals env u first ops' cl' c' = .ok d') : SameCatalog d d' := by
  obtain ⟨r1, s1⟩ := computeEventResiduals_spec hc h1
  obtain ⟨r2, s2⟩ := computeEventResiduals_spec hc' h2
  have x1 := computeEventResiduals_exact hc (by rw [refIds_eq hg]; exact hg.nodup) h1
  have x2 := computeEventResiduals_exact hc' (by rw [refIds_eq hg']; exact hg'.nodup) h2
  have ne : ∀ {k : Nat} {q : Cluster}, k ∉ q.map (·.2.refId) → ∀ kv ∈ q, k ≠ kv.2.refId := by
    intro k q hk kv hkv e
    exact hk (List.mem_map.2 ⟨kv, hkv, e.symm⟩)
  refine ⟨fun k => ?_, fun k => by rw [s1.stations, s2.stations, hcc.stations], fun k => ?_⟩
  · by_cases hk : k ∈ cl.map (·.2.refId)
    · obtain ⟨ev, a, b, -⟩ := x1 k hk
      obtain ⟨ev', a', b', -⟩ := x2 k ((hcl.keys hg hg' k).1 hk)
      rw [← hcc.events, a] at a'; cases a'
      rw [b, b', rmsOf_same hcc h hb hb' hs hs' hna]
    · rw [s1.events k (ne hk), s2.events k (ne (fun hk' => hk ((hcl.keys hg hg' k).2 hk'))), hcc.events]
  · by_cases hk : k ∈ cl.map (·.2.refId)
    · obtain ⟨ev, a, -, b⟩ := x1 k hk
      obtain ⟨ev', a', -, b'⟩ := x2 k ((hcl.keys hg hg' k).1 hk)
      rw [b, b', ← hcc.phases]
      exact List.map_congr_left (fun p hp => by rw [residualOf_same hcc h hb hb' hs hs' k (hna k p hp)])
    · rw [s1.phases k (ne hk), s2.phases k (ne (fun hk' => hk ((hcl.keys hg hg' k).2 hk'))), hcc.phases]

/-! ## updates -/

theorem update_same_catalog {env : Env K} {first : Bool} {ans : Answer K} {cl cl' : Cluster}
    (hg : GoodCluster cl) (hg' : GoodCluster cl') (hcl : SameCluster cl cl') {c c' d d' : Catalog K} (hc : c.Sound) (hc' : c'.Sound)
    (hcc : SameCatalog c c') (h1 : updateRelocatedEvents env first ans cl c = .ok d)
    (h2 : updateRelocatedEvents env first ans cl' c' = .ok d') : SameCatalog d d' := by
  obtain ⟨-, s1, u1⟩ := updateRelocatedEvents_spec hc (by rw [refIds_eq hg]; exact hg.nodup) h1
  obtain ⟨-, s2, u2⟩ := updateRelocatedEvents_spec hc' (by rw [refIds_eq hg']; exact hg'.nodup) h2
  refine ⟨fun k => ?_, fun k => by rw [s1.stations, s2.stations, hcc.stations], fun k => ?_⟩
  · by_cases hk : k ∈ cl.map (·.2.refId)
    · have v1 := u1 k hk
      have v2 := u2 k ((hcl.keys hg hg' k).1 hk)
      obtain ⟨e, he⟩ := Option.isSome_iff_exists.1 v1.exists_
      rw [v1.event e he, v2.event e (by rw [← hcc.events]; exact he)]
    · rw [s1.events k hk, s2.events k (fun hk' => hk ((hcl.keys hg hg' k).2 hk')), hcc.events]
  · by_cases hk : k ∈ cl.map (·.2.refId)
    · have v1 := u1 k hk
      have v2 := u2 k ((hcl.keys hg hg' k).1 hk)
      rw [v1.marks, v2.marks, ← hcc.phases, updatePhase_congr k (fun s => (hcc.stations s).symm)]
    · rw [s1.phases k hk, s2.phases k (fun hk' => hk ((hcl.keys hg hg' k).2 hk')), hcc.phases]

/-! ## the loop -/

/-- the same answers for the same calls in any order -/
def SameAnswersAny (sol sol' : SolverAnswers K) : Prop :=
  ∀ it ops ops' damping, Fits ops → Fits ops' → NoSeparator ops → Complete ops → SameCalls ops ops' → Unambiguous ops →
    sol.solve it ops damping = sol'.solve it ops' damping

theorem loop_same {a : Args K} {sol' : SolverAnswers K} {cl' : Cluster} (hkeep : a.o.keepNeighboursFixed = false) (hg : GoodArgs a)
    (hg' : GoodArgs { a with cluster := cl', sol := sol' }) (hcl : SameCluster a.cluster cl') {cat cat' : Catalog K}
    (hpair : Pairable cat a.o.minCoef a.cluster) (hpair' : Pairable cat' a.o.minCoef cl') (hsol : Prepares a.sol)
    (hsol' : Prepares sol') (hsame : SameAnswersAny a.sol sol') (n it : Nat) (s s' : LoopState K)
    (hs : Rel a.cluster cat s.cur) (hp : s.prev = Catalog.init ∨ Rel a.cluster cat s.prev)
    (hs' : Rel cl' cat' s'.cur) (hp' : s'.prev = Catalog.init ∨ Rel cl' cat' s'.prev)
    (hcur : SameCatalog s.cur s'.cur) (hprev : SameCatalog s.prev s'.prev) {t : LoopState K} (ht : loop a n it s = .ok t) :
    ∃ new, t.log = s.log ++ new ∧ ((∀ l ∈ new, l.reverted = []) →
      ∃ t' new', loop { a with cluster := cl', sol := sol' } n it s' = .ok t' ∧ t'.log = s'.log ++ new' ∧
        List.Forall₂ SameIteration new new' ∧ SameCatalog t.cur t'.cur ∧ t.cur.Sound ∧ t'.cur.Sound) := by
  induction n generalizing it s s' with
  | zero =>
    simp only [loop, Outcome.ok.injEq] at ht
    subst ht
    exact ⟨[], by simp, fun _ => ⟨s', [], rfl, by simp, .nil, hcur, hs.sound, hs'.sound⟩⟩
  | succ n ih =>
    obtain ⟨ob, h1, h2⟩ := observe_total (env := a.env) (o := a.o) (xc := a.xc) hg.cluster hpair hp hs
    obtain ⟨ob', h1', h2'⟩ := observe_total (env := a.env) (o := a.o) (xc := a.xc) hg'.cluster hpair' hp' hs'
    obtain ⟨p1, p2, p3⟩ := prev_ok hs hp
    obtain ⟨p1', p2', p3'⟩ := prev_ok hs' hp'
    have hinv := observe_inv hs.sound hs.noAt p1 p2 p3 hg.cluster hg.fits h1
    have hops := observe_ops hs.sound hs.noAt p1 p2 p3 hg.cluster hg.fits h1
    have hinv' := observe_inv hs'.sound hs'.noAt p1' p2' p3' hg'.cluster hg'.fits h1'
    have hops' := observe_ops hs'.sound hs'.noAt p1' p2' p3' hg'.cluster hg'.fits h1'
    obtain ⟨cur, h3⟩ := computeEventResiduals_total (env := a.env) (u := a.o.usePickUncertainties) (first := decide (it = 0))
      (ops := ob.ops) hg.cluster hpair.event h2
    obtain ⟨cur', h3'⟩ := computeEventResiduals_total (env := a.env) (u := a.o.usePickUncertainties) (first := decide (it = 0))
      (ops := ob'.ops) hg'.cluster hpair'.event h2'
    have hcur1 := h2.residuals hg.cluster h3
    have hcur1' := h2'.residuals hg'.cluster h3'
    have hfit : Fits ob.ops := by
      have := hinv.len
      have := hg.fits
      unfold Fits
      omega
    have hfit' : Fits ob'.ops := by
      have := hinv'.len
      have := hg'.fits
      unfold Fits
      simp only at *
      omega
    have hprep := fun x y => hsol it ob.ops x y hfit hinv.sep hops.complete
    have hprep' := fun x y => hsol' it ob'.ops x y hfit' hinv'.sep hops'.complete
    have key : ob.reverted = [] → ob'.reverted = [] ∧ SameCalls ob.ops ob'.ops ∧ SameCatalog cur cur' ∧
        ∀ d, a.sol.solve it ob.ops d = sol'.solve it ob'.ops d := by
      intro hr
      obtain ⟨k1, k2, k3, k4, k5⟩ := observe_same hkeep hprev hcur hs.sound.toWF hs'.sound.toWF hs.noAt hs'.noAt hg.cluster hg'.cluster
        hcl hg.fits hg'.fits h1 h1' hr
      refine ⟨k3, k4, ?_, fun d => hsame it ob.ops ob'.ops d hfit hfit' hinv.sep hops.complete k4 k5⟩
      exact residuals_same_catalog hg.cluster hg'.cluster hcl h2.sound h2'.sound h2.noAt (by rw [k1, k2]; exact hcur) (k4.data k5)
        hfit hfit' hinv.sep hinv'.sep h3 h3'
    unfold loop iteration at ht ⊢
    simp only [h1, h3, hprep, Outcome.bind_ok] at ht
    simp only [h1', h3', hprep', Outcome.bind_ok]
    by_cases hl : it = a.so.algoIterations
    · rw [if_pos hl] at ht
      simp only [Outcome.bind_ok, Bool.false_eq_true, if_false, Outcome.ok.injEq] at ht
      subst ht
      refine ⟨_, rfl, fun hr => ?_⟩
      obtain ⟨k1, k2, k3, k4⟩ := key (hr _ (List.mem_cons_self ..))
      rw [if_pos hl]
      exact ⟨_, _, rfl, rfl, .cons ⟨hcur, k3, rfl, rfl, rfl, k2, hr _ (List.mem_cons_self ..), k1, rfl⟩ .nil, k3, hcur1.sound, hcur1'.sound⟩
    · rw [if_neg hl] at ht ⊢
      cases hans : a.sol.solve it ob.ops (interpolate a.so.algoIterations it a.so.dampingFactorStart a.so.dampingFactorEnd) with
      | none =>
        rw [hans] at ht
        simp only [Outcome.bind_ok, Bool.false_eq_true, if_false, Outcome.ok.injEq] at ht
        subst ht
        refine ⟨_, rfl, fun hr => ?_⟩
        obtain ⟨k1, k2, k3, k4⟩ := key (hr _ (List.mem_cons_self ..))
        rw [← k4, hans]
        exact ⟨_, _, rfl, rfl, .cons ⟨hcur, k3, rfl, rfl, rfl, k2, hr _ (List.mem_cons_self ..), k1, rfl⟩ .nil, k3, hcur1.sound, hcur1'.sound⟩
      | some ans =>
        rw [hans] at ht
        obtain ⟨new, h4⟩ := updateRelocatedEvents_total (env := a.env) (first := decide (it = 0)) (ans := ans) hg.cluster hpair.event hcur1
        obtain ⟨new', h4'⟩ := updateRelocatedEvents_total (env := a.env) (first := decide (it = 0)) (ans := ans) hg'.cluster
          hpair'.event hcur1'
        simp only [h4, Outcome.bind_ok, if_true] at ht
        have hu := hcur1.updated hg.cluster h4
        have hu' := hcur1'.updated hg'.cluster h4'
        have hlog : ∀ (s'' : LoopState K) {t : LoopState K} {m j : Nat}, loop a m j s'' = .ok t → ∃ new, t.log = s''.log ++ new := by
          intro s'' t m
          induction m generalizing s'' with
          | zero => intro j h; simp only [loop, Outcome.ok.injEq] at h; exact ⟨[], by simp [h]⟩
          | succ m ihm =>
            intro j h
            unfold loop at h
            rw [Outcome.bind_eq_ok] at h
            obtain ⟨⟨s3, g⟩, g1, g2⟩ := h
            have : ∃ new, s3.log = s''.log ++ new := by
              unfold iteration at g1
              simp only [Outcome.bind_eq_ok] at g1
              obtain ⟨_, -, _, -, _, -, g1⟩ := g1
              split at g1
              · simp only [Outcome.ok.injEq, Prod.mk.injEq] at g1; rw [← g1.1]; exact ⟨_, rfl⟩
              · split at g1
                · simp only [Outcome.ok.injEq, Prod.mk.injEq] at g1; rw [← g1.1]; exact ⟨_, rfl⟩
                · rw [Outcome.bind_eq_ok] at g1
                  obtain ⟨_, -, g1⟩ := g1
                  simp only [Outcome.ok.injEq, Prod.mk.injEq] at g1; rw [← g1.1]; exact ⟨_, rfl⟩
            obtain ⟨new, hn⟩ := this
            simp only at g2
            cases g with
            | false => simp only [Bool.false_eq_true, if_false, Outcome.ok.injEq] at g2; exact ⟨new, by rw [← g2, hn]⟩
            | true =>
              simp only [if_true] at g2
              obtain ⟨new2, h5⟩ := ihm s3 g2
              exact ⟨new ++ new2, by rw [h5, hn, List.append_assoc]⟩
        obtain ⟨rest, hrest⟩ := hlog _ ht
        refine ⟨_ :: rest, by rw [hrest]; simp only [List.append_assoc, List.singleton_append]; rfl, fun hr => ?_⟩
        obtain ⟨k1, k2, k3, k4⟩ := key (hr _ (List.mem_cons_self ..))
        rw [← k4, hans]
        simp only [h4', Outcome.bind_ok, if_true]
        have hupd := update_same_catalog hg.cluster hg'.cluster hcl hcur1.sound hcur1'.sound k3 h4 h4'
        obtain ⟨new2, e1, e2⟩ := ih (it + 1) _ ⟨new', cur', _⟩ hu (Or.inr hcur1) hu' (Or.inr hcur1') hupd k3 ht
        simp only at e1
        rw [hrest] at e1
        have : rest = new2 := List.append_cancel_left e1
        subst this
        obtain ⟨t', new3, f1, f2, f3, f4⟩ := e2 (fun l hl => hr l (by simp [hl]))
        refine ⟨t', ⟨s'.cur, cur', interpolate a.so.algoIterations it a.so.dampingFactorStart a.so.dampingFactorEnd,
          interpolate a.so.algoIterations it a.so.downWeightingByResidualStart a.so.downWeightingByResidualEnd,
          interpolate a.so.algoIterations it a.so.absLocConstraintStart a.so.absLocConstraintEnd, ob'.ops, ob'.reverted, some ans⟩ :: new3,
          f1, ?_, .cons ⟨hcur, k3, rfl, rfl, rfl, k2, hr _ (List.mem_cons_self ..), k1, rfl⟩ f3, f4⟩
        rw [f2]
        simp only [List.append_assoc, List.singleton_append]

/-! ## what is returned -/

theorem eventsSorted_same {c c' : Catalog K} (h : SameCatalog c c') (hc : c.WF) (hc' : c'.WF) : c.eventsSorted = c'.eventsSorted := by
  have hperm : c.events.Perm c'.events := by
    have nd : ∀ {c : Catalog K}, c.WF → List.Nodup c.events := fun h => List.Nodup.of_map _ h.eventsUnique
    rw [List.perm_ext_iff_of_nodup (nd hc) (nd hc')]
    rintro ⟨k, e⟩
    rw [AMap.mem_iff_find? hc.eventsUnique, AMap.mem_iff_find? hc'.eventsUnique, h.events]
  have hp : c.eventsSorted.Perm c'.eventsSorted := (eventsSorted_perm c).trans (hperm.trans (eventsSorted_perm c').symm)
  have : Std.Total (fun a b : Nat × Event K => a.1 ≤ b.1) := ⟨fun a b => le_total _ _⟩
  have : IsTrans (Nat × Event K) (fun a b => a.1 ≤ b.1) := ⟨fun a b c => le_trans⟩
  refine List.Perm.eq_of_pairwise (le := fun a b => a.1 ≤ b.1) ?_ (List.pairwise_insertionSort _ _) (List.pairwise_insertionSort _ _) hp
  rintro ⟨k, e⟩ ⟨k', e'⟩ ha hb h1 h2
  have : k = k' := le_antisymm h1 h2
  subst this
  have ha' := (AMap.mem_iff_find? hc.eventsUnique).1 ((eventsSorted_perm c).mem_iff.1 ha)
  have hb' := (AMap.mem_iff_find? hc'.eventsUnique).1 ((eventsSorted_perm c').mem_iff.1 hb)
  rw [← h.events, ha'] at hb'
  cases hb'
  rfl

theorem copyPhases_same {sts sts' : AMap String (Station K)} (h : ∀ s, sts.find? s = sts'.find? s) (newId : Nat) (ps : List (Phase K))
    (c : Catalog K) : copyPhases sts newId c ps = copyPhases sts' newId c ps := by
  induction ps generalizing c with
  | nil => rfl
  | cons p ps ih =>
    unfold copyPhases copyPhase
    rw [h]
    cases sts'.find? p.stationId with
    | none => rfl
    | some s => exact ih _

theorem addFrom_same {c c' : Catalog K} (h : SameCatalog c c') (r : Catalog K) (k : Nat) (keep : Bool) :
    r.addFrom k c keep = r.addFrom k c' keep := by
  unfold addFrom
  rw [h.events]
  cases c'.events.find? k with
  | none => rfl
  | some e =>
    simp only
    rw [h.phases]
    simp only [copyPhases_same h.stations]

theorem returnedLoop_same {c c' : Catalog K} (h : SameCatalog c c') (l : List (Nat × Event K)) (r : Catalog K) :
    returnedLoop c r l = returnedLoop c' r l := by
  induction l generalizing r with
  | nil => rfl
  | cons kv l ih =>
    unfold returnedLoop
    rw [addFrom_same h]
    simp only [ih]

/-- a relocation in which no event is restored does not depend on the order of anything -/
theorem relocate_same {a : Args K} {sol' : SolverAnswers K} {cl' : Cluster} (hkeep : a.o.keepNeighboursFixed = false) (hg : GoodArgs a)
    (hg' : GoodArgs { a with cluster := cl', sol := sol' }) (hcl : SameCluster a.cluster cl') {cat cat' : Catalog K}
    (hs : cat.Sound) (hs' : cat'.Sound) (hn : NoAt cat) (hn' : NoAt cat') (hcat : SameCatalog cat cat')
    (hpair : Pairable cat a.o.minCoef a.cluster) (hpair' : Pairable cat' a.o.minCoef cl') (hsol : Prepares a.sol)
    (hsol' : Prepares sol') (hsame : SameAnswersAny a.sol sol') {r : Catalog K} {log : List (IterLog K)}
    (h : relocate a cat = .ok (r, log)) (hrev : ∀ l ∈ log, l.reverted = []) :
    ∃ log', relocate { a with cluster := cl', sol := sol' } cat' = .ok (r, log') ∧ List.Forall₂ SameIteration log log' := by
  unfold relocate at h
  rw [Outcome.bind_eq_ok] at h
  obtain ⟨t, h1, h⟩ := h
  rw [Outcome.bind_eq_ok] at h
  obtain ⟨r', h2, h3⟩ := h
  simp only [Outcome.ok.injEq, Prod.mk.injEq] at h3
  obtain ⟨rfl, rfl⟩ := h3
  obtain ⟨new, e1, e2⟩ := loop_same hkeep hg hg' hcl hpair hpair' hsol hsol' hsame _ _ ⟨cat, Catalog.init, []⟩ ⟨cat', Catalog.init, []⟩
    (Rel.refl hs hn) (Or.inl rfl) (Rel.refl hs' hn') (Or.inl rfl) hcat (SameCatalog.refl _) h1
  simp only [List.nil_append] at e1
  subst e1
  obtain ⟨t', new', f1, f2, f3, f4, f5, f6⟩ := e2 hrev
  simp only [List.nil_append] at f2
  subst f2
  refine ⟨t'.log, ?_, f3⟩
  unfold relocate
  rw [Outcome.bind_eq_ok]
  refine ⟨t', f1, ?_⟩
  rw [Outcome.bind_eq_ok]
  exact ⟨r', by rw [← eventsSorted_same f4 f5.toWF f6.toWF, ← returnedLoop_same f4]; exact h2, rfl⟩

end Verif.Relocate
