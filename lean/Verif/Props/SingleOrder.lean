import Verif.Proofs.SingleOrder
import Verif.Props.Trim
import Verif.Props.RelocateEvent

/-!
# C131: a relocation depends on the data, not on how they are stored; single-event relocation does not need useless events
-/

set_option linter.unusedSectionVars false
set_option linter.unusedSimpArgs false

namespace Verif.Relocate
open Verif.Catalog

variable {K : Type} [Field K] [LinearOrder K]

/-- **C131** A relocation of events visited in the same order does exactly the same for the same data: however the catalog stores
them, in whatever order the pairs of an event are kept, and however the correlation results are stored, whether neighbours are
fixed or not, with any solver, and also if events are restored.  Both calls end the same way, with the same catalog after the
same iterations. -/
theorem same_data_same_relocation (env : Env K) (so : SolverOptions K) (o : ObsOptions K) (sol : SolverAnswers K) {xc xc' : XCorr.Cache}
    (hxc : ∀ a b s p, XCorr.get xc a b s p = XCorr.get xc' a b s p) {cl cl' : Cluster} (hcl : SamePairs cl cl')
    {cat cat' : Catalog K} (hk : cat.events.NodupKeys) (hk' : cat'.events.NodupKeys) (h : SameCatalog cat cat') :
    SameResult (relocate ⟨env, so, o, xc, cl, sol⟩ cat) (relocate ⟨env, so, o, xc', cl', sol⟩ cat') :=
  (relocate_twin env so o hxc hcl sol ⟨h, hk, hk'⟩).result

theorem by_neighbours_forth {s : SingleArgs K} (hx : OrderBlind s.xcorr) {bg bg' evCat evCat' : Catalog K} (hb : bg.Sound)
    (hb' : bg'.Sound) {nb nb' : Neighbours} (hn : nb.ids.Nodup) (hnb : Selection.SameNeighbours nb nb')
    (hin : ∀ k ∈ nb.ids, (bg.events.find? k).isSome = true) (hroom : uintMod - 1 ∉ nb.ids)
    (he : ∀ k ∈ nb.ids, bg.events.find? k = bg'.events.find? k)
    (hp : ∀ k ∈ nb.ids, bg.phasesOf k = bg'.phasesOf k) (hs : ∀ s, bg.stations.find? s = bg'.stations.find? s)
    (hes : evCat.Sound) (hes' : evCat'.Sound) (hev : SameCatalog evCat evCat') (evId : Nat) {r : Catalog K} {log : List (IterLog K)}
    (h : relocateSingleEvent s bg evCat evId nb = .ok (r, log)) :
    ∃ log', relocateSingleEvent s bg' evCat' evId nb' = .ok (r, log') ∧ List.Forall₂ SameStep log log' := by
  have ham : nb.amount = nb'.amount := by
    have := hnb.ids.length_eq
    simpa [Neighbours.ids, AMap.keys, Neighbours.amount] using this
  unfold relocateSingleEvent at h ⊢
  rw [ham] at h
  split
  · rename_i h0
    rw [if_pos h0] at h
    split
    · rename_i h1
      rw [if_pos h1] at h
      cases h
      exact ⟨[], rfl, .nil⟩
    · rename_i h1
      rw [if_neg h1] at h
      cases h
  · rename_i h0
    rw [if_neg h0, Outcome.bind_eq_ok] at h
    obtain ⟨⟨d, n⟩, k1, h⟩ := h
    rw [Outcome.bind_eq_ok] at h
    obtain ⟨x, k2, k3⟩ := h
    obtain ⟨c, c', h1, h2, h3⟩ := toCatalog_twin hb hb' hn hnb.ids hin he hp hs
    obtain ⟨-, -, d1, d2, -⟩ := singleEventCatalog_spec hb hes hn hin hroom k1
    have hcat : Both (fun a b => Twin a.1 b.1 ∧ a.2 = b.2) (singleEventCatalog bg evCat evId nb) (singleEventCatalog bg' evCat' evId nb') := by
      unfold singleEventCatalog
      rw [h1, h2, Outcome.bind_ok, Outcome.bind_ok]
      obtain ⟨g1, g2⟩ := addFrom_twin h3 hev evId false
      revert g1 g2
      rcases c.addFrom evId evCat false with ⟨d, q⟩
      rcases c'.addFrom evId evCat' false with ⟨d', q'⟩
      simp only
      rintro g1 rfl
      cases q with
      | ok n => exact .ok ⟨g1, rfl⟩
      | throws => exact .throws
      | ub => exact .ub
    rw [k1] at hcat
    generalize hd' : singleEventCatalog bg' evCat' evId nb' = z at hcat
    cases hcat with
    | @ok _ b hdd =>
      obtain ⟨d', n'⟩ := b
      obtain ⟨g1, g2⟩ := hdd
      simp only at g1 g2
      subst g2
      obtain ⟨-, -, d1', -, -⟩ := singleEventCatalog_spec hb' hes' (hnb.ids.nodup_iff.1 hn)
        (fun k hk => by rw [← he k (hnb.ids.mem_iff.2 hk)]; exact hin k (hnb.ids.mem_iff.2 hk)) (fun hc => hroom (hnb.ids.mem_iff.2 hc)) hd'
      have hnb' : Selection.SameNeighbours { nb with refId := n } { nb' with refId := n } := ⟨rfl, hnb.ids, hnb.phases⟩
      obtain ⟨y, k4, k5⟩ := hx d d' _ _ d1 d1' g1.same hnb' hn d2 x k2
      have hrun := relocate_twin s.env s.so ⟨true, s.usePickUncertainties, s.xcorrWeightScaler, s.minCoef⟩ k5
        (l := [(n, { nb with refId := n })]) (l' := [(n, { nb' with refId := n })])
        (.cons ⟨rfl, rfl, phases_same (nb := { nb with refId := n }) hn hnb'⟩ .nil) s.sol g1
      have k3' : relocate ⟨s.env, s.so, ⟨true, s.usePickUncertainties, s.xcorrWeightScaler, s.minCoef⟩, x,
        [(n, { nb with refId := n })], s.sol⟩ d = .ok (r, log) := k3
      rw [k3'] at hrun
      generalize hz : relocate ⟨s.env, s.so, ⟨true, s.usePickUncertainties, s.xcorrWeightScaler, s.minCoef⟩, y,
        [(n, { nb' with refId := n })], s.sol⟩ d' = w at hrun
      cases hrun with
      | @ok _ b hb2 =>
        obtain ⟨r', log'⟩ := b
        obtain ⟨e1, e2⟩ := hb2
        simp only at e1 e2
        subst e1
        refine ⟨log', ?_, e2⟩
        rw [Outcome.bind_ok]
        simp only
        rw [show s.xcorr d' [(n, { nb' with refId := n })] = .ok y from k4, Outcome.bind_ok]
        exact hz

theorem SameStep.symm {l l' : IterLog K} (h : SameStep l l') : SameStep l' l :=
  ⟨h.before.symm, h.after.symm, h.damping.symm, h.downWeighting.symm, h.absLoc.symm, h.ops.symm, h.reverted.symm, h.answer.symm⟩

theorem SameStep.flip {l l' : List (IterLog K)} (h : List.Forall₂ SameStep l l') : List.Forall₂ SameStep l' l := by
  induction h with
  | nil => exact .nil
  | cons h1 _ ih => exact .cons h1.symm ih

theorem SameNeighbours.flip {nb nb' : Neighbours} (h : Selection.SameNeighbours nb nb') : Selection.SameNeighbours nb' nb :=
  ⟨h.ref.symm, h.ids.symm, fun i => (h.phases i).symm⟩

/-- **C131** The relocation of an event with selected neighbours depends on the neighbours only, not on their order, and not on
the rest of the background catalog nor on how it is stored. -/
theorem single_event_by_neighbours {s : SingleArgs K} (hx : OrderBlind s.xcorr) {bg bg' evCat evCat' : Catalog K} (hb : bg.Sound)
    (hb' : bg'.Sound) {nb nb' : Neighbours} (hn : nb.ids.Nodup) (hnb : Selection.SameNeighbours nb nb')
    (hin : ∀ k ∈ nb.ids, (bg.events.find? k).isSome = true) (hroom : uintMod - 1 ∉ nb.ids)
    (he : ∀ k ∈ nb.ids, bg.events.find? k = bg'.events.find? k)
    (hp : ∀ k ∈ nb.ids, bg.phasesOf k = bg'.phasesOf k) (hs : ∀ s, bg.stations.find? s = bg'.stations.find? s)
    (hes : evCat.Sound) (hes' : evCat'.Sound) (hev : SameCatalog evCat evCat') (evId : Nat) :
    SameReturn (relocateSingleEvent s bg evCat evId nb) (relocateSingleEvent s bg' evCat' evId nb') := by
  refine ⟨fun r log h => by_neighbours_forth hx hb hb' hn hnb hin hroom he hp hs hes hes' hev evId h, fun r log' h => ?_⟩
  have hm : ∀ k, k ∈ nb'.ids → k ∈ nb.ids := fun k => hnb.ids.mem_iff.2
  obtain ⟨log, h1, h2⟩ := by_neighbours_forth hx hb' hb (hnb.ids.nodup_iff.1 hn) (SameNeighbours.flip hnb)
    (fun k hk => by rw [← he k (hm k hk)]; exact hin k (hm k hk)) (fun hc => hroom (hm _ hc)) (fun k hk => (he k (hm k hk)).symm)
    (fun k hk => (hp k (hm k hk)).symm) (fun s => (hs s).symm) hes' hes hev.symm evId h
  exact ⟨log, h1, SameStep.flip h2⟩

/-! ## the correlations -/

theorem build_catalog (x : XcorrArgs K) {c c' : Catalog K} (h : SameCatalog c c') (cl : Cluster) (pre : XCorr.Cache)
    (calls : List (XcorrCall K)) : buildXCorrCache x c cl pre calls = buildXCorrCache x c' cl pre calls := by
  have h1 : ∀ nb refEv rp, pairStep x c pre nb refEv rp = pairStep x c' pre nb refEv rp := by
    intro nb refEv rp
    funext s n
    unfold pairStep
    simp only [h.events, searchPhase_twin h]
  have h2 : ∀ nb refEv, refPhaseStep x c pre nb refEv = refPhaseStep x c' pre nb refEv := by
    intro nb refEv
    funext s rp
    unfold refPhaseStep
    rw [h.stations]
    simp only [h1]
  have h3 : clusterStep x c pre = clusterStep x c' pre := by
    funext s kv
    unfold clusterStep
    rw [h.events]
    simp only [h.phases, h2]
  unfold buildXCorrCache
  rw [h3]

/-- **C131** The cross-correlation as it is done meets the condition, if correlating the same two waveforms again gives the same. -/
theorem correlation_order_blind {x : XcorrArgs K} (hx : ∀ i j, x.correlate i = x.correlate j) :
    OrderBlind (fun c cl => (buildXCorrCache x c cl [] []).map (·.cache)) := by
  intro c c' nb nb' hc hc' hcc hnb hn href y hy
  simp only at hy ⊢
  cases hb : buildXCorrCache x c [(nb.refId, nb)] [] [] with
  | throws => rw [hb] at hy; cases hy
  | ub => rw [hb] at hy; cases hy
  | ok t =>
    rw [hb] at hy
    cases hy
    have hal : AlikeNb nb nb' := by
      refine ⟨hnb.ref, hnb.ids, phases_same hn hnb, fun b sp => ?_⟩
      unfold Neighbours.hasPhase
      rw [decide_eq_decide]
      exact (hnb.phases b).mem_iff
    obtain ⟨t', k1, k2⟩ := build_alike hx hc (pre := []) (pre' := []) (fun _ _ _ _ => rfl)
      (l := [(nb.refId, nb)]) (l' := [(nb.refId, nb')]) (.cons ⟨rfl, hal⟩ .nil)
      (by intro kv hkv; simp only [List.mem_singleton] at hkv; subst hkv; exact href) (List.Perm.refl _) hb
    refine ⟨t'.cache, ?_, fun a b s p => k2.cache.get a b s p⟩
    rw [← build_catalog x hcc, k1]
    rfl

end Verif.Relocate

namespace Verif.SingleEvent
open Verif.Catalog Verif.Selection Verif.Relocate

variable {K : Type} [Field K] [LinearOrder K]

theorem prepare_same (u : Setup K) {c c' : Catalog K} (hk : c.events.NodupKeys) (hk' : c'.events.NodupKeys) (h : SameCatalog c c')
    (man : Bool) : SameCatalog (prepare u c man) (prepare u c' man) := by
  have hs := eventsSorted_twin (⟨h, hk, hk'⟩ : Twin c c')
  unfold prepare Catalog.fillProcessingInfo
  refine ⟨h.events, h.stations, fun k => ?_⟩
  have hf : ∀ i, c.phasesOf i = c'.phasesOf i := h.phases
  simp only [hs, hf]
  rfl

variable [IsStrictOrderedRing K]

/-- from the selection on -/
theorem event_by_selection {u u' : Setup K} (hsolve : u'.solve = u.solve) (hx : OrderBlind u.solve.xcorr) (hgeo : u'.geo = u.geo)
    (hcfg : u'.cfg = u.cfg) {bg bg' single single' : Catalog K} (hb : bg.Sound) (hb' : bg'.Sound) {man : Bool}
    (hprep : SameCatalog (prepare u single man) (prepare u' single' man)) {k : Nat} {e : Event K} {rest : List (Nat × Event K)}
    (h1 : (prepare u single man).eventsSorted = (k, e) :: rest) (h1' : (prepare u' single' man).eventsSorted = (k, e) :: rest)
    (ht : u.tree.WF) (hg : u.geo.Nonneg bg e u.tree) (hroom : bg.events.find? (uintMod - 1) = none)
    (hes : (prepare u single man).Sound) (hes' : (prepare u' single' man).Sound)
    (hsel : ∃ nb nb', selectNeighbours u.geo u.cfg bg e (prepare u single man) u.pop u.tree = .ok nb ∧
      selectNeighbours u.geo u.cfg bg' e (prepare u' single' man) u'.pop u'.tree = .ok nb' ∧ SameNeighbours nb nb' ∧
      (∀ i ∈ nb.ids, bg.events.find? i = bg'.events.find? i) ∧ ∀ i ∈ nb.ids, bg.phasesOf i = bg'.phasesOf i)
    (hs : ∀ s, bg.stations.find? s = bg'.stations.find? s) :
    SameReturn (relocateEvent u bg single man) (relocateEvent u' bg' single' man) := by
  obtain ⟨nb, nb', g1, g2, g3, g4, g5⟩ := hsel
  unfold relocateEvent
  rw [h1, h1']
  simp only
  rw [hgeo, hcfg, g1, g2]
  simp only
  obtain ⟨-, c2, -, c4⟩ := neighbours_meet_constraints_partial u.pop u.tree ht (fun id e he => (hb.eventKey id e he).1) hg nb g1
  rw [hsolve]
  have hin : ∀ i ∈ nb.ids, (bg.events.find? i).isSome = true := by
    intro i hi
    obtain ⟨phs, hphs⟩ := Option.isSome_iff_exists.1 (AMap.find?_isSome.2 hi)
    obtain ⟨p, event, -, -, h3⟩ := c4 i phs hphs
    rw [h3.inCatalog]; rfl
  refine single_event_by_neighbours hx hb hb' c2 g3 hin (fun hc => ?_) g4 g5 hs hes hes' hprep _
  have := hin _ hc
  rw [hroom] at this
  cases this

/-- **C131** Relocating an event against a background catalog gives the same, iteration by iteration, if events that are of no use
to it are removed from the background: events out of reach or with too few phases in common.  The index may be built and searched
in any way for either.  Partial: as `trimmed_background_partial`; and the cross-correlation must not depend on the order of the
data. -/
theorem single_event_trim_partial {u : Setup K} (hx : OrderBlind u.solve.xcorr) {bg single : Catalog K} (hb : bg.Sound)
    (hroom : bg.events.find? (uintMod - 1) = none)
    (hsi : single.Sound) (man : Bool) {k : Nat} {e : Event K} {rest : List (Nat × Event K)} (hfirst : single.eventsSorted = (k, e) :: rest)
    (nth nth' : (pt : Nat → Pt K) → (axis : Nat) → NthElement (fun i => KdTree.coord axis (pt i))) (pop pop' : KdTree.Pop K)
    (hmin : 0 < u.cfg.minPhase) (S : Nat → Bool)
    (huse : ∀ id ev, bg.events.find? id = some ev → S id = false → OfNoUse u.geo u.cfg bg e (prepare u single man) ev)
    (hg : u.geo.Nonneg bg e (createEventTree nth bg)) (hu : ∀ id, UniquePhases bg id)
    (ha : KdTree.Admissible u.geo.dist u.geo.axisDist (eventPt e) ((createEventTree nth bg).points.map (·.1)))
    (hn : u.cfg.maxNumNeigh = 0 ∨ NoTies u.geo e (createEventTree nth' (restrict bg S))) :
    SameReturn (relocateEvent { u with pop := pop, tree := createEventTree nth bg } bg single man)
      (relocateEvent { u with pop := pop', tree := createEventTree nth' (restrict bg S) } (restrict bg S) single man) := by
  obtain ⟨nb, nb', g1, g2, g3⟩ := trimmed_background_partial (g := u.geo) (cfg := u.cfg) (refEv := e) (refCat := prepare u single man)
    nth nth' pop pop' hb hmin S huse hg hu ha hn
  have hb' := restrict_sound hb S
  obtain ⟨-, c2, -, c4⟩ := neighbours_meet_constraints_partial pop' _ (createEventTree_wf nth' (restrict bg S) hb'.toWF).1
    (fun id e he => (hb'.eventKey id e he).1) (nonneg_restrict hb hg S) nb' g2
  have hS : ∀ i ∈ nb.ids, S i = true := by
    intro i hi
    obtain ⟨phs, hphs⟩ := Option.isSome_iff_exists.1 (AMap.find?_isSome.2 (g3.ids.mem_iff.1 hi))
    obtain ⟨p, event, -, -, h3⟩ := c4 i phs hphs
    have := h3.inCatalog
    rw [find_restrict] at this
    by_contra hc
    rw [if_neg hc] at this
    cases this
  have hf' : (prepare u single man).eventsSorted = (k, e) :: rest := hfirst
  refine event_by_selection (u := { u with pop := pop, tree := createEventTree nth bg })
    (u' := { u with pop := pop', tree := createEventTree nth' (restrict bg S) }) rfl hx rfl rfl hb hb' (SameCatalog.refl _) hf' hf' (createEventTree_wf nth bg hb.toWF).1 hg hroom
    (prepare_sound hsi man) (prepare_sound hsi man)
    ⟨nb, nb', g1, g2, g3, fun i hi => ?_, fun i hi => ?_⟩ (fun _ => rfl)
  · rw [find_restrict, if_pos (hS i hi)]
  · rw [phasesOf_restrict, if_pos (hS i hi)]

/-- **C131** Relocating an event gives the same, iteration by iteration, however the background catalog and the catalog with the
event store their content, and whatever index is built over the background.  Partial: as `selection_order_partial`, and the
cross-correlation must not depend on the order of the data. -/
theorem single_event_storage_partial {u : Setup K} (hx : OrderBlind u.solve.xcorr) {bg bg' single single' : Catalog K} (hb : bg.Sound)
    (hb' : bg'.Sound) (hroom : bg.events.find? (uintMod - 1) = none) (hc : SameCatalog bg bg') (hsi : single.Sound) (hsi' : single'.Sound) (hsc : SameCatalog single single') (man : Bool)
    {k : Nat} {e : Event K} {rest : List (Nat × Event K)} (hfirst : single.eventsSorted = (k, e) :: rest)
    (pop pop' : KdTree.Pop K) (t t' : EventTree K) (ht : t.WF) (ht' : t'.WF) (hp : t.points.Perm t'.points)
    (hg : u.geo.Nonneg bg e t) (hu : UniquePhases (prepare u single man) e.id)
    (ha : KdTree.Admissible u.geo.dist u.geo.axisDist (eventPt e) (t.points.map (·.1)))
    (hd : ∀ id, (bg.events.find? id).isSome → PhasesDecided u.geo u.cfg bg e id)
    (hn : u.cfg.maxNumNeigh = 0 ∨ NoTies u.geo e t) :
    SameReturn (relocateEvent { u with pop := pop, tree := t } bg single man)
      (relocateEvent { u with pop := pop', tree := t' } bg' single' man) := by
  have hprep : SameCatalog (prepare u single man) (prepare u single' man) :=
    prepare_same u hsi.eventsUnique hsi'.eventsUnique hsc man
  obtain ⟨nb, nb', g1, g2, g3⟩ := selection_order_partial (g := u.geo) (cfg := u.cfg) (refEv := e) pop pop' t t' ht ht' hp
    ⟨hc.events, hc.stations, fun i => by rw [hc.phases]⟩ ⟨hprep.events, hprep.stations, fun i => by rw [hprep.phases]⟩
    (fun id e he => (hb.eventKey id e he).1) hb.phaseStation hu ha hg.dist hd hn
  have hf' : (prepare u single man).eventsSorted = (k, e) :: rest := hfirst
  have hs := eventsSorted_twin (⟨hsc, hsi.eventsUnique, hsi'.eventsUnique⟩ : Twin single single')
  have hf'' : (prepare u single' man).eventsSorted = (k, e) :: rest := by
    show single'.eventsSorted = _
    rw [← hs]; exact hfirst
  exact event_by_selection (u := { u with pop := pop, tree := t }) (u' := { u with pop := pop', tree := t' }) rfl hx rfl rfl hb hb' hprep hf' hf'' ht hg hroom
    (prepare_sound hsi man) (prepare_sound hsi' man)
    ⟨nb, nb', g1, g2, g3, fun i _ => hc.events i, fun i _ => hc.phases i⟩ hc.stations

end Verif.SingleEvent

namespace Verif.SingleEvent.Example
open Verif.Catalog Verif.Selection Verif.Relocate Verif.Relocate.Example

/-! ## A concrete case -/

/-- the background with an event that has no pick, and without it -/
def withIdle : Catalog ℚ := { cat with events := (9, ev 9 0 46) :: cat.events }
def notNine (i : Nat) : Bool := i ≠ 9

theorem withIdle_sound : withIdle.Sound := by
  have : withIdle = (cat.addEvent (ev 9 0 46) true).1 := by rfl
  rw [this]
  exact sound_of (.addEvent _ _ (by decide) cat_reachable) (by decide +kernel) (by decide +kernel)

def nthI (pt : Nat → Pt ℚ) (axis : Nat) : NthElement (fun i => KdTree.coord axis (pt i)) := .sorting _

theorem leftOut : restrict withIdle notNine = cat := by rfl

/-- the event given -/
def target : Event ℚ := { ev 0 30000000 46 with id := 7 }

theorem first_given : (given 7).eventsSorted = (7, target) :: [] := rfl

theorem idle_useless (e : Event ℚ) (h : e.id = 9) (refEv : Event ℚ) (refCat : Catalog ℚ) :
    OfNoUse setup.geo setup.cfg withIdle refEv refCat e := by
  rintro - ⟨-, event, h1, phs, -, h3, -, h5⟩
  have hid := (withIdle_sound.eventKey _ _ h1).1
  obtain ⟨sp, hsp⟩ := List.exists_mem_of_ne_nil _ h3
  obtain ⟨s, -, ⟨p, hp, -⟩, -⟩ := h5 sp hsp
  rw [hid, h] at hp
  have : withIdle.phasesOf 9 = [] := by decide +kernel
  rw [this] at hp
  cases hp

theorem only_nine {i : Nat} {e : Event ℚ} (h : withIdle.events.find? i = some e) (hS : notNine i = false) : e.id = 9 := by
  have := (withIdle_sound.eventKey _ _ h).1
  unfold notNine at hS
  simp only [ne_eq, decide_not, Bool.not_eq_false', decide_eq_true_eq] at hS
  rw [this, hS]

theorem idle_unique (i : Nat) : UniquePhases withIdle i := by
  unfold UniquePhases
  by_cases h : i ∈ [1, 2]
  · revert i; decide +kernel
  · have : withIdle.phasesOf i = [] := by
      rw [List.eq_nil_iff_forall_not_mem]
      intro p hp
      have hm := Catalog.mem_phasesOf.1 hp
      have : ∀ kp ∈ withIdle.phases, kp.1 ∈ [1, 2] := by decide +kernel
      exact h (this _ hm)
    rw [this]; simp

theorem idle_points : (createEventTree nthI withIdle).points.map (·.1) = [⟨46, 7, 5⟩, ⟨46, 7, 5⟩, ⟨46, 7, 5⟩] := by decide +kernel

theorem idle_admissible : KdTree.Admissible setup.geo.dist setup.geo.axisDist (eventPt target)
    ((createEventTree nthI withIdle).points.map (·.1)) := by
  rw [idle_points]
  have : ∀ axis < 3, ∀ c ∈ ([⟨46, 7, 5⟩, ⟨46, 7, 5⟩, ⟨46, 7, 5⟩] : List (Pt ℚ)), ∀ p ∈ ([⟨46, 7, 5⟩, ⟨46, 7, 5⟩, ⟨46, 7, 5⟩] : List (Pt ℚ)),
    (KdTree.coord axis (eventPt target) < KdTree.coord axis c ∧ KdTree.coord axis c ≤ KdTree.coord axis p) ∨
    (KdTree.coord axis p ≤ KdTree.coord axis c ∧ KdTree.coord axis c ≤ KdTree.coord axis (eventPt target)) →
      setup.geo.axisDist axis c (eventPt target) ≤ setup.geo.dist p (eventPt target) := by decide +kernel
  intro a ha c hc p hp
  exact this a ha c hc p hp

theorem blind : OrderBlind setup.solve.xcorr := by
  intro c c' nb nb' _ _ _ _ _ _ x hx
  exact ⟨x, hx, fun _ _ _ _ => rfl⟩

/-- the hypotheses: the event without picks is left out, the rest of the index is built and searched the same way -/
theorem example_trim : SameReturn
    (relocateEvent { setup with pop := KdTree.Example.sortingPop, tree := createEventTree nthI withIdle } withIdle (given 7) true)
    (relocateEvent { setup with pop := KdTree.Example.sortingPop, tree := createEventTree nthI (restrict withIdle notNine) }
      (restrict withIdle notNine) (given 7) true) :=
  single_event_trim_partial (u := setup) blind withIdle_sound (by decide +kernel) given_sound true first_given nthI nthI
    KdTree.Example.sortingPop KdTree.Example.sortingPop (by decide) notNine
    (fun i e h hS => idle_useless e (only_nine h hS) _ _)
    ⟨by intro x _; unfold setup Selection.Example.geo KdTree.Example.chebyshev; positivity, fun _ _ _ => abs_nonneg _,
      fun _ _ _ _ _ _ => abs_nonneg _⟩
    idle_unique idle_admissible (.inl rfl)

/-- and the event is relocated with either background -/
example : (∃ r log, relocateEvent { setup with pop := KdTree.Example.sortingPop, tree := createEventTree nthI withIdle } withIdle (given 7) true =
      .ok (r, log) ∧ seen r = [⟨3, 48, 32000000, true⟩] ∧ doneIn log = [⟨[], 1, true⟩, ⟨[], 3, true⟩, ⟨[], 5, false⟩]) ∧
    ∃ r log, relocateEvent { setup with pop := KdTree.Example.sortingPop, tree := createEventTree nthI (restrict withIdle notNine) }
      (restrict withIdle notNine) (given 7) true = .ok (r, log) ∧ seen r = [⟨3, 48, 32000000, true⟩] ∧
        doneIn log = [⟨[], 1, true⟩, ⟨[], 3, true⟩, ⟨[], 5, false⟩] :=
  ⟨check_true (by decide +kernel), check_true (by decide +kernel)⟩

/-- the background stored the other way round, with an index over the same events in another order -/
def catRev : Catalog ℚ := { cat with events := cat.events.reverse }
def treeRev : EventTree ℚ := ⟨[(⟨46, 7, 5⟩, 2), (⟨46, 7, 5⟩, 1)], .node 0 0 .nil (.node 1 1 .nil .nil)⟩

theorem treeRevWF : treeRev.WF := by
  refine ⟨by decide +kernel, by decide +kernel, ?_⟩
  simp [treeRev, EventTree.pt, KdTree.Ordered, KdTree.contents, KdTree.coord]

theorem catRev_same : SameCatalog cat catRev :=
  ⟨fun k => (Selection.Example.find?_reverse _ cat_sound.eventsUnique k), fun _ => rfl, fun _ => rfl⟩

theorem catRev_sound : catRev.Sound := by
  refine ⟨⟨cat_sound.stationsUnique, cat_sound.stationKey, ?_, ?_, cat_sound.phaseKey⟩, ?_, cat_sound.phaseStation⟩
  · show catRev.events.keys.Nodup
    decide +kernel
  · intro id e h
    rw [← catRev_same.events] at h
    exact cat_sound.eventKey id e h
  · intro kp hkp
    rw [← catRev_same.events]
    exact cat_sound.phaseEvent kp hkp

example : SameReturn (relocateEvent { setup with pop := KdTree.Example.sortingPop, tree := tree } cat (given 7) true)
    (relocateEvent { setup with pop := KdTree.Example.sortingPop, tree := treeRev } catRev (given 7) true) :=
  single_event_storage_partial (u := setup) blind cat_sound catRev_sound (by decide +kernel) catRev_same given_sound given_sound
    (SameCatalog.refl _) true first_given _ _ tree treeRev treeWF treeRevWF (by decide +kernel)
    (nonneg target) (by unfold UniquePhases; decide +kernel)
    (by
      have : ∀ axis < 3, ∀ c ∈ tree.points.map (·.1), ∀ p ∈ tree.points.map (·.1),
        (KdTree.coord axis (eventPt target) < KdTree.coord axis c ∧ KdTree.coord axis c ≤ KdTree.coord axis p) ∨
        (KdTree.coord axis p ≤ KdTree.coord axis c ∧ KdTree.coord axis c ≤ KdTree.coord axis (eventPt target)) →
          setup.geo.axisDist axis c (eventPt target) ≤ setup.geo.dist p (eventPt target) := by decide +kernel
      intro a ha c hc p hp
      exact this a ha c hc p hp)
    (fun _ _ => .inl rfl) (.inl rfl)

/-- a relocation in which an event is restored (C13), with the events stored the other way round -/
example : SameResult (relocate Relocate.Example.args cat) (relocate Relocate.Example.args catRev) :=
  same_data_same_relocation Relocate.Example.args.env Relocate.Example.args.so Relocate.Example.args.o Relocate.Example.args.sol
    (xc := Relocate.Example.args.xc) (xc' := Relocate.Example.args.xc) (fun _ _ _ _ => rfl)
    (cl := Relocate.Example.args.cluster) (cl' := Relocate.Example.args.cluster)
    (.cons ⟨rfl, rfl, List.Perm.refl _⟩ (.cons ⟨rfl, rfl, List.Perm.refl _⟩ .nil))
    cat_sound.eventsUnique catRev_sound.eventsUnique catRev_same

/-- a correlation that finds something, always the same -/
def steady : XcorrArgs ℚ := ⟨true, 0, -1, -1, fun _ _ => 1, fun _ _ => 1, fun _ _ _ _ _ => .ok ⟨true, 1 / 2, 3 / 4⟩⟩

example : OrderBlind (fun c cl => (buildXCorrCache steady c cl [] []).map (·.cache)) := correlation_order_blind (fun _ _ => rfl)

end Verif.SingleEvent.Example
