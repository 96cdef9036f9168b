import Verif.Model.SingleEvent
import Verif.Spec.SingleEvent
import Verif.Props.SingleEvent

/-! Lemmas about single-event relocation: the number of the event does not matter for the search. -/

set_option linter.unusedSectionVars false
set_option linter.unusedSimpArgs false

namespace Verif.SingleEvent
open Verif.Catalog Verif.Selection

variable {K : Type} [Field K] [LinearOrder K]

/-- the same list of another event -/
def withRef (m : Nat) (nb : Neighbours) : Neighbours := { nb with refId := m }

theorem amount_withRef (m : Nat) (nb : Neighbours) : (withRef m nb).amount = nb.amount := rfl

theorem add_withRef (m : Nat) (nb : Neighbours) (id : Nat) (sp : StaPhase) :
    (withRef m nb).add id sp = withRef m (nb.add id sp) := rfl

theorem foldl_add_withRef (m id : Nat) : ∀ (l : List (K × StaPhase)) (nb : Neighbours),
    l.foldl (fun nb x => nb.add id x.2) (withRef m nb) = withRef m (l.foldl (fun nb x => nb.add id x.2) nb)
  | [], _ => rfl
  | x :: l, nb => by
    simp only [List.foldl_cons, add_withRef]
    exact foldl_add_withRef m id l _

/-- Two descriptions of the same event, with different numbers, none of which is that of an event of the catalog. -/
structure Alike (g : Geometry K) (cat : Catalog K) (e : Event K) (c : Catalog K) (e' : Event K) (c' : Catalog K) : Prop where
  fresh : cat.events.find? e.id = none
  fresh' : cat.events.find? e'.id = none
  pt : eventPt e' = eventPt e
  sta : ∀ st, g.staDist e' st = g.staDist e st
  search : ∀ sp, (searchPhase c' e'.id sp).map (·.procType) = (searchPhase c e.id sp).map (·.procType)

section
variable {g : Geometry K} {cfg : Config K} {cat : Catalog K} {e e' : Event K} {c c' : Catalog K}

theorem matchPhase_alike (h : Alike g cat e c e' c') (event : Event K) (d : K) (p : Phase K) :
    matchPhase g cfg cat e' c' event d p = matchPhase g cfg cat e c event d p := by
  unfold matchPhase
  cases cat.stations.find? p.stationId with
  | none => rfl
  | some station =>
    simp only [h.sta]
    have hs := h.search (p.stationId, p.type)
    cases h1 : searchPhase c e.id (p.stationId, p.type) <;> cases h2 : searchPhase c' e'.id (p.stationId, p.type) <;>
      rw [h1, h2] at hs <;> simp_all

theorem matchPhases_alike (h : Alike g cat e c e' c') (event : Event K) (d : K) :
    ∀ (ps : List (Phase K)) (acc : List (K × StaPhase)),
      matchPhases g cfg cat e' c' event d ps acc = matchPhases g cfg cat e c event d ps acc
  | [], _ => rfl
  | p :: ps, acc => by
    unfold matchPhases
    rw [matchPhase_alike h]
    cases matchPhase g cfg cat e c event d p with
    | ok x =>
      cases x with
      | none => exact matchPhases_alike h event d ps acc
      | some x => exact matchPhases_alike h event d ps _
    | throws => rfl
    | ub => rfl

theorem addNeighbour_alike (h : Alike g cat e c e' c') (nb : Neighbours) (id : Nat) (d : K) :
    addNeighbour g cfg cat e' c' (withRef e'.id nb) id d =
      (addNeighbour g cfg cat e c nb id d).map (fun r => (withRef e'.id r.1, r.2)) := by
  have key : ∀ (x : Event K) (y : Catalog K) (n : Neighbours), cat.events.find? x.id = none →
      addNeighbour g cfg cat x y n id d = match cat.events.find? id with
        | none => .ok (n, false)
        | some event =>
          match matchPhases g cfg cat x y event d (cat.phasesOf event.id) [] with
          | .throws => .throws
          | .ub => .ub
          | .ok found =>
            if found.length < cfg.minPhase then .ok (n, false)
            else
              let kept := if 0 < cfg.maxPhase then found.take cfg.maxPhase else found
              .ok (kept.foldl (fun nb x => nb.add event.id x.2) n, true) := by
    intro x y n hx
    unfold addNeighbour
    by_cases hid : id = x.id
    · subst hid; rw [if_pos rfl, hx]
    · rw [if_neg hid]; rfl
  rw [key _ _ _ h.fresh', key _ _ _ h.fresh]
  cases cat.events.find? id with
  | none => rfl
  | some event =>
    simp only
    rw [matchPhases_alike h]
    cases matchPhases g cfg cat e c event d (cat.phasesOf event.id) [] with
    | throws => rfl
    | ub => rfl
    | ok found =>
      simp only
      by_cases hl : found.length < cfg.minPhase
      · rw [if_pos hl, if_pos hl]; rfl
      · rw [if_neg hl, if_neg hl, foldl_add_withRef]; rfl

theorem nearestVisit_alike (h : Alike g cat e c e' c') (t : EventTree K) (s : Outcome Neighbours) (i : Nat) (d : K) :
    nearestVisit g cfg cat e' c' t (s.map (withRef e'.id)) i d =
      ((nearestVisit g cfg cat e c t s i d).1.map (withRef e'.id), (nearestVisit g cfg cat e c t s i d).2) := by
  cases s with
  | throws => rfl
  | ub => rfl
  | ok nb =>
    unfold nearestVisit
    simp only [Outcome.map]
    by_cases hd : cfg.maxNeighbourDist < d
    · rw [if_pos hd, if_pos hd]
    · rw [if_neg hd, if_neg hd, addNeighbour_alike h]
      cases addNeighbour g cfg cat e c nb (t.data i) d <;> rfl

theorem loop_map {S : Type} (pop : KdTree.Pop K) (pt : Nat → Pt K) (dist : Pt K → Pt K → K)
    (axisDist : Nat → Pt K → Pt K → K) (q : Pt K) (f f' : S → Nat → K → S × Bool) (φ : S → S)
    (hf : ∀ s i d, f' (φ s) i d = (φ (f s i d).1, (f s i d).2)) :
    ∀ (fuel : Nat) (pq : List (KdTree.Item K)) (s : S),
      KdTree.loop pt dist axisDist q pop f' fuel pq (φ s) = (KdTree.loop pt dist axisDist q pop f fuel pq s).map φ
  | 0, pq, s => by
    unfold KdTree.loop
    cases pop.run pq <;> rfl
  | fuel + 1, pq, s => by
    unfold KdTree.loop
    cases pop.run pq with
    | none => rfl
    | some x =>
      obtain ⟨x, pq'⟩ := x
      cases x with
      | sub d n => exact loop_map pop pt dist axisDist q f f' φ hf fuel _ s
      | point d i =>
        simp only [hf]
        by_cases hs : (f s i d).2 = true
        · rw [if_pos hs, if_pos hs]; rfl
        · rw [if_neg hs, if_neg hs]
          exact loop_map pop pt dist axisDist q f f' φ hf fuel _ _

theorem nearest_alike (h : Alike g cat e c e' c') (pop : KdTree.Pop K) (t : EventTree K) :
    nearest g cfg cat e' c' pop t = (nearest g cfg cat e c pop t).map (withRef e'.id) := by
  unfold nearest
  have h0 : (Outcome.ok (Neighbours.empty e'.id) : Outcome Neighbours) =
      (Outcome.ok (Neighbours.empty e.id)).map (withRef e'.id) := rfl
  rw [h.pt, h0]
  have : ∀ tr, KdTree.bestFirst t.pt g.dist g.axisDist (eventPt e) pop 0 (nearestVisit g cfg cat e' c' t) tr
      ((Outcome.ok (Neighbours.empty e.id)).map (withRef e'.id)) =
      (KdTree.bestFirst t.pt g.dist g.axisDist (eventPt e) pop 0 (nearestVisit g cfg cat e c t) tr
        (Outcome.ok (Neighbours.empty e.id))).map (fun s => s.map (withRef e'.id)) := by
    intro tr
    unfold KdTree.bestFirst
    cases tr with
    | nil => rfl
    | node idx axis l r =>
      exact loop_map (S := Outcome Neighbours) pop _ _ _ _ (nearestVisit g cfg cat e c t) (nearestVisit g cfg cat e' c' t)
        (fun s => s.map (withRef e'.id)) (nearestVisit_alike h t) _ _ _
  rw [this]
  cases KdTree.bestFirst t.pt g.dist g.axisDist (eventPt e) pop 0 (nearestVisit g cfg cat e c t) t.tree
    (Outcome.ok (Neighbours.empty e.id)) <;> rfl

theorem scanCell_alike (h : Alike g cat e c e' c') (t : EventTree K) (cell : (K × K) × Nat) :
    ∀ (pts : List (K × Nat)) (nb : Neighbours), scanCell g cfg cat e' c' t cell pts (withRef e'.id nb) =
      (scanCell g cfg cat e c t cell pts nb).map (fun r => (r.1, withRef e'.id r.2.1, r.2.2))
  | [], _ => rfl
  | (d, i) :: rest, nb => by
    unfold scanCell
    rw [h.pt]
    by_cases hc : (inRange cell d && inCell g (eventPt e) cell (t.pt i)) = true
    · rw [if_pos hc, if_pos hc, addNeighbour_alike h]
      cases addNeighbour g cfg cat e c nb (t.data i) d with
      | throws => rfl
      | ub => rfl
      | ok r =>
        obtain ⟨nb1, b⟩ := r
        cases b with
        | true => rfl
        | false =>
          simp only [Outcome.map]
          rw [scanCell_alike h t cell rest nb1]
          cases scanCell g cfg cat e c t cell rest nb1 <;> rfl
    · rw [if_neg hc, if_neg hc, scanCell_alike h t cell rest nb]
      cases scanCell g cfg cat e c t cell rest nb <;> rfl

theorem sweep_alike (h : Alike g cat e c e' c') (t : EventTree K) :
    ∀ (cs : List ((K × K) × Nat)) (pts : List (K × Nat)) (nb : Neighbours) (m : Bool),
      sweep g cfg cat e' c' t cs pts (withRef e'.id nb) m =
        (sweep g cfg cat e c t cs pts nb m).map (fun r => (r.1, withRef e'.id r.2.1, r.2.2))
  | [], _, _, _ => rfl
  | cell :: cs, pts, nb, m => by
    unfold sweep
    rw [scanCell_alike h]
    cases scanCell g cfg cat e c t cell pts nb with
    | throws => rfl
    | ub => rfl
    | ok r =>
      obtain ⟨pts1, nb1, m1⟩ := r
      simp only [Outcome.map]
      by_cases hs : pts1 = [] ∨ (0 < cfg.maxNumNeigh ∧ cfg.maxNumNeigh ≤ nb1.amount)
      · have hs' : pts1 = [] ∨ (0 < cfg.maxNumNeigh ∧ cfg.maxNumNeigh ≤ (withRef e'.id nb1).amount) := hs
        rw [if_pos hs, if_pos hs']
      · have hs' : ¬ (pts1 = [] ∨ (0 < cfg.maxNumNeigh ∧ cfg.maxNumNeigh ≤ (withRef e'.id nb1).amount)) := hs
        rw [if_neg hs, if_neg hs']
        exact sweep_alike h t cs pts1 nb1 _

theorem rounds_alike (h : Alike g cat e c e' c') (t : EventTree K) (cs : List ((K × K) × Nat)) :
    ∀ (fuel : Nat) (pts : List (K × Nat)) (nb : Neighbours),
      rounds g cfg cat e' c' t cs fuel pts (withRef e'.id nb) =
        (rounds g cfg cat e c t cs fuel pts nb).map (fun r => (withRef e'.id r.1, r.2))
  | 0, _, _ => rfl
  | fuel + 1, pts, nb => by
    unfold rounds
    rw [sweep_alike h]
    cases sweep g cfg cat e c t cs pts nb false with
    | throws => rfl
    | ub => rfl
    | ok r =>
      obtain ⟨pts1, nb1, m, go⟩ := r
      cases go with
      | false => rfl
      | true =>
        cases m with
        | false => rfl
        | true => exact rounds_alike h t cs fuel pts1 nb1

/-- the selection for an event does not depend on its number -/
theorem select_alike (h : Alike g cat e c e' c') (pop : KdTree.Pop K) (t : EventTree K) :
    selectNeighbours g cfg cat e' c' pop t = (selectNeighbours g cfg cat e c pop t).map (withRef e'.id) := by
  unfold selectNeighbours
  by_cases hm : (if cfg.maxNumNeigh = 0 then 0 else cfg.numEllipsoids) = 0
  · simp only [hm, if_true]
    exact nearest_alike h pop t
  · simp only [hm, if_false]
    have hc : candidates g cfg e' t = candidates g cfg e t := by unfold candidates; rw [h.pt]
    unfold ellipsoids
    simp only [hc]
    by_cases hp : candidates g cfg e t = []
    · rw [if_pos hp, if_pos hp]; rfl
    · rw [if_neg hp, if_neg hp]
      have h0 : Neighbours.empty e'.id = withRef e'.id (Neighbours.empty e.id) := rfl
      rw [h0, rounds_alike h]
      cases rounds g cfg cat e c t _ _ _ _ <;> rfl

end

/-! ## the relocation from the neighbours on -/

theorem copyPhases_congr (sts : AMap String (Station K)) (newId : Nat) : ∀ (ps ps' : List (Phase K)) (c : Catalog K),
    ps'.map (fun p => { p with eventId := newId }) = ps.map (fun p => { p with eventId := newId }) →
    Catalog.copyPhases sts newId c ps' = Catalog.copyPhases sts newId c ps
  | [], [], _, _ => rfl
  | [], _ :: _, _, h => by simp at h
  | _ :: _, [], _, h => by simp at h
  | p :: ps, p' :: ps', c, h => by
    simp only [List.map_cons, List.cons.injEq] at h
    have hs : p'.stationId = p.stationId := by
      have := congrArg Phase.stationId h.1
      exact this
    have hc : Catalog.copyPhase sts newId c p' = Catalog.copyPhase sts newId c p := by
      unfold Catalog.copyPhase
      rw [h.1, hs]
    unfold Catalog.copyPhases
    rw [hc]
    cases Catalog.copyPhase sts newId c p with
    | mk c1 r =>
      cases r with
      | ok x => exact copyPhases_congr sts newId ps ps' c1 h.2
      | throws => rfl
      | ub => rfl

theorem fill_numbered (sts : AMap String (Station K)) (e : Event K) (ps : List (Phase K)) (n : Nat) (src : Source)
    (vp vs : List String) (w : Phase K → K) (hw : ∀ p, w { p with eventId := n } = w p) :
    (numbered sts e ps n).fillProcessingInfo src vp vs w =
      numbered sts e (ps.map (fun p =>
        { p with classWeight := w p, source := src, procType := Catalog.classify vp vs p.type })) n := by
  have h1 : (numbered sts e ps n).eventsSorted = [(n, { e with id := n })] := rfl
  have h2 : (numbered sts e ps n).phasesOf n = ps.map (fun p => { p with eventId := n }) := by
    unfold Catalog.phasesOf numbered
    simp only [List.filter_map, List.map_map]
    rw [List.filter_eq_self.2 (by simp)]
    rfl
  unfold Catalog.fillProcessingInfo
  rw [h1]
  simp only [List.flatMap_cons, List.flatMap_nil, List.append_nil, h2, List.map_map]
  unfold numbered
  simp only [List.map_map]
  congr 1
  apply List.map_congr_left
  intro p _
  simp [hw]

theorem phasesOf_numbered (sts : AMap String (Station K)) (e : Event K) (ps : List (Phase K)) (n : Nat) :
    (numbered sts e ps n).phasesOf n = ps.map (fun p => { p with eventId := n }) := by
  unfold Catalog.phasesOf numbered
  simp only [List.filter_map, List.map_map]
  rw [List.filter_eq_self.2 (by simp)]
  rfl

theorem search_numbered (sts : AMap String (Station K)) (e : Event K) (ps : List (Phase K)) (n : Nat) (sp : StaPhase) :
    (searchPhase (numbered sts e ps n) n sp).map (·.procType) =
      (ps.find? (fun p => p.stationId = sp.1 ∧ p.type = sp.2)).map (·.procType) := by
  unfold searchPhase
  rw [phasesOf_numbered, List.find?_map, Option.map_map]
  rfl

theorem addFrom_numbered (c : Catalog K) (sts : AMap String (Station K)) (e : Event K) (ps : List (Phase K)) (n m : Nat) :
    c.addFrom m (numbered sts e ps m) false = c.addFrom n (numbered sts e ps n) false := by
  have hf : ∀ k, (numbered sts e ps k).events.find? k = some { e with id := k } := by
    intro k; simp [numbered, AMap.find?]
  unfold Catalog.addFrom
  rw [hf, hf]
  simp only [Catalog.addEvent, Bool.false_eq_true, if_false]
  rw [phasesOf_numbered, phasesOf_numbered]
  have : Catalog.copyPhases (numbered sts e ps m).stations ((c.maxKey + 1) % uintMod)
      { c with events := c.events.set ((c.maxKey + 1) % uintMod) { e with id := (c.maxKey + 1) % uintMod } }
      (ps.map (fun p => { p with eventId := m })) =
    Catalog.copyPhases (numbered sts e ps n).stations ((c.maxKey + 1) % uintMod)
      { c with events := c.events.set ((c.maxKey + 1) % uintMod) { e with id := (c.maxKey + 1) % uintMod } }
      (ps.map (fun p => { p with eventId := n })) := by
    apply copyPhases_congr
    simp only [List.map_map]
    rfl
  simp only [this]

theorem relocate_numbered (s : Relocate.SingleArgs K) (bg : Catalog K) (sts : AMap String (Station K)) (e : Event K)
    (ps : List (Phase K)) (n m : Nat) (nb : Neighbours) :
    Relocate.relocateSingleEvent s bg (numbered sts e ps m) m (withRef m nb) =
      Relocate.relocateSingleEvent s bg (numbered sts e ps n) n nb := by
  have h1 : Relocate.singleEventCatalog bg (numbered sts e ps m) m (withRef m nb) =
      Relocate.singleEventCatalog bg (numbered sts e ps n) n nb := by
    unfold Relocate.singleEventCatalog
    have : Relocate.toCatalog (withRef m nb) bg = Relocate.toCatalog nb bg := rfl
    rw [this]
    simp only [addFrom_numbered _ _ _ _ n m]
  unfold Relocate.relocateSingleEvent
  rw [h1]
  rfl

/-! ## the number of differential times fits -/

theorem sum_phases_le (ps : List (Nat × Phase K)) : ∀ l : List Nat, l.Nodup →
    (l.map (fun k => (ps.filter (fun kp => kp.1 = k)).length)).sum ≤ ps.length := by
  induction ps with
  | nil => intro l _; simp
  | cons kp ps ih =>
    intro l hl
    have hstep : (l.map (fun k => ((kp :: ps).filter (fun x => x.1 = k)).length)).sum =
        (l.map (fun k => (ps.filter (fun x => x.1 = k)).length)).sum + (l.filter (fun k => kp.1 = k)).length := by
      clear hl ih
      induction l with
      | nil => rfl
      | cons k l ihl =>
        rw [List.map_cons, List.sum_cons, ihl, List.map_cons, List.sum_cons, List.filter_cons,
          List.filter_cons (x := k)]
        by_cases hk : decide (kp.1 = k) = true
        · rw [if_pos hk, if_pos hk, List.length_cons, List.length_cons]; omega
        · rw [if_neg hk, if_neg hk]; omega
    have h1 : (l.filter (fun k => kp.1 = k)).length ≤ 1 := by
      have : (l.filter (fun k => decide (kp.1 = k))).length = l.count kp.1 := by
        rw [List.count, List.countP_eq_length_filter]
        congr 1
        apply List.filter_congr
        intro x _
        by_cases hx : kp.1 = x
        · simp [hx]
        · simp [hx, Ne.symm hx]
      rw [this]
      exact List.nodup_iff_count_le_one.1 hl _
    have := ih l hl
    rw [hstep, List.length_cons]
    omega

theorem phases_fit {bg : Catalog K} {nb : Neighbours} (hn : nb.ids.Nodup)
    (h : ∀ id phs, nb.nbs.find? id = some phs → phs.Nodup ∧
      ∀ sp ∈ phs, ∃ p ∈ bg.phasesOf id, (p.stationId, p.type) = sp) :
    nb.phases.length ≤ bg.phases.length := by
  have h1 : nb.phases.length ≤ (nb.ids.map (fun k => (bg.phases.filter (fun kp => kp.1 = k)).length)).sum := by
    unfold Neighbours.phases Neighbours.ids AMap.keys
    rw [List.length_flatMap, List.map_map]
    apply List.sum_le_sum
    intro kv hkv
    simp only [List.length_map, Function.comp_apply]
    obtain ⟨a, b⟩ := h kv.1 kv.2 (AMap.find?_of_mem hn hkv)
    have hsub : kv.2 ⊆ (bg.phasesOf kv.1).map (fun p => (p.stationId, p.type)) := by
      intro sp hsp
      obtain ⟨p, hp, hq⟩ := b sp hsp
      exact List.mem_map.2 ⟨p, hp, hq⟩
    have := (a.subperm hsub).length_le
    simpa [Catalog.phasesOf] using this
  exact le_trans h1 (sum_phases_le bg.phases nb.ids hn)

theorem prepare_sound {u : Setup K} {c : Catalog K} (h : c.Sound) (man : Bool) : (prepare u c man).Sound := by
  unfold prepare
  generalize hsrc : (if man = true then Source.rtEventManual else Source.rtEventAutomatic) = src
  have key : ∀ kp ∈ (c.fillProcessingInfo src u.validP u.validS
      (fun p => u.pickWeight p.lowerUncertainty p.upperUncertainty)).phases,
      ∃ q, (kp.1, q) ∈ c.phases ∧ q.stationId = kp.2.stationId := by
    intro kp hkp
    obtain ⟨k, p⟩ := kp
    have hm := Catalog.mem_phasesOf.2 hkp
    rw [(Catalog.fillProcessingInfo_phases h.toWF src _ _ _).2.2 k] at hm
    by_cases hk : (c.events.find? k).isSome = true
    · rw [if_pos hk, List.mem_map] at hm
      obtain ⟨q, hq, rfl⟩ := hm
      exact ⟨q, Catalog.mem_phasesOf.1 hq, rfl⟩
    · rw [if_neg hk] at hm; cases hm
  refine ⟨h.toWF.fillProcessingInfo src _ _ _, fun kp hkp => ?_, fun kp hkp => ?_⟩
  · obtain ⟨q, hq, -⟩ := key kp hkp
    exact h.phaseEvent (kp.1, q) hq
  · obtain ⟨q, hq, he⟩ := key kp hkp
    have := h.phaseStation (kp.1, q) hq
    simp only [he] at this
    exact this

end Verif.SingleEvent
