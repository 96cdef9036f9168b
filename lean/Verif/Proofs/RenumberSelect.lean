import Verif.Proofs.Renumber
import Verif.Proofs.KdTree
import Verif.Model.Selection
import Verif.Spec.Selection
import Verif.Model.Clusters

/-! Lemmas about the selection of neighbours when the events have other numbers. -/

set_option linter.unusedSectionVars false
set_option linter.unusedSimpArgs false

namespace Verif.Renumber
open Verif.Catalog Verif.Relocate Verif.Selection

variable {K : Type} [Field K] [LinearOrder K] {r : Nat → Nat}

/-- two indices of events that differ in the numbers only -/
structure SameTree (r : Nat → Nat) (t t' : EventTree K) : Prop where
  pt : t'.pt = t.pt
  tree : t'.tree = t.tree
  data : ∀ i ∈ KdTree.contents t.tree, t'.data i = r (t.data i)

section
variable (hr : StrictMono r)
include hr

theorem nb_phasesOf (nb : Neighbours) (k : Nat) : (neighbours r nb).phasesOf (r k) = nb.phasesOf k := by
  have := find?_mapBoth hr.injective (fun v : List StaPhase => v) k nb.nbs
  rw [Option.map_id'] at this
  unfold Neighbours.phasesOf neighbours
  simp only [this]

theorem nb_add (nb : Neighbours) (k : Nat) (sp : StaPhase) : (neighbours r nb).add (r k) sp = neighbours r (nb.add k sp) := by
  have := set_mapBoth hr.injective (fun v : List StaPhase => v) k (Neighbours.insertSet (nb.phasesOf k) sp) nb.nbs
  unfold Neighbours.add
  rw [nb_phasesOf hr]
  exact (Neighbours.mk.injEq ..).mpr ⟨rfl, this⟩

omit hr in
@[simp] theorem nb_amount (nb : Neighbours) : (neighbours r nb).amount = nb.amount := by
  unfold Neighbours.amount neighbours; simp

variable {g : Geometry K} (hg : ∀ e st, g.staDist (event r e) st = g.staDist e st) {cfg : Config K} {cat refCat : Catalog K} {e : Event K}
include hg

theorem matchPhase_ren (ev : Event K) (d : K) (p : Phase K) :
    matchPhase g cfg (catalog r cat) (event r e) (catalog r refCat) (event r ev) d (phase r p) =
      matchPhase g cfg cat e refCat ev d p := by
  unfold matchPhase
  have hs : Selection.searchPhase (catalog r refCat) (r e.id) (p.stationId, p.type) =
      (Selection.searchPhase refCat e.id (p.stationId, p.type)).map (phase r) := cat_searchPhase hr refCat e.id _
  rw [cat_stations, show (phase r p).stationId = p.stationId from rfl, show (phase r p).type = p.type from rfl,
    show (phase r p).procType = p.procType from rfl, e_id, hs]
  cases cat.stations.find? p.stationId with
  | none => rfl
  | some st =>
    simp only [hg]
    cases Selection.searchPhase refCat e.id (p.stationId, p.type) <;> rfl

theorem matchPhases_ren (ev : Event K) (d : K) : ∀ (ps : List (Phase K)) (acc : List (K × StaPhase)),
    matchPhases g cfg (catalog r cat) (event r e) (catalog r refCat) (event r ev) d (ps.map (phase r)) acc =
      matchPhases g cfg cat e refCat ev d ps acc
  | [], _ => rfl
  | p :: ps, acc => by
    rw [List.map_cons, matchPhases, matchPhases, matchPhase_ren hr hg]
    cases matchPhase g cfg cat e refCat ev d p with
    | ok y =>
      cases y with
      | none => exact matchPhases_ren ev d ps acc
      | some z => exact matchPhases_ren ev d ps _
    | throws => rfl
    | ub => rfl

theorem addNeighbour_ren (nb : Neighbours) (k : Nat) (d : K) :
    addNeighbour g cfg (catalog r cat) (event r e) (catalog r refCat) (neighbours r nb) (r k) d =
      (addNeighbour g cfg cat e refCat nb k d).map (fun x => (neighbours r x.1, x.2)) := by
  unfold addNeighbour
  rw [e_id, cat_find hr]
  by_cases hk : k = e.id
  · rw [if_pos hk, if_pos (congrArg r hk)]; rfl
  · rw [if_neg hk, if_neg (fun h => hk (hr.injective h))]
    cases cat.events.find? k with
    | none => rfl
    | some ev =>
      simp only [Option.map_some, e_id, cat_phasesOf hr]
      rw [matchPhases_ren hr hg]
      cases matchPhases g cfg cat e refCat ev d (cat.phasesOf ev.id) [] with
      | throws => rfl
      | ub => rfl
      | ok found =>
        simp only []
        split
        · rfl
        · simp only [Outcome.map, Outcome.ok.injEq, Prod.mk.injEq, and_true]
          generalize (if 0 < cfg.maxPhase then found.take cfg.maxPhase else found) = l
          clear hk
          induction l generalizing nb with
          | nil => rfl
          | cons x l ih => rw [List.foldl_cons, List.foldl_cons, nb_add hr, ih]

theorem nearest_ren (pop : KdTree.Pop K) {t t' : EventTree K} (ht : SameTree r t t') :
    nearest g cfg (catalog r cat) (event r e) (catalog r refCat) pop t' =
      (nearest g cfg cat e refCat pop t).map (neighbours r) := by
  have hp : eventPt (event r e) = eventPt e := rfl
  unfold nearest
  rw [ht.pt, ht.tree, hp]
  obtain ⟨E, hE, -, h⟩ := KdTree.bestFirst_spec (pt := t.pt) (dist := g.dist) (axisDist := g.axisDist) (q := eventPt e) False pop 0 t.tree
    (fun h => h.elim)
  rw [h, h]
  have hi : ∀ x ∈ E, x.2 ∈ KdTree.contents t.tree := by
    intro x hx
    obtain ⟨i, hi, rfl⟩ := List.mem_map.1 (hE.subset hx)
    exact hi
  have hd : ∀ (E : List (K × Nat)) (s : Outcome Neighbours), (∀ x ∈ E, x.2 ∈ KdTree.contents t.tree) →
      KdTree.deliver (nearestVisit g cfg (catalog r cat) (event r e) (catalog r refCat) t') E (s.map (neighbours r)) =
        (KdTree.deliver (nearestVisit g cfg cat e refCat t) E s).map (neighbours r) := by
    intro E
    induction E with
    | nil => exact fun _ _ => rfl
    | cons x E ih =>
      intro s hi
      have hv : nearestVisit g cfg (catalog r cat) (event r e) (catalog r refCat) t' (s.map (neighbours r)) x.2 x.1 =
          ((nearestVisit g cfg cat e refCat t s x.2 x.1).1.map (neighbours r), (nearestVisit g cfg cat e refCat t s x.2 x.1).2) := by
        unfold nearestVisit
        cases s with
        | throws => rfl
        | ub => rfl
        | ok nb =>
          simp only [Outcome.map]
          split
          · rfl
          · rw [ht.data _ (hi x (by simp)), addNeighbour_ren hr hg]
            cases addNeighbour g cfg cat e refCat nb (t.data x.2) x.1 with
            | throws => rfl
            | ub => rfl
            | ok y => simp [Outcome.map]
      rw [KdTree.deliver, KdTree.deliver, hv]
      generalize nearestVisit g cfg cat e refCat t s x.2 x.1 = y
      obtain ⟨s', b⟩ := y
      cases b with
      | true => rfl
      | false => exact ih s' (fun y hy => hi y (List.mem_cons_of_mem _ hy))
  exact hd E (.ok (Neighbours.empty e.id)) hi

omit hr hg in
theorem scanCell_rest {t : EventTree K} {cell : (K × K) × Nat} : ∀ {l : List (K × Nat)} {nb : Neighbours} {y},
    scanCell g cfg cat e refCat t cell l nb = .ok y → ∀ x ∈ y.1, x ∈ l
  | [], nb, y, h => by
    simp only [scanCell, Outcome.ok.injEq] at h
    subst h
    simp
  | (d, i) :: l, nb, y, h => by
    rw [scanCell] at h
    split at h
    · cases ha : addNeighbour g cfg cat e refCat nb (t.data i) d with
      | throws => rw [ha] at h; cases h
      | ub => rw [ha] at h; cases h
      | ok z =>
        obtain ⟨nb', b⟩ := z
        rw [ha] at h
        cases b with
        | true =>
          simp only [Outcome.ok.injEq] at h
          subst h
          exact fun x hx => List.mem_cons_of_mem _ hx
        | false =>
          simp only at h
          cases hs : scanCell g cfg cat e refCat t cell l nb' with
          | throws => rw [hs] at h; cases h
          | ub => rw [hs] at h; cases h
          | ok w =>
            rw [hs] at h
            simp only [Outcome.ok.injEq] at h
            subst h
            exact fun x hx => List.mem_cons_of_mem _ (scanCell_rest hs x hx)
    · cases hs : scanCell g cfg cat e refCat t cell l nb with
      | throws => rw [hs] at h; cases h
      | ub => rw [hs] at h; cases h
      | ok w =>
        rw [hs] at h
        simp only [Outcome.ok.injEq] at h
        subst h
        intro x hx
        rcases List.mem_cons.1 hx with rfl | hx
        · exact List.mem_cons_self
        · exact List.mem_cons_of_mem _ (scanCell_rest hs x hx)

theorem scanCell_ren {t t' : EventTree K} (ht : SameTree r t t') (cell : (K × K) × Nat) :
    ∀ (l : List (K × Nat)) (nb : Neighbours), (∀ x ∈ l, x.2 ∈ KdTree.contents t.tree) →
      scanCell g cfg (catalog r cat) (event r e) (catalog r refCat) t' cell l (neighbours r nb) =
        (scanCell g cfg cat e refCat t cell l nb).map (fun y => (y.1, neighbours r y.2.1, y.2.2))
  | [], _, _ => rfl
  | (d, i) :: l, nb, hi => by
    have hp : eventPt (event r e) = eventPt e := rfl
    have hl : ∀ x ∈ l, x.2 ∈ KdTree.contents t.tree := fun x hx => hi x (List.mem_cons_of_mem _ hx)
    have hd := ht.data i (hi (d, i) (by simp))
    rw [scanCell, scanCell, hp, ht.pt, hd, addNeighbour_ren hr hg]
    split
    · cases addNeighbour g cfg cat e refCat nb (t.data i) d with
      | throws => rfl
      | ub => rfl
      | ok z =>
        obtain ⟨nb', b⟩ := z
        cases b with
        | true => rfl
        | false =>
          simp only [Outcome.map]
          rw [scanCell_ren ht cell l nb' hl]
          cases scanCell g cfg cat e refCat t cell l nb' <;> rfl
    · rw [scanCell_ren ht cell l nb hl]
      cases scanCell g cfg cat e refCat t cell l nb <;> rfl

omit hr hg in
theorem sweep_rest {t : EventTree K} : ∀ {cs : List ((K × K) × Nat)} {l : List (K × Nat)} {nb : Neighbours} {m : Bool} {y},
    sweep g cfg cat e refCat t cs l nb m = .ok y → ∀ x ∈ y.1, x ∈ l
  | [], l, nb, m, y, h => by
    simp only [sweep, Outcome.ok.injEq] at h
    subst h
    exact fun _ hx => hx
  | c :: cs, l, nb, m, y, h => by
    rw [sweep] at h
    cases hs : scanCell g cfg cat e refCat t c l nb with
    | throws => rw [hs] at h; cases h
    | ub => rw [hs] at h; cases h
    | ok w =>
      rw [hs] at h
      simp only at h
      split at h
      · simp only [Outcome.ok.injEq] at h
        subst h
        exact scanCell_rest hs
      · exact fun x hx => scanCell_rest hs x (sweep_rest h x hx)

theorem sweep_ren {t t' : EventTree K} (ht : SameTree r t t') : ∀ (cs : List ((K × K) × Nat)) (l : List (K × Nat)) (nb : Neighbours)
    (m : Bool), (∀ x ∈ l, x.2 ∈ KdTree.contents t.tree) →
      sweep g cfg (catalog r cat) (event r e) (catalog r refCat) t' cs l (neighbours r nb) m =
        (sweep g cfg cat e refCat t cs l nb m).map (fun y => (y.1, neighbours r y.2.1, y.2.2))
  | [], _, _, _, _ => rfl
  | c :: cs, l, nb, m, hi => by
    rw [sweep, sweep, scanCell_ren hr hg ht c l nb hi]
    cases hs : scanCell g cfg cat e refCat t c l nb with
    | throws => rfl
    | ub => rfl
    | ok w =>
      simp only [Outcome.map, nb_amount]
      split
      · rfl
      · exact sweep_ren ht cs w.1 w.2.1 (m || w.2.2) (fun x hx => hi x (scanCell_rest hs x hx))

theorem rounds_ren {t t' : EventTree K} (ht : SameTree r t t') (cs : List ((K × K) × Nat)) : ∀ (n : Nat) (l : List (K × Nat))
    (nb : Neighbours), (∀ x ∈ l, x.2 ∈ KdTree.contents t.tree) →
      rounds g cfg (catalog r cat) (event r e) (catalog r refCat) t' cs n l (neighbours r nb) =
        (rounds g cfg cat e refCat t cs n l nb).map (fun y => (neighbours r y.1, y.2))
  | 0, _, _, _ => rfl
  | n + 1, l, nb, hi => by
    rw [rounds, rounds, sweep_ren hr hg ht cs l nb false hi]
    cases hs : sweep g cfg cat e refCat t cs l nb false with
    | throws => rfl
    | ub => rfl
    | ok w =>
      obtain ⟨l', nb', m, b⟩ := w
      cases b with
      | false => rfl
      | true =>
        cases m with
        | false => rfl
        | true => exact rounds_ren ht cs n l' nb' (fun x hx => hi x (sweep_rest hs x hx))

theorem select_ren (pop : KdTree.Pop K) {t t' : EventTree K} (ht : SameTree r t t') :
    selectNeighbours g cfg (catalog r cat) (event r e) (catalog r refCat) pop t' =
      (selectNeighbours g cfg cat e refCat pop t).map (neighbours r) := by
  have he : (ellipsoids g cfg (catalog r cat) (event r e) (catalog r refCat) t').map (·.1) =
      ((ellipsoids g cfg cat e refCat t).map (·.1)).map (neighbours r) := by
    have hc : candidates g cfg (event r e) t' = candidates g cfg e t := by
      unfold candidates
      rw [ht.pt, ht.tree]
      rfl
    have hi : ∀ x ∈ candidates g cfg e t, x.2 ∈ KdTree.contents t.tree := by
      intro x hx
      obtain ⟨-, L, h1, h2⟩ := KdTree.radius_sub (pt := t.pt) (dist := g.dist) (axisDist := g.axisDist)
        (q := eventPt e) (cfg.maxNeighbourDist * 2) t.tree [] List.Pairwise.nil
      rw [List.append_nil] at h2
      unfold candidates at hx
      rw [List.mem_filter] at hx
      have hw := h2.subset hx.1
      unfold KdTree.within at hw
      obtain ⟨i, hi, rfl⟩ := List.mem_map.1 hw
      rw [List.mem_filter] at hi
      exact h1.subset hi.1
    unfold ellipsoids
    simp only [hc]
    by_cases h0 : candidates g cfg e t = []
    · rw [if_pos h0, if_pos h0]; rfl
    · rw [if_neg h0, if_neg h0, show Neighbours.empty (event r e).id = neighbours r (Neighbours.empty e.id) from rfl,
        rounds_ren hr hg ht _ _ _ _ hi]
      generalize rounds g cfg cat e refCat t _ _ _ _ = y
      cases y <;> rfl
  unfold selectNeighbours
  simp only []
  generalize (if cfg.maxNumNeigh = 0 then 0 else cfg.numEllipsoids) = n
  by_cases h0 : n = 0
  · rw [if_pos h0, if_pos h0]
    exact nearest_ren hr hg pop ht
  · rw [if_neg h0, if_neg h0]
    exact he
end

/-! ## the whole catalog -/

/-- the variables of the selection, with other numbers -/
def catState (r : Nat → Nat) (s : CatState K) : CatState K := ⟨catalog r s.valid, s.removed.map r, cluster r s.found⟩

theorem tree_ren (hr : StrictMono r) (nth) (cat : Catalog K) : SameTree r (createEventTree nth cat) (createEventTree nth (catalog r cat)) := by
  have hp : (catalog r cat).eventsSorted.map (fun kv => (eventPt kv.2, kv.2.id)) =
      (cat.eventsSorted.map (fun kv => (eventPt kv.2, kv.2.id))).map (fun x => (x.1, r x.2)) := by
    rw [cat_sorted hr, List.map_map, List.map_map]; rfl
  have hpt : ∀ i, (((catalog r cat).eventsSorted.map (fun kv => (eventPt kv.2, kv.2.id))).getD i (⟨0, 0, 0⟩, 0)).1 =
      ((cat.eventsSorted.map (fun kv => (eventPt kv.2, kv.2.id))).getD i (⟨0, 0, 0⟩, 0)).1 := by
    intro i
    rw [hp]
    generalize cat.eventsSorted.map (fun kv => (eventPt kv.2, kv.2.id)) = l
    simp only [List.getD_eq_getElem?_getD, List.getElem?_map]
    cases l[i]? <;> rfl
  have ht : (createEventTree nth (catalog r cat)).tree = (createEventTree nth cat).tree := by
    have : ∀ (p p' : Nat → Pt K) (n n' : Nat), p' = p → n' = n → KdTree.ofPoints p' (nth p') n' = KdTree.ofPoints p (nth p) n := by
      rintro p _ n _ rfl rfl; rfl
    exact this _ _ _ _ (funext hpt) (by rw [hp, List.length_map])
  refine ⟨funext hpt, ht, fun i hi => ?_⟩
  have hi : i < (cat.eventsSorted.map (fun kv => (eventPt kv.2, kv.2.id))).length :=
    List.mem_range.1 ((KdTree.build_spec _ _ _ _).1.subset hi)
  show (((catalog r cat).eventsSorted.map (fun kv => (eventPt kv.2, kv.2.id))).getD i (⟨0, 0, 0⟩, 0)).2 =
    r ((cat.eventsSorted.map (fun kv => (eventPt kv.2, kv.2.id))).getD i (⟨0, 0, 0⟩, 0)).2
  rw [hp]
  generalize cat.eventsSorted.map (fun kv => (eventPt kv.2, kv.2.id)) = l at hi
  simp [List.getD_eq_getElem?_getD, List.getElem?_map, hi]

theorem insertNew_mapBoth {A B V W : Type} [DecidableEq A] [DecidableEq B] {r : A → B} (hr : Function.Injective r) (f : V → W) (k : A)
    (v : V) (m : AMap A V) : AMap.insertNew (m.map (fun kv => (r kv.1, f kv.2)) : AMap B W) (r k) (f v) =
      (AMap.insertNew m k v).map (fun kv => (r kv.1, f kv.2)) := by
  unfold AMap.insertNew
  rw [find?_mapBoth hr]
  cases AMap.find? m k <;> rfl

section
variable (hr : StrictMono r) {g : Geometry K} (hg : ∀ e st, g.staDist (event r e) st = g.staDist e st) {cfg : Config K} {q : Nat}
  {pop : KdTree.Pop K} {t t' : EventTree K} (ht : SameTree r t t')
include hr hg ht

omit hg ht in
theorem found_ren (m : AMap Nat Neighbours) (nb : Neighbours) :
    AMap.insertNew (cluster r m) (r nb.refId) (neighbours r nb) = cluster r (m.insertNew nb.refId nb) :=
  insertNew_mapBoth hr.injective (neighbours r) nb.refId nb m

theorem firstPass_ren : ∀ (l : List (Nat × Event K)) (s : CatState K),
    firstPass g cfg q pop t' (l.map (fun kv => (r kv.1, event r kv.2))) (catState r s) = (firstPass g cfg q pop t l s).map (catState r)
  | [], _ => rfl
  | (k, ev) :: l, s => by
    rw [List.map_cons, firstPass, firstPass]
    simp only [show (catState r s).valid = catalog r s.valid from rfl, select_ren hr hg pop ht]
    cases selectNeighbours g cfg s.valid ev s.valid pop t with
    | throws => rfl
    | ub => rfl
    | ok nb =>
      simp only [Outcome.map, nb_amount]
      by_cases hq : q ≤ nb.amount
      · rw [if_pos hq, if_pos hq]
        have := firstPass_ren l { s with found := s.found.insertNew nb.refId nb }
        refine Eq.trans (congrArg _ ?_) this
        exact (CatState.mk.injEq ..).mpr ⟨rfl, rfl, found_ren hr s.found nb⟩
      · rw [if_neg hq, if_neg hq, e_id, cat_removeEvent hr]
        exact firstPass_ren l { s with removed := ev.id :: s.removed, valid := s.valid.removeEvent ev.id }

theorem redoPass_ren : ∀ (l : List (Nat × Neighbours)) (s : CatState K) (b : Bool),
    redoPass g cfg q pop t' (cluster r l) (catState r s) b = (redoPass g cfg q pop t l s b).map (fun x => (catState r x.1, x.2))
  | [], _, _ => rfl
  | (k, nb) :: l, s, b => by
    rw [show cluster r ((k, nb) :: l) = (r k, neighbours r nb) :: cluster r l from rfl, redoPass, redoPass]
    have h1 : (catState r s).removed = s.removed.map r := rfl
    have h2 : (catState r s).valid = catalog r s.valid := rfl
    have h3 : (catState r s).found = cluster r s.found := rfl
    have ha : (neighbours r nb).ids.any (fun i => decide (i ∈ s.removed.map r)) = nb.ids.any (fun i => decide (i ∈ s.removed)) := by
      rw [nb_ids, List.any_map]
      congr 1
      funext i
      simp only [Function.comp_apply, List.mem_map_of_injective hr.injective]
    rw [h1, h2, h3, ha, nb_ref, cat_find hr]
    have hf : ∀ nb, redoPass g cfg q pop t' (cluster r l)
        { catState r s with found := AMap.insertNew (cluster r s.found) (r nb.refId) (neighbours r nb) } b =
        (redoPass g cfg q pop t l { s with found := s.found.insertNew nb.refId nb } b).map (fun x => (catState r x.1, x.2)) := by
      intro nb
      rw [found_ren hr]
      exact redoPass_ren l { s with found := s.found.insertNew nb.refId nb } b
    split
    · cases s.valid.events.find? nb.refId with
      | none => rfl
      | some ev =>
        simp only [Option.map_some]
        rw [select_ren hr hg pop ht]
        cases selectNeighbours g cfg s.valid ev s.valid pop t with
        | throws => rfl
        | ub => rfl
        | ok nb' =>
          simp only [Outcome.map, nb_amount, nb_ref]
          by_cases hq : nb'.amount < q
          · rw [if_pos hq, if_pos hq, cat_removeEvent hr]
            exact redoPass_ren l { s with removed := nb'.refId :: s.removed, valid := s.valid.removeEvent nb'.refId } true
          · rw [if_neg hq, if_neg hq]
            exact hf nb'
    · exact hf nb

variable {order order' : AMap Nat Neighbours → List (Nat × Neighbours)} (ho : ∀ m, order' (cluster r m) = cluster r (order m))
include ho

theorem redoLoop_ren : ∀ (n : Nat) (s : CatState K),
    redoLoop g cfg q pop t' order' n (catState r s) = (redoLoop g cfg q pop t order n s).map (cluster r)
  | 0, _ => rfl
  | n + 1, s => by
    rw [redoLoop, redoLoop]
    have := redoPass_ren hr hg (cfg := cfg) (q := q) (pop := pop) ht (order s.found) { s with found := [] } false
    rw [show ({ catState r s with found := [] } : CatState K) = catState r { s with found := [] } from rfl,
      show (catState r s).found = cluster r s.found from rfl, ho, this]
    cases redoPass g cfg q pop t (order s.found) { s with found := [] } false with
    | throws => rfl
    | ub => rfl
    | ok y =>
      obtain ⟨s', b⟩ := y
      cases b with
      | true => exact redoLoop_ren n s'
      | false => rfl

theorem selectCatalog_ren (cat : Catalog K) :
    selectCatalog g cfg q pop t' order' (catalog r cat) = (selectCatalog g cfg q pop t order cat).map (cluster r) := by
  unfold selectCatalog
  rw [cat_sorted hr]
  have := firstPass_ren hr hg (cfg := cfg) (q := q) (pop := pop) ht cat.eventsSorted ⟨cat, [], []⟩
  rw [show catState r (⟨cat, [], []⟩ : CatState K) = ⟨catalog r cat, [], []⟩ from rfl] at this
  rw [this]
  cases firstPass g cfg q pop t cat.eventsSorted ⟨cat, [], []⟩ with
  | throws => rfl
  | ub => rfl
  | ok s =>
    have hl : (catState r s).found.length = s.found.length := by
      unfold catState cluster; exact List.length_map _
    simp only [Outcome.map, hl]
    exact redoLoop_ren hr hg ht ho _ s
end

/-! ## the clusters -/

section
open Verif.Clusters
variable (hr : StrictMono r) {pick pick' : Pick} (hp : ∀ l, l ≠ [] → pick'.first (l.map r) = r (pick.first l))

/-- the clusters the events are in, with other numbers -/
def idMap (r : Nat → Nat) (m : AMap Nat Nat) : AMap Nat Nat := m.map (fun kv => (r kv.1, kv.2))

/-- the clusters found, with other numbers -/
def groups (r : Nat → Nat) (m : AMap Nat (List Neighbours)) : AMap Nat (List Neighbours) :=
  m.map (fun kv => (kv.1, kv.2.map (neighbours r)))

/-- the variables of the traversal, with other numbers -/
def walkSt (r : Nat → Nat) (w : Walk) : Walk :=
  ⟨cluster r w.todo, w.frontier.map r, w.pairs.map (fun p => (r p.1, r p.2)), w.cluster.map (neighbours r), w.connected⟩

include hr

theorem insertId_ren (l : List Nat) (i : Nat) : insertId (l.map r) (r i) = (insertId l i).map r := by
  unfold insertId
  simp only [List.mem_map_of_injective hr.injective]
  split
  · rfl
  · simp

theorem insertIds_ren (is : List Nat) : ∀ l : List Nat, (is.map r).foldl insertId (l.map r) = (is.foldl insertId l).map r := by
  induction is with
  | nil => exact fun _ => rfl
  | cons i is ih => intro l; rw [List.map_cons, List.foldl_cons, List.foldl_cons, insertId_ren hr, ih]

theorem idMap_find (m : AMap Nat Nat) (k : Nat) : (idMap r m).find? (r k) = m.find? k := by
  have := find?_mapBoth hr.injective (fun v : Nat => v) k m
  rw [Option.map_id'] at this
  exact this

theorem noteCluster_ren (m : AMap Nat Nat) (k : Nat) (l : List Nat) : noteCluster (idMap r m) (r k) l = noteCluster m k l := by
  unfold noteCluster
  rw [idMap_find hr]

theorem nb_remove (nb : Neighbours) (k : Nat) : (neighbours r nb).remove (r k) = neighbours r (nb.remove k) :=
  (Neighbours.mk.injEq ..).mpr ⟨rfl, erase_mapBoth hr.injective (fun v : List StaPhase => v) k nb.nbs⟩

theorem dropSeen_ren (ps : List (Nat × Nat)) (nb : Neighbours) :
    dropSeen (ps.map (fun p => (r p.1, r p.2))) (neighbours r nb) = neighbours r (dropSeen ps nb) := by
  unfold dropSeen
  have hf : (ps.map (fun p => (r p.1, r p.2))).filter (fun p => decide (p.1 = (neighbours r nb).refId)) =
      (ps.filter (fun p => decide (p.1 = nb.refId))).map (fun p => (r p.1, r p.2)) := by
    rw [List.filter_map]
    congr 1
    refine List.filter_congr (fun p _ => ?_)
    simp only [Function.comp_apply, nb_ref, hr.injective.eq_iff]
  rw [hf]
  generalize ps.filter (fun p => decide (p.1 = nb.refId)) = l
  clear hf
  induction l generalizing nb with
  | nil => rfl
  | cons p l ih => rw [List.map_cons, List.foldl_cons, List.foldl_cons, nb_remove hr, ih]

theorem cluster_find (m : AMap Nat Neighbours) (k : Nat) : AMap.find? (cluster r m) (r k) = (m.find? k).map (neighbours r) :=
  find?_mapBoth hr.injective (neighbours r) k m

include hp

theorem walkStep_ren (m : AMap Nat Nat) (w : Walk) (hw : w.frontier ≠ []) :
    walkStep pick' (idMap r m) (walkSt r w) = walkSt r (walkStep pick m w) := by
  unfold walkStep
  have h1 : pick'.first (walkSt r w).frontier = r (pick.first w.frontier) := hp _ hw
  have h2 : (walkSt r w).todo = cluster r w.todo := rfl
  have h3 : ((walkSt r w).frontier.filter (fun i => decide (i ≠ r (pick.first w.frontier)))) =
      (w.frontier.filter (fun i => decide (i ≠ pick.first w.frontier))).map r := by
    show (w.frontier.map r).filter _ = _
    rw [List.filter_map]
    congr 1
    refine List.filter_congr (fun p _ => ?_)
    simp only [Function.comp_apply, ne_eq, hr.injective.eq_iff]
  simp only [h1, h2, h3, cluster_find hr, noteCluster_ren hr]
  cases w.todo.find? (pick.first w.frontier) with
  | none => rfl
  | some n =>
    simp only [Option.map_some]
    have h4 : dropSeen (walkSt r w).pairs (neighbours r n) = neighbours r (dropSeen w.pairs n) := dropSeen_ren hr _ _
    simp only [h4, nb_ids, insertIds_ren hr, nb_ref]
    refine (Walk.mk.injEq ..).mpr ⟨erase_mapBoth hr.injective (neighbours r) n.refId w.todo, rfl, ?_, ?_, rfl⟩
    · simp [walkSt, List.map_append, List.map_map, Function.comp_def]
    · simp [walkSt]

theorem walk_ren (m : AMap Nat Nat) : ∀ (n : Nat) (w : Walk),
    walk pick' (idMap r m) n (walkSt r w) = (walk pick m n w).map (walkSt r)
  | 0, w => by
    unfold walk
    have : ((walkSt r w).frontier = []) = (w.frontier = []) := by simp [walkSt]
    simp only [this]
    split <;> rfl
  | n + 1, w => by
    unfold walk
    have : ((walkSt r w).frontier = []) = (w.frontier = []) := by simp [walkSt]
    simp only [this]
    split
    · rfl
    · rename_i h
      rw [walkStep_ren hr hp m w h]
      exact walk_ren m n _

omit hr hp in
theorem groups_find (m : AMap Nat (List Neighbours)) (k : Nat) : (groups r m).find? k = (m.find? k).map (List.map (neighbours r)) :=
  find?_mapBoth (r := fun k : Nat => k) (fun _ _ h => h) (List.map (neighbours r)) k m

omit hr hp in
theorem merge_ren : ∀ (ks : List Nat) (cur : List Neighbours) (m : AMap Nat (List Neighbours)),
    merge ks (cur.map (neighbours r)) (groups r m) = (merge ks cur m).map (fun x => (x.1.map (neighbours r), groups r x.2))
  | [], _, _ => rfl
  | k :: ks, cur, m => by
    rw [merge, merge, groups_find]
    cases m.find? k with
    | none => rfl
    | some c =>
      simp only [Option.map_some]
      rw [← List.map_append]
      have he : AMap.erase (groups r m) k = groups r (m.erase k) :=
        erase_mapBoth (r := fun k : Nat => k) (fun _ _ h => h) (List.map (neighbours r)) k m
      rw [he]
      exact merge_ren ks _ _

/-- the variables of the search for clusters, with other numbers -/
def searchSt (r : Nat → Nat) (s : State) : State := ⟨cluster r s.todo, groups r s.clusters, idMap r s.clusterId⟩

omit hr hp in
theorem budget_ren (m : AMap Nat Neighbours) : budget (cluster r m) = budget m := by
  unfold budget cluster
  rw [List.map_map]
  congr 3
  funext kv
  simp [nb_ids]

theorem traverse_ren (s : State) (hs : s.todo ≠ []) : Clusters.traverse pick' (searchSt r s) = (Clusters.traverse pick s).map (searchSt r) := by
  unfold Clusters.traverse
  have h1 : (searchSt r s).todo = cluster r s.todo := rfl
  have h2 : AMap.keys (cluster r s.todo) = s.todo.keys.map r := by
    unfold cluster AMap.keys
    rw [List.map_map, List.map_map]; rfl
  have h3 : s.todo.keys ≠ [] := fun h => hs (List.map_eq_nil_iff.1 h)
  have hw := walk_ren hr hp s.clusterId (budget s.todo) ⟨s.todo, [pick.first s.todo.keys], [], [], []⟩
  simp only [h1, h2, hp _ h3, budget_ren]
  rw [show (searchSt r s).clusterId = idMap r s.clusterId from rfl, show (searchSt r s).clusters = groups r s.clusters from rfl]
  rw [show walkSt r ⟨s.todo, [pick.first s.todo.keys], [], [], []⟩ = ⟨cluster r s.todo, [r (pick.first s.todo.keys)], [], [], []⟩ from rfl] at hw
  rw [hw]
  cases walk pick s.clusterId (budget s.todo) ⟨s.todo, [pick.first s.todo.keys], [], [], []⟩ with
  | throws => rfl
  | ub => rfl
  | ok w =>
    simp only [Outcome.map]
    rw [show (walkSt r w).connected = w.connected from rfl, show (walkSt r w).cluster = w.cluster.map (neighbours r) from rfl, merge_ren]
    cases merge w.connected w.cluster s.clusters with
    | throws => rfl
    | ub => rfl
    | ok y =>
      obtain ⟨cur, cl⟩ := y
      simp only [Outcome.map, Outcome.ok.injEq]
      have hn : newId (groups r cl) = newId cl := by
        unfold newId groups AMap.keys
        rw [List.map_map]; rfl
      rw [hn]
      refine (State.mk.injEq ..).mpr ⟨rfl,
        insertNew_mapBoth (r := fun k : Nat => k) (fun _ _ h => h) (List.map (neighbours r)) _ cur cl, ?_⟩
      generalize newId cl = id
      generalize s.clusterId = ids
      induction cur generalizing ids with
      | nil => rfl
      | cons n cur ih =>
        rw [List.map_cons, List.foldl_cons, List.foldl_cons, nb_ref]
        have : AMap.set (idMap r ids) (r n.refId) id = idMap r (ids.set n.refId id) :=
          set_mapBoth hr.injective (fun v : Nat => v) n.refId id ids
        rw [this]
        exact ih _

theorem outer_ren : ∀ (n : Nat) (s : State), outer pick' n (searchSt r s) = (outer pick n s).map (searchSt r)
  | 0, s => by
    unfold outer
    have : ((searchSt r s).todo = []) = (s.todo = []) := by simp [searchSt, cluster]
    simp only [this]
    split <;> rfl
  | n + 1, s => by
    unfold outer
    have : ((searchSt r s).todo = []) = (s.todo = []) := by simp [searchSt, cluster]
    simp only [this]
    split
    · rfl
    · rename_i h
      rw [traverse_ren hr hp s h]
      cases Clusters.traverse pick s with
      | throws => rfl
      | ub => rfl
      | ok s' => exact outer_ren n s'

omit hp in
theorem toMap_ren (l : List Neighbours) : toMap (l.map (neighbours r)) = cluster r (toMap l) := by
  unfold toMap
  have : ∀ (l : List Neighbours) (m : AMap Nat Neighbours),
      (l.map (neighbours r)).foldl (fun (m : AMap Nat Neighbours) n => m.insertNew n.refId n) (cluster r m) =
        cluster r (l.foldl (fun (m : AMap Nat Neighbours) n => m.insertNew n.refId n) m) := by
    intro l
    induction l with
    | nil => exact fun _ => rfl
    | cons n l ih => intro m; rw [List.map_cons, List.foldl_cons, List.foldl_cons, nb_ref, found_ren hr, ih]
  exact this l []

theorem clusterize_ren (m : AMap Nat Neighbours) :
    clusterize pick' (cluster r m) = (clusterize pick m).map (List.map (cluster r)) := by
  unfold clusterize
  have hl : List.length (cluster r m) = List.length m := List.length_map _
  rw [hl, show (⟨cluster r m, [], []⟩ : State) = searchSt r ⟨m, [], []⟩ from rfl, outer_ren hr hp]
  cases outer pick (List.length m) ⟨m, [], []⟩ with
  | throws => rfl
  | ub => rfl
  | ok s =>
    simp only [Outcome.map, Outcome.ok.injEq]
    have : List.insertionSort (fun a b : Nat × List Neighbours => a.1 ≤ b.1) (searchSt r s).clusters =
        (List.insertionSort (fun a b => a.1 ≤ b.1) s.clusters).map (fun kv => (kv.1, kv.2.map (neighbours r))) :=
      (List.map_insertionSort _ _ (fun kv : Nat × List Neighbours => (kv.1, kv.2.map (neighbours r))) s.clusters
        (fun _ _ _ _ => Iff.rfl)).symm
    rw [this, List.map_map, List.map_map]
    refine List.map_congr_left (fun kv _ => ?_)
    exact toMap_ren hr kv.2
end

end Verif.Renumber
