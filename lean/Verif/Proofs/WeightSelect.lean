import Verif.Proofs.WeightRelocate
import Verif.Model.SingleEvent

/-! Helper lemmas for C136: the selection of neighbours does not look at weights. -/

set_option linter.unusedSectionVars false
set_option linter.unusedSimpArgs false

namespace Verif.Weights
open Verif.Catalog Verif.Relocate

variable {c : ℝ} {κ : ℝ → ℝ} (g : Selection.Geometry ℝ) (cfg : Selection.Config ℝ)

theorem matchPhase_w (cat refCat : Catalog ℝ) (refEv event : Event ℝ) (d : ℝ) (p : Phase ℝ) :
    Selection.matchPhase g cfg (catalog c κ cat) refEv (catalog c κ refCat) event d (phase c κ p) =
      Selection.matchPhase g cfg cat refEv refCat event d p := by
  have hs : Selection.searchPhase (catalog c κ refCat) refEv.id (p.stationId, p.type) =
      (Selection.searchPhase refCat refEv.id (p.stationId, p.type)).map (phase c κ) := w_searchPhase refCat refEv.id _
  unfold Selection.matchPhase
  rw [w_stations, show (phase c κ p).stationId = p.stationId from rfl, show (phase c κ p).type = p.type from rfl,
    show (phase c κ p).procType = p.procType from rfl, hs]
  cases cat.stations.find? p.stationId with
  | none => rfl
  | some st =>
    cases Selection.searchPhase refCat refEv.id (p.stationId, p.type) <;> rfl

theorem matchPhases_w (cat refCat : Catalog ℝ) (refEv event : Event ℝ) (d : ℝ) : ∀ (l : List (Phase ℝ)) (acc : List (ℝ × StaPhase)),
    Selection.matchPhases g cfg (catalog c κ cat) refEv (catalog c κ refCat) event d (l.map (phase c κ)) acc =
      Selection.matchPhases g cfg cat refEv refCat event d l acc
  | [], _ => rfl
  | p :: l, acc => by
    rw [List.map_cons, Selection.matchPhases, Selection.matchPhases, matchPhase_w]
    cases Selection.matchPhase g cfg cat refEv refCat event d p with
    | throws => rfl
    | ub => rfl
    | ok x =>
      cases x with
      | none => exact matchPhases_w cat refCat refEv event d l acc
      | some x => exact matchPhases_w cat refCat refEv event d l _

theorem addNeighbour_w (cat refCat : Catalog ℝ) (refEv : Event ℝ) :
    Selection.addNeighbour g cfg (catalog c κ cat) refEv (catalog c κ refCat) = Selection.addNeighbour g cfg cat refEv refCat := by
  funext nb id d
  unfold Selection.addNeighbour
  rw [w_events]
  split
  · rfl
  · cases cat.events.find? id with
    | none => rfl
    | some ev => simp only [w_phasesOf, matchPhases_w]

section
variable {g cfg} {c1 c2 r1 r2 : Catalog ℝ} {e : Event ℝ} (h : Selection.addNeighbour g cfg c1 e r1 = Selection.addNeighbour g cfg c2 e r2)
include h

theorem nearestVisit_of (t : Selection.EventTree ℝ) : Selection.nearestVisit g cfg c1 e r1 t = Selection.nearestVisit g cfg c2 e r2 t := by
  funext s i d
  unfold Selection.nearestVisit
  rw [h]

theorem scanCell_of (t : Selection.EventTree ℝ) (cell : (ℝ × ℝ) × Nat) : ∀ (l : List (ℝ × Nat)) (nb : Neighbours),
    Selection.scanCell g cfg c1 e r1 t cell l nb = Selection.scanCell g cfg c2 e r2 t cell l nb
  | [], nb => rfl
  | (d, i) :: l, nb => by
    rw [Selection.scanCell, Selection.scanCell, h, scanCell_of t cell l nb]
    split
    · cases Selection.addNeighbour g cfg c2 e r2 nb (t.data i) d with
      | throws => rfl
      | ub => rfl
      | ok x =>
        obtain ⟨nb', b⟩ := x
        cases b with
        | true => rfl
        | false => simp only [scanCell_of t cell l nb']
    · rfl

theorem sweep_of (t : Selection.EventTree ℝ) : ∀ (cs : List ((ℝ × ℝ) × Nat)) (pts : List (ℝ × Nat)) (nb : Neighbours) (m : Bool),
    Selection.sweep g cfg c1 e r1 t cs pts nb m = Selection.sweep g cfg c2 e r2 t cs pts nb m
  | [], _, _, _ => rfl
  | cell :: cs, pts, nb, m => by
    rw [Selection.sweep, Selection.sweep, scanCell_of h]
    cases Selection.scanCell g cfg c2 e r2 t cell pts nb with
    | throws => rfl
    | ub => rfl
    | ok x => simp only [sweep_of t cs]

theorem rounds_of (t : Selection.EventTree ℝ) (cs : List ((ℝ × ℝ) × Nat)) : ∀ (fuel : Nat) (pts : List (ℝ × Nat)) (nb : Neighbours),
    Selection.rounds g cfg c1 e r1 t cs fuel pts nb = Selection.rounds g cfg c2 e r2 t cs fuel pts nb
  | 0, _, _ => rfl
  | fuel + 1, pts, nb => by
    rw [Selection.rounds, Selection.rounds, sweep_of h]
    simp only [rounds_of t cs fuel]

theorem selectNeighbours_of (pop : KdTree.Pop ℝ) (t : Selection.EventTree ℝ) :
    Selection.selectNeighbours g cfg c1 e r1 pop t = Selection.selectNeighbours g cfg c2 e r2 pop t := by
  unfold Selection.selectNeighbours Selection.nearest Selection.ellipsoids
  simp only [nearestVisit_of h, rounds_of h]
end

theorem selectNeighbours_w (cat refCat : Catalog ℝ) (refEv : Event ℝ) (pop : KdTree.Pop ℝ) (t : Selection.EventTree ℝ) :
    Selection.selectNeighbours g cfg (catalog c κ cat) refEv (catalog c κ refCat) pop t =
      Selection.selectNeighbours g cfg cat refEv refCat pop t := selectNeighbours_of (addNeighbour_w g cfg cat refCat refEv) pop t

/-- the variables of the selection, with other weights -/
def catState (c : ℝ) (κ : ℝ → ℝ) (s : Selection.CatState ℝ) : Selection.CatState ℝ := { s with valid := catalog c κ s.valid }

variable (minNumNeigh : Nat) (pop : KdTree.Pop ℝ) (t : Selection.EventTree ℝ)

theorem firstPass_w : ∀ (l : List (Nat × Event ℝ)) (s : Selection.CatState ℝ),
    Selection.firstPass g cfg minNumNeigh pop t l (catState c κ s) =
      (Selection.firstPass g cfg minNumNeigh pop t l s).map (catState c κ)
  | [], _ => rfl
  | (_, e) :: l, s => by
    rw [Selection.firstPass, Selection.firstPass, show (catState c κ s).valid = catalog c κ s.valid from rfl, selectNeighbours_w]
    cases Selection.selectNeighbours g cfg s.valid e s.valid pop t with
    | throws => rfl
    | ub => rfl
    | ok nb =>
      simp only []
      split
      · exact firstPass_w l { s with found := s.found.insertNew nb.refId nb }
      · rw [w_removeEvent]
        exact firstPass_w l { s with removed := e.id :: s.removed, valid := s.valid.removeEvent e.id }

theorem redoPass_w : ∀ (l : List (Nat × Neighbours)) (s : Selection.CatState ℝ) (b : Bool),
    Selection.redoPass g cfg minNumNeigh pop t l (catState c κ s) b =
      (Selection.redoPass g cfg minNumNeigh pop t l s b).map (fun x => (catState c κ x.1, x.2))
  | [], _, _ => rfl
  | (_, nb) :: l, s, b => by
    rw [Selection.redoPass, Selection.redoPass, show (catState c κ s).valid = catalog c κ s.valid from rfl,
      show (catState c κ s).removed = s.removed from rfl, w_events]
    split
    · cases s.valid.events.find? nb.refId with
      | none => rfl
      | some e =>
        simp only [selectNeighbours_w]
        cases Selection.selectNeighbours g cfg s.valid e s.valid pop t with
        | throws => rfl
        | ub => rfl
        | ok nb' =>
          simp only []
          split
          · rw [w_removeEvent]
            exact redoPass_w l { s with removed := nb'.refId :: s.removed, valid := s.valid.removeEvent nb'.refId } true
          · exact redoPass_w l { s with found := s.found.insertNew nb'.refId nb' } b
    · exact redoPass_w l { s with found := s.found.insertNew nb.refId nb } b

theorem redoLoop_w (order : AMap Nat Neighbours → List (Nat × Neighbours)) : ∀ (fuel : Nat) (s : Selection.CatState ℝ),
    Selection.redoLoop g cfg minNumNeigh pop t order fuel (catState c κ s) = Selection.redoLoop g cfg minNumNeigh pop t order fuel s
  | 0, _ => rfl
  | fuel + 1, s => by
    rw [Selection.redoLoop, Selection.redoLoop,
      show ({ catState c κ s with found := [] } : Selection.CatState ℝ) = catState c κ { s with found := [] } from rfl, redoPass_w,
      show (catState c κ s).found = s.found from rfl]
    cases Selection.redoPass g cfg minNumNeigh pop t (order s.found) { s with found := [] } false with
    | throws => rfl
    | ub => rfl
    | ok x =>
      obtain ⟨s', b⟩ := x
      cases b with
      | true => exact redoLoop_w order fuel s'
      | false => rfl

theorem selectCatalog_w (order : AMap Nat Neighbours → List (Nat × Neighbours)) (cat : Catalog ℝ) :
    Selection.selectCatalog g cfg minNumNeigh pop t order (catalog c κ cat) = Selection.selectCatalog g cfg minNumNeigh pop t order cat := by
  unfold Selection.selectCatalog
  rw [show (catalog c κ cat).eventsSorted = cat.eventsSorted from rfl,
    show (⟨catalog c κ cat, [], []⟩ : Selection.CatState ℝ) = catState c κ ⟨cat, [], []⟩ from rfl, firstPass_w]
  cases Selection.firstPass g cfg minNumNeigh pop t cat.eventsSorted ⟨cat, [], []⟩ with
  | throws => rfl
  | ub => rfl
  | ok s => exact redoLoop_w g cfg minNumNeigh pop t order _ s

theorem fill_w {cat : Catalog ℝ} (src : Source) (vp vs : List String) (w : ℝ → ℝ → ℝ) (h0 : ∀ kp ∈ cat.phases, kp.2.weight = 0) :
    cat.fillProcessingInfo src vp vs (fun p => c * w p.lowerUncertainty p.upperUncertainty) =
      catalog c (fun x => c * x) (cat.fillProcessingInfo src vp vs (fun p => w p.lowerUncertainty p.upperUncertainty)) := by
  unfold Catalog.fillProcessingInfo catalog
  have : ∀ l : List (Nat × Event ℝ), (l.flatMap fun kv => (cat.phasesOf kv.2.id).map fun p =>
        let p' := { p with classWeight := c * w p.lowerUncertainty p.upperUncertainty, source := src, procType := Catalog.classify vp vs p.type }
        (p'.eventId, p')) =
      (l.flatMap fun kv => (cat.phasesOf kv.2.id).map fun p =>
        let p' := { p with classWeight := w p.lowerUncertainty p.upperUncertainty, source := src, procType := Catalog.classify vp vs p.type }
        (p'.eventId, p')).map (fun kp => (kp.1, phase c (fun x => c * x) kp.2)) := by
    intro l
    rw [List.map_flatMap]
    congr 1
    funext kv
    rw [List.map_map]
    refine List.map_congr_left (fun p hp => ?_)
    have := h0 _ (Catalog.mem_phasesOf.1 hp)
    simp only [Function.comp_apply, phase]
    simp only at this
    rw [this, mul_zero, ← this]
  simp only [this]

end Verif.Weights
