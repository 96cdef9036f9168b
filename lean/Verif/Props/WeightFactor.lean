import Verif.Proofs.WeightRelocate
import Verif.Proofs.WeightSelect
import Verif.Props.RelocateTotal

/-!
# C136: only the ratio of the weights matters
-/

set_option linter.unusedSectionVars false
set_option linter.unusedSimpArgs false

namespace Verif.Weights
open Verif.Catalog Verif.Relocate Verif.LeastSquares

variable {c : ℝ} {κ : ℝ → ℝ}

/-- **C136a** The double-difference system with all weights multiplied by a factor: LSMR with normalisation takes the same steps, stops
for the same reason after the same number of steps and gives the same solution, for every damping factor. -/
theorem system_factor (hc : 0 < c) (dd : DDSystem ℝ) (iterations : Nat) (damping : ℝ) :
    solveDD .lsmr { dd with W := fun r => c * dd.W r } iterations damping true = solveDD .lsmr dd iterations damping true :=
  solveDD_weighted hc dd iterations damping

/-- **C136b** The solver of the code, LSMR with normalisation: if all observations weigh `c` times as much, it fails or not and answers
as before. With down-weighting by residuals, travel-time constraints and all options. -/
theorem solver_ignores_factor (hc : 0 < c) {su : SolverSetup} (so : SolverOptions ℝ) (hm : su.method = some .lsmr)
    (hn : su.normalize = true) (hv : VisitsAlike c su) (hodd : ∀ it ops, su.odd it (ops.map (call c)) = su.odd it ops) :
    SolverIgnores c (realSolver su so) := Solver.realSolver_ignores hc so hm hn hv hodd

/-- **C136c** The relocation of a cluster when every pick weighs `c` times as much: the same events, with the same places, times and
residuals, are returned, and the phases differ only in their weights, which are multiplied. It fails or not as before. -/
theorem relocation_factor (hc : 0 < c) {a : Args ℝ} {u' : Bool} (h : Multiplied c κ a.o.usePickUncertainties u')
    (hS : SolverIgnores c a.sol) (cat : Catalog ℝ) :
    relocate { a with o := { a.o with usePickUncertainties := u' } } (catalog c κ cat) = (relocate a cat).map (result c κ) :=
  relocate_w (u := a.o.usePickUncertainties) hc h hS cat

/-- **C136d** The relocation of a catalog cluster by cluster, with the solver of the code, when every pick weighs `c` times as much. -/
theorem catalog_factor (hc : 0 < c) {m : MultiArgs ℝ} {su : SolverSetup} (hsol : ∀ i, m.sol i = realSolver su m.so)
    (hm : su.method = some .lsmr) (hn : su.normalize = true) (hv : VisitsAlike c su)
    (hodd : ∀ it ops, su.odd it (ops.map (call c)) = su.odd it ops) (hx : XcorrIgnores c κ m.x) {u' : Bool}
    (h : Multiplied c κ m.usePickUncertainties u') (bg : Catalog ℝ) (clusters : List Cluster) (xc : XCorr.Cache) :
    relocateMultiEvents { m with usePickUncertainties := u' } (catalog c κ bg) clusters xc =
      (relocateMultiEvents m bg clusters xc).map (multi c κ) :=
  multi_w hc h hx (fun i => by rw [hsol]; exact solver_ignores_factor hc m.so hm hn hv hodd) bg clusters xc

theorem catalog_same {w : ℝ} {bg : Catalog ℝ} (hb : ∀ kp ∈ bg.phases, kp.2.classWeight = w ∧ kp.2.weight = 0) :
    catalog w (fun _ => w) bg = bg := by
  unfold catalog
  have : bg.phases.map (fun kp => (kp.1, phase w (fun _ => w) kp.2)) = bg.phases := by
    refine (List.map_congr_left (fun kp hkp => ?_)).trans (List.map_id _)
    obtain ⟨h1, h2⟩ := hb kp hkp
    show (kp.1, ({ kp.2 with classWeight := w, weight := w * kp.2.weight } : Phase ℝ)) = kp
    rw [h2, mul_zero, ← h1, ← h2]
  rw [this]

/-- **C136e** If all picks of a catalog not yet relocated have the same class weight `w > 0`, using pick uncertainties changes nothing:
with and without them the relocation fails or not alike, the same correlations are asked for, and the relocated events are the same. -/
theorem uniform_uncertainties {w : ℝ} (hw : 0 < w) {m : MultiArgs ℝ} {su : SolverSetup} (hsol : ∀ i, m.sol i = realSolver su m.so)
    (hm : su.method = some .lsmr) (hn : su.normalize = true) (hv : VisitsAlike w su)
    (hodd : ∀ it ops, su.odd it (ops.map (call w)) = su.odd it ops) (hx : XcorrIgnores w (fun _ => w) m.x) {bg : Catalog ℝ}
    (hb : ∀ kp ∈ bg.phases, kp.2.classWeight = w ∧ kp.2.weight = 0) (clusters : List Cluster) (xc : XCorr.Cache) :
    relocateMultiEvents { m with usePickUncertainties := true } bg clusters xc =
      (relocateMultiEvents { m with usePickUncertainties := false } bg clusters xc).map (multi w (fun _ => w)) ∧
    (relocateMultiEvents { m with usePickUncertainties := true } bg clusters xc).map (fun s => (s.reloc.events, s.xcorrData, s.done.map (·.1))) =
      (relocateMultiEvents { m with usePickUncertainties := false } bg clusters xc).map
        (fun s => (s.reloc.events, s.xcorrData, s.done.map (·.1))) := by
  have h := catalog_factor (m := { m with usePickUncertainties := false }) (su := su) (u' := true) hw hsol hm hn hv hodd hx
    (fun x => by simp [pickWeight]) bg clusters xc
  rw [catalog_same hb] at h
  refine ⟨h, ?_⟩
  rw [show relocateMultiEvents { m with usePickUncertainties := true } bg clusters xc = _ from h]
  cases relocateMultiEvents { m with usePickUncertainties := false } bg clusters xc with
  | ok s => simp [Outcome.map, multi]
  | throws => rfl
  | ub => rfl

/-- **C136f** Single-event relocation, from the selected neighbours on, with the solver of the code, when every pick weighs `c` times as
much: it is refused, fails or gives the same event, with the same place, time and residuals. -/
theorem single_factor (hc : 0 < c) {s : SingleArgs ℝ} {su : SolverSetup} (hsol : s.sol = realSolver su s.so)
    (hm : su.method = some .lsmr) (hn : su.normalize = true) (hv : VisitsAlike c su)
    (hodd : ∀ it ops, su.odd it (ops.map (call c)) = su.odd it ops)
    (hx : ∀ cat cl, s.xcorr (catalog c κ cat) cl = s.xcorr cat cl) {u' : Bool}
    (h : Multiplied c κ s.usePickUncertainties u') (bg evCat : Catalog ℝ) (evId : Nat) (nb : Neighbours) :
    relocateSingleEvent { s with usePickUncertainties := u' } (catalog c κ bg) (catalog c κ evCat) evId nb =
      (relocateSingleEvent s bg evCat evId nb).map (result c κ) := by
  have hS : SolverIgnores c s.sol := by rw [hsol]; exact solver_ignores_factor hc s.so hm hn hv hodd
  unfold relocateSingleEvent
  by_cases h1 : nb.amount < s.minNumNeigh
  · rw [if_pos h1, if_pos h1]
    split <;> rfl
  · rw [if_neg h1, if_neg h1, singleEventCatalog_w]
    cases singleEventCatalog bg evCat evId nb with
    | throws => rfl
    | ub => rfl
    | ok x =>
      obtain ⟨cat, newId⟩ := x
      simp only [Outcome.map, Outcome.bind_ok, hx]
      cases s.xcorr cat [(newId, { nb with refId := newId })] with
      | throws => rfl
      | ub => rfl
      | ok xc => exact relocate_w (a := s.toArgs xc nb newId) hc h hS cat

/-- **C136g** The neighbours of an event, and the neighbours of all events of a catalog, do not depend on the weights of the picks. -/
theorem neighbours_ignore_weights (g : Selection.Geometry ℝ) (cfg : Selection.Config ℝ) (pop : KdTree.Pop ℝ)
    (t : Selection.EventTree ℝ) (c : ℝ) (κ : ℝ → ℝ) :
    (∀ cat refCat refEv, Selection.selectNeighbours g cfg (catalog c κ cat) refEv (catalog c κ refCat) pop t =
      Selection.selectNeighbours g cfg cat refEv refCat pop t) ∧
    (∀ minNumNeigh order cat, Selection.selectCatalog g cfg minNumNeigh pop t order (catalog c κ cat) =
      Selection.selectCatalog g cfg minNumNeigh pop t order cat) :=
  ⟨fun cat refCat refEv => selectNeighbours_w g cfg cat refCat refEv pop t,
    fun minNumNeigh order cat => selectCatalog_w g cfg minNumNeigh pop t order cat⟩

/-- **C136h** Single-event relocation as a whole, from the event given by the caller, with picks not weighted by an earlier relocation,
to the catalog returned: if the weight of every uncertainty is multiplied by `c`, and so are the weights of the background catalog, the
same neighbours are selected, and it is refused, fails or gives the same event with the same place, time and residuals. -/
theorem event_factor (hc : 0 < c) {u : SingleEvent.Setup ℝ} {su : SolverSetup} (hsol : u.solve.sol = realSolver su u.solve.so)
    (hm : su.method = some .lsmr) (hn : su.normalize = true) (hv : VisitsAlike c su)
    (hodd : ∀ it ops, su.odd it (ops.map (call c)) = su.odd it ops)
    (hx : ∀ cat cl, u.solve.xcorr (catalog c (fun x => c * x) cat) cl = u.solve.xcorr cat cl)
    (hu : u.solve.usePickUncertainties = true) (bg : Catalog ℝ) {single : Catalog ℝ} (h0 : ∀ kp ∈ single.phases, kp.2.weight = 0)
    (isManual : Bool) :
    SingleEvent.relocateEvent { u with pickWeight := fun lower upper => c * u.pickWeight lower upper } (catalog c (fun x => c * x) bg)
        single isManual =
      (SingleEvent.relocateEvent u bg single isManual).map (result c (fun x => c * x)) := by
  have hp : SingleEvent.prepare { u with pickWeight := fun lower upper => c * u.pickWeight lower upper } single isManual =
      catalog c (fun x => c * x) (SingleEvent.prepare u single isManual) := fill_w _ _ _ u.pickWeight h0
  unfold SingleEvent.relocateEvent
  rw [hp, show (catalog c (fun x => c * x) (SingleEvent.prepare u single isManual)).eventsSorted =
    (SingleEvent.prepare u single isManual).eventsSorted from rfl]
  cases (SingleEvent.prepare u single isManual).eventsSorted with
  | nil => rfl
  | cons kv l =>
    simp only [selectNeighbours_w]
    cases Selection.selectNeighbours u.geo u.cfg bg kv.2 (SingleEvent.prepare u single isManual) u.pop u.tree with
    | throws => rfl
    | ub => rfl
    | ok nb =>
      have h := single_factor (u' := true) (κ := fun x => c * x) hc hsol hm hn hv hodd hx (fun x => by simp [pickWeight, hu]) bg
        (SingleEvent.prepare u single isManual) kv.2.id nb
      rw [show ({ u.solve with usePickUncertainties := true } : SingleArgs ℝ) = u.solve by rw [← hu]] at h
      exact h

/-! ## Concrete cases -/

namespace Example

/-- a system of one event pair, with weights doubled -/
example (n : Nat) (damping : ℝ) :
    solveDD .lsmr { LeastSquares.Example.system with W := fun r => 2 * LeastSquares.Example.system.W r } n damping true =
      solveDD .lsmr LeastSquares.Example.system n damping true := system_factor (by norm_num) _ _ _

theorem setup_alike (c : ℝ) : VisitsAlike c RealExample.setup := fun _ => rfl

/-- the relocation of two events with the real solver, all class weights halved -/
example (clusters : List Cluster) (xc : XCorr.Cache) :
    relocateMultiEvents RealExample.args (catalog (1 / 2) (fun x => 1 / 2 * x) RealExample.bg) clusters xc =
      (relocateMultiEvents RealExample.args RealExample.bg clusters xc).map (multi (1 / 2) (fun x => 1 / 2 * x)) :=
  catalog_factor (m := RealExample.args) (su := RealExample.setup) (u' := true) (by norm_num) (fun _ => rfl) rfl rfl (setup_alike _)
    (fun _ _ => rfl) (fun _ _ _ _ _ => rfl) (fun x => by simp [pickWeight, RealExample.args]) _ _ _

/-- the single-event relocation of the second event of that catalog -/
example (nb : Neighbours) :=
  single_factor (c := 1 / 2) (κ := fun x => 1 / 2 * x) (su := RealExample.setup) (u' := true) (by norm_num)
    (s := ⟨RealExample.env, RealExample.options, true, 2, fun _ => some (1 / 2), fun _ _ => .ok [], realSolver RealExample.setup RealExample.options, 1⟩)
    rfl rfl rfl (setup_alike _) (fun _ _ => rfl) (fun _ _ => rfl) (fun x => by simp [pickWeight]) RealExample.bg RealExample.bg 2 nb

/-- the relocation of the event next to the two of that catalog, from the caller to the result, all weights doubled -/
example (pop : KdTree.Pop ℝ) :=
  event_factor (c := 2) (u := RealExample.single pop) (su := RealExample.setup) (by norm_num) rfl rfl rfl (setup_alike _)
    (fun _ _ => rfl) (fun _ _ => rfl) rfl RealExample.bg (single := RealExample.given) (by
      intro kp hkp
      have h3 : RealExample.given.phases = [(7, RealExample.pickOf 7 33000000)] := rfl
      rw [h3, List.mem_singleton] at hkp
      rw [hkp]; rfl) true

/-- the neighbours in that catalog, all weights doubled -/
example (pop : KdTree.Pop ℝ) := (neighbours_ignore_weights RealExample.geo RealExample.cfg pop RealExample.tree 2 (fun x => 2 * x)).2 1
  (fun m => m) RealExample.bg

/-- the same catalog with picks of the class weight 3/10 -/
noncomputable def uncertain : Catalog ℝ := RealExample.raw.fillProcessingInfo .catalog ["Pg"] ["Sg"] (fun _ => 3 / 10)

theorem uncertain_uniform : ∀ kp ∈ uncertain.phases, kp.2.classWeight = 3 / 10 ∧ kp.2.weight = 0 := by
  intro kp hkp
  obtain ⟨kv, -, h⟩ := List.mem_flatMap.1 hkp
  obtain ⟨p, hp, rfl⟩ := List.mem_map.1 h
  refine ⟨rfl, ?_⟩
  have h2 : (kv.2.id, p) ∈ RealExample.raw.phases := Catalog.mem_phasesOf.1 hp
  have h3 : RealExample.raw.phases = [(1, RealExample.pickOf 1 15000000), (2, RealExample.pickOf 2 23000000)] := rfl
  rw [h3] at h2
  simp only [List.mem_cons, List.not_mem_nil, or_false, Prod.mk.injEq] at h2
  rcases h2 with ⟨-, rfl⟩ | ⟨-, rfl⟩ <;> rfl

/-- with and without pick uncertainties the events of this catalog end up at the same place -/
example (clusters : List Cluster) (xc : XCorr.Cache) :=
  uniform_uncertainties (m := RealExample.args) (su := RealExample.setup) (w := 3 / 10) (by norm_num) (fun _ => rfl) rfl rfl
    (setup_alike _) (fun _ _ => rfl) (fun _ _ _ _ _ => rfl) uncertain_uniform clusters xc

end Example

end Verif.Weights
