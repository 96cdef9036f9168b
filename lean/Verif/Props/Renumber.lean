import Verif.Proofs.Renumber
import Verif.Props.XCorrBuild
import Verif.Props.RelocateTotal
import Mathlib.Data.Finset.Max
import Mathlib.Data.Finset.Card

/-!
# C135: the numbers of the events do not matter
-/

set_option linter.unusedSectionVars false
set_option linter.unusedSimpArgs false

namespace Verif.Renumber
open Verif.Catalog Verif.Relocate

section
variable {K : Type} [Field K] [LinearOrder K] {r q : Nat → Nat}

/-- **C135a** If the events get other numbers, in the same order, the relocation of a cluster does the same: the same calls, the same
restored events, the same answers of the solver, and the same events and phases returned, with the new numbers. If it fails it fails also
with the new numbers. -/
theorem relocation_renumbered (hr : StrictMono r) {a : Args K} (hE : TravelTimesIgnore r a.env) (hS : SolverIgnores r a.sol)
    (cat : Catalog K) :
    relocate { a with xc := cache r a.xc, cluster := cluster r a.cluster } (catalog r cat) = (relocate a cat).map (result r) :=
  relocate_ren hr hE hS cat

/-- **C135b** The same for the relocation of a catalog cluster by cluster, with the cross-correlation of the picks. -/
theorem multi_renumbered (hr : StrictMono r) {m : MultiArgs K} (hE : TravelTimesIgnore r m.env) (hx : XcorrIgnores r m.x)
    (hS : ∀ i, SolverIgnores r (m.sol i)) (bg : Catalog K) (clusters : List Cluster) (xc : XCorr.Cache) :
    relocateMultiEvents m (catalog r bg) (clusters.map (cluster r)) (cache r xc) =
      (relocateMultiEvents m bg clusters xc).map (multi r) := multi_ren hr hE hx hS bg clusters xc
end

/-! ## the solver of the code -/

theorem doubleDifference_told {s s' : Solver ℝ} {r : Nat → Nat} (h : Told r s s') (x : Nat × Obs ℝ) :
    s'.doubleDifference x = (s.doubleDifference x).map (fun d => { d with evId1 := r d.evId1, evId2 := r d.evId2 }) := by
  have hf : ∀ i, (conv r s.evConv).fromIdx i = (s.evConv.fromIdx i).map r := by
    intro i
    unfold IdToIndex.fromIdx
    rw [show (conv r s.evConv).frm = s.evConv.frm.map (fun kv => (kv.1, r kv.2)) from rfl, TimeShift.find?_mapVal]
    cases s.evConv.frm.find? i <;> rfl
  unfold Solver.doubleDifference
  rw [h.eq]
  simp only [hf]
  cases s.phStaConv.fromIdx x.2.ph with
  | throws => rfl
  | ub => rfl
  | ok ps =>
    simp only [Outcome.bind_ok]
    cases splitFirst '@' ps with
    | none => rfl
    | some y =>
      simp only []
      cases s.evConv.fromIdx x.2.ev1 with
      | throws => rfl
      | ub => rfl
      | ok e1 =>
        simp only [Outcome.map, Outcome.bind_ok]
        cases s.evConv.fromIdx x.2.ev2 <;> rfl

theorem doubleDifferences_told {s s' : Solver ℝ} {r : Nat → Nat} (h : Told r s s') (io : List (Nat × Obs ℝ)) :
    s'.getDoubleDifferences io =
      (s.getDoubleDifferences io).map (List.map (fun d => { d with evId1 := r d.evId1, evId2 := r d.evId2 })) := by
  unfold Solver.getDoubleDifferences
  induction io with
  | nil => rfl
  | cons x io ih =>
    rw [List.mapM_cons, List.mapM_cons, ih, doubleDifference_told h]
    cases s.doubleDifference x with
    | throws => rfl
    | ub => rfl
    | ok d =>
      simp only [Outcome.map, Outcome.bind_ok]
      cases io.mapM s.doubleDifference <;> rfl

theorem prepared_told (hr : StrictMono r) (su : SolverSetup) (ops : List (SolverOp ℝ)) (absLoc down : ℝ) :
    su.prepared (ops.map (op r)) absLoc down = su.prepared ops absLoc down := by
  have h := (told hr ops).eq
  unfold SolverSetup.prepared
  rw [h]
  have hs : (conv r (Solver.run ops).evConv).size = (Solver.run ops).evConv.size := by
    unfold IdToIndex.size conv; simp
  unfold Solver.prepare
  simp only [hs]
  rfl

theorem conv_none {r : Nat → Nat} (m : IdToIndex Nat) {k : Nat} (h : Function.partialInv r k = none) : (conv r m).fwd.find? k = none := by
  rw [AMap.find?_eq_none]
  intro hk
  unfold conv AMap.keys at hk
  simp only [List.map_map, List.mem_map, Function.comp_apply] at hk
  obtain ⟨x, -, hx⟩ := hk
  unfold Function.partialInv at h
  rw [dif_pos ⟨x.1, hx⟩] at h
  cases h

theorem partialInv_some {r : Nat → Nat} {k i : Nat} (h : Function.partialInv r k = some i) : r i = k := by
  unfold Function.partialInv at h
  split at h
  · rename_i hex
    rw [← Option.some.inj h]
    exact Classical.choose_spec hex
  · cases h

theorem answerOf_told {r : Nat → Nat} (hr : StrictMono r) {s s' : Solver ℝ} (h : Told r s s') (p : Solver.Prepared ℝ) (m : Nat → ℝ) :
    answerOf s' p m = (answerOf s p m).map (answer r) := by
  unfold answerOf
  simp only []
  split
  · rfl
  · rw [Option.map_some]
    refine congrArg some ?_
    unfold answer
    refine (Answer.mk.injEq ..).mpr ⟨?_, ?_⟩
    · funext k
      unfold changesOf Solver.getEventChanges
      rw [h.eq]
      simp only []
      cases hk : Function.partialInv r k with
      | none => rw [conv_none _ hk]; rfl
      | some i => rw [← partialInv_some hk, conv_find hr]; rfl
    · funext k sta ph
      unfold Solver.isEventPhaseUsed
      rw [h.eq]
      simp only []
      cases hk : Function.partialInv r k with
      | none => rw [conv_none _ hk]; rfl
      | some i => rw [← partialInv_some hk, conv_find hr]; rfl

/-- **C135c** The solver of the code gives the same answers for the new numbers, and none for numbers it was not told. -/
theorem solver_ignores_numbers {r : Nat → Nat} (hr : StrictMono r) (su : SolverSetup) (so : SolverOptions ℝ)
    (hodd : ∀ it ops, su.odd it (ops.map (op r)) = (su.odd it ops).map (answer r)) :
    SolverIgnores r (realSolver su so) := by
  have ho : ∀ ops : List (SolverOp ℝ), (Solver.run (ops.map (op r))).observations = (Solver.run ops).observations := by
    intro ops; rw [(told hr ops).eq]
  constructor
  · intro it ops absLoc down
    show (do
      let _ ← su.prepared (ops.map (op r)) absLoc down
      if it = 0 ∨ it = so.algoIterations then do
        let _ ← (Solver.run (ops.map (op r))).getDoubleDifferences (su.visitObs (Solver.run (ops.map (op r))).observations)
        Outcome.ok ()
      else Outcome.ok ()) = (do
      let _ ← su.prepared ops absLoc down
      if it = 0 ∨ it = so.algoIterations then do
        let _ ← (Solver.run ops).getDoubleDifferences (su.visitObs (Solver.run ops).observations)
        Outcome.ok ()
      else Outcome.ok ())
    rw [prepared_told hr, ho, doubleDifferences_told (told hr ops)]
    cases (Solver.run ops).getDoubleDifferences (su.visitObs (Solver.run ops).observations) <;> rfl
  · intro it ops damping
    have h : ∀ p, su.solved it (ops.map (op r)) p damping = (su.solved it ops p damping).map (answer r) := by
      intro p
      unfold SolverSetup.solved
      rw [ho, hodd]
      split
      · rfl
      · cases su.method with
        | none => rfl
        | some method =>
          simp only []
          split
          · rfl
          · cases LeastSquares.solveDD method p.dd su.iterations damping su.normalize with
            | ok y => exact answerOf_told hr (told hr ops) p y.2
            | throws => rfl
            | ub => rfl
    show (match su.prepared (ops.map (op r)) _ _ with
      | .ok (some p) => su.solved it (ops.map (op r)) p damping | .ok none => su.odd it (ops.map (op r)) | _ => none) =
      (match su.prepared ops _ _ with
      | .ok (some p) => su.solved it ops p damping | .ok none => su.odd it ops | _ => none).map (answer r)
    rw [prepared_told hr, hodd]
    simp only [h]
    generalize su.prepared ops _ _ = y
    match y with
    | .ok (some p) => rfl
    | .ok none => rfl
    | .throws => rfl
    | .ub => rfl

/-- **C135d** Together: multi-event relocation with the solver of the code. -/
theorem catalog_renumbered {r : Nat → Nat} (hr : StrictMono r) {m : MultiArgs ℝ} {su : SolverSetup} (hsol : ∀ i, m.sol i = realSolver su m.so)
    (hodd : ∀ it ops, su.odd it (ops.map (op r)) = (su.odd it ops).map (answer r))
    (hE : TravelTimesIgnore r m.env) (hx : XcorrIgnores r m.x) (bg : Catalog ℝ) (clusters : List Cluster) (xc : XCorr.Cache) :
    relocateMultiEvents m (catalog r bg) (clusters.map (cluster r)) (cache r xc) =
      (relocateMultiEvents m bg clusters xc).map (multi r) :=
  multi_ren hr hE hx (fun i => by rw [hsol]; exact solver_ignores_numbers hr su m.so hodd) bg clusters xc

/-! ## any two numberings with the same order -/

section
variable {K : Type} {S : Finset Nat}

theorem catalog_twice (f g h : Nat → Nat) (c : Catalog K) (hc : CatalogIn S c) (hf : ∀ s ∈ S, f (g s) = h s) :
    catalog f (catalog g c) = catalog h c := by
  unfold catalog
  simp only [List.map_map]
  refine (Catalog.mk.injEq ..).mpr ⟨rfl, List.map_congr_left (fun kv hkv => ?_), List.map_congr_left (fun kp hkp => ?_)⟩
  · simp only [Function.comp_apply, event, hf _ (hc.1 kv hkv).1, hf _ (hc.1 kv hkv).2]
  · simp only [Function.comp_apply, phase, hf _ (hc.2 kp hkp).1, hf _ (hc.2 kp hkp).2]

theorem catalog_id (c : Catalog K) : catalog id c = c := by
  unfold catalog event phase
  simp

theorem cluster_twice (f g h : Nat → Nat) (cl : Cluster) (hc : ClusterIn S cl) (hf : ∀ s ∈ S, f (g s) = h s) :
    cluster f (cluster g cl) = cluster h cl := by
  unfold cluster
  rw [List.map_map]
  refine List.map_congr_left (fun kv hkv => ?_)
  obtain ⟨h1, h2, h3⟩ := hc kv hkv
  simp only [Function.comp_apply, neighbours, hf _ h1, hf _ h2, List.map_map]
  refine Prod.ext rfl ((Neighbours.mk.injEq ..).mpr ⟨rfl, List.map_congr_left (fun n hn => ?_)⟩)
  simp only [Function.comp_apply, hf _ (h3 n hn)]

theorem cluster_id (cl : Cluster) : cluster id cl = cl := by
  unfold cluster neighbours
  simp

theorem cache_twice (f g h : Nat → Nat) (c : XCorr.Cache) (hc : CacheIn S c) (hf : ∀ s ∈ S, f (g s) = h s) :
    cache f (cache g c) = cache h c := by
  unfold cache
  rw [List.map_map]
  refine List.map_congr_left (fun e1 h1 => ?_)
  obtain ⟨k1, k2⟩ := hc e1 h1
  simp only [Function.comp_apply, hf _ k1, List.map_map]
  refine Prod.ext rfl (List.map_congr_left (fun sta h2 => ?_))
  simp only [Function.comp_apply, List.map_map]
  refine Prod.ext rfl (List.map_congr_left (fun ph h3 => ?_))
  simp only [Function.comp_apply, List.map_map]
  refine Prod.ext rfl (List.map_congr_left (fun e2 h4 => ?_))
  simp only [Function.comp_apply, hf _ (k2 sta h2 ph h3 e2 h4)]

theorem cache_id (c : XCorr.Cache) : cache id c = c := by
  unfold cache
  simp

/-- the position of a number among those of a finite set -/
def rank (S : Finset Nat) (n : Nat) : Nat := (S.filter (· < n)).card

/-- a strictly increasing numbering whose values on the positions are given by a function that keeps the order of `S` -/
theorem exists_numbering (S : Finset Nat) (q : Nat → Nat) (hq : StrictMonoOn q S) :
    ∃ f : Nat → Nat, StrictMono f ∧ ∀ s ∈ S, f (rank S s) = q s := by
  induction S using Finset.induction_on_max with
  | empty => exact ⟨id, strictMono_id, by simp⟩
  | insert a S ha ih =>
    have haS : a ∉ S := fun h => lt_irrefl _ (ha a h)
    obtain ⟨f, hf, hs⟩ := ih (hq.mono (by simp))
    have hrank : ∀ s ∈ S, rank (insert a S) s = rank S s := by
      intro s hsS
      unfold rank
      rw [Finset.filter_insert, if_neg (not_lt.2 (ha s hsS).le)]
    have hra : rank (insert a S) a = S.card := by
      unfold rank
      rw [Finset.filter_insert, if_neg (lt_irrefl a), Finset.filter_true_of_mem (fun x hx => ha x hx)]
    have hlt : ∀ s ∈ S, rank S s < S.card := by
      intro s hsS
      refine Finset.card_lt_card ?_
      rw [Finset.ssubset_iff_of_subset (Finset.filter_subset _ _)]
      exact ⟨s, hsS, by simp⟩
    have hsurj : ∀ n < S.card, ∃ s ∈ S, rank S s = n := by
      intro n hn
      have hmaps : Set.MapsTo (rank S) S (Finset.range S.card) := fun s hsS => by
        have := hlt s hsS
        simpa using this
      have hinj : Set.InjOn (rank S) S := by
        intro x hx y hy h
        rcases lt_trichotomy x y with hxy | hxy | hxy
        · exact absurd (hf (show rank S x < rank S y from by
            refine Finset.card_lt_card ?_
            rw [Finset.ssubset_iff_of_subset (fun z hz => by
              rw [Finset.mem_filter] at hz ⊢; exact ⟨hz.1, hz.2.trans hxy⟩)]
            exact ⟨x, by rw [Finset.mem_filter]; exact ⟨hx, hxy⟩, by simp⟩)) (by rw [h]; exact lt_irrefl _)
        · exact hxy
        · exact absurd (hf (show rank S y < rank S x from by
            refine Finset.card_lt_card ?_
            rw [Finset.ssubset_iff_of_subset (fun z hz => by
              rw [Finset.mem_filter] at hz ⊢; exact ⟨hz.1, hz.2.trans hxy⟩)]
            exact ⟨y, by rw [Finset.mem_filter]; exact ⟨hy, hxy⟩, by simp⟩)) (by rw [h]; exact lt_irrefl _)
      have := Finset.surjOn_of_injOn_of_card_le (rank S) hmaps hinj (by simp)
      obtain ⟨s, hsS, he⟩ := this (show n ∈ (Finset.range S.card : Set Nat) by simpa using hn)
      exact ⟨s, hsS, he⟩
    refine ⟨fun n => if n < S.card then f n else q a + (n - S.card), ?_, ?_⟩
    · intro x y hxy
      simp only []
      by_cases hx : x < S.card
      · by_cases hy : y < S.card
        · rw [if_pos hx, if_pos hy]; exact hf hxy
        · rw [if_pos hx, if_neg hy]
          obtain ⟨s, hsS, rfl⟩ := hsurj x hx
          rw [hs s hsS]
          exact lt_of_lt_of_le (hq (by simp [hsS]) (by simp) (ha s hsS)) (Nat.le_add_right _ _)
      · rw [if_neg hx, if_neg (by omega)]
        omega
    · intro s hsm
      rcases Finset.mem_insert.1 hsm with rfl | hsS
      · simp only [hra, if_neg (lt_irrefl _), Nat.sub_self, Nat.add_zero]
      · simp only [hrank s hsS, if_pos (hlt s hsS), hs s hsS]
end

/-- **C135e** Any two numberings with the same order, for instance one with smaller numbers or without gaps: the two relocations give one
and the same result, numbered in the two ways (`f` and `g` are the two numberings of the events by their position). -/
theorem same_order_same_relocation {K : Type} [Field K] [LinearOrder K] {S : Finset Nat} {q : Nat → Nat} (hq : StrictMonoOn q S)
    {m : MultiArgs K} (hE : ∀ r, StrictMono r → TravelTimesIgnore r m.env) (hx : ∀ r, StrictMono r → XcorrIgnores r m.x)
    (hS : ∀ r, StrictMono r → ∀ i, SolverIgnores r (m.sol i)) {bg : Catalog K} {clusters : List Cluster} {xc : XCorr.Cache}
    (hb : CatalogIn S bg) (hcl : ∀ cl ∈ clusters, ClusterIn S cl) (hxc : CacheIn S xc) :
    ∃ f g : Nat → Nat, StrictMono f ∧ StrictMono g ∧ (∀ s ∈ S, f (rank S s) = s ∧ g (rank S s) = q s) ∧
      ∃ o : Outcome (MultiState K), relocateMultiEvents m bg clusters xc = o.map (multi f) ∧
        relocateMultiEvents m (catalog q bg) (clusters.map (cluster q)) (cache q xc) = o.map (multi g) := by
  obtain ⟨f, hf, hfs⟩ := exists_numbering S id (strictMono_id.strictMonoOn _)
  obtain ⟨g, hg, hgs⟩ := exists_numbering S q hq
  refine ⟨f, g, hf, hg, fun s h => ⟨hfs s h, hgs s h⟩,
    relocateMultiEvents m (catalog (rank S) bg) (clusters.map (cluster (rank S))) (cache (rank S) xc), ?_, ?_⟩
  · rw [← multi_ren hf (hE f hf) (hx f hf) (hS f hf), catalog_twice f (rank S) id bg hb hfs, catalog_id,
      cache_twice f (rank S) id xc hxc hfs, cache_id, List.map_map]
    congr 1
    refine ((List.map_congr_left (fun cl h => ?_)).trans (List.map_id _)).symm
    rw [Function.comp_apply, cluster_twice f (rank S) id cl (hcl cl h) hfs, cluster_id]
    rfl
  · rw [← multi_ren hg (hE g hg) (hx g hg) (hS g hg), catalog_twice g (rank S) q bg hb hgs,
      cache_twice g (rank S) q xc hxc hgs, List.map_map]
    congr 1
    refine List.map_congr_left (fun cl h => ?_)
    rw [Function.comp_apply, cluster_twice g (rank S) q cl (hcl cl h) hgs]

/-! ## Concrete cases -/

namespace Example
open Relocate.Example

/-- the new number of an event -/
def tens (n : Nat) : Nat := 10 * n + 3

theorem tens_mono : StrictMono tens := fun a b h => by unfold tens; omega

/-- the hypotheses hold for the relocation with the real solver of `RealExample` -/
example (xc : XCorr.Cache) (clusters : List Cluster) :
    relocateMultiEvents RealExample.args (catalog tens RealExample.bg) (clusters.map (cluster tens)) (cache tens xc) =
      (relocateMultiEvents RealExample.args RealExample.bg clusters xc).map (multi tens) :=
  catalog_renumbered tens_mono (su := RealExample.setup) (fun _ => rfl) (fun _ _ => rfl) (fun _ _ _ => rfl)
    ⟨fun _ _ => rfl, fun _ _ => rfl, fun _ _ _ _ _ => rfl⟩ _ _ _

/-- whether a solver was told where an event is -/
def toldOf (ops : List (SolverOp ℚ)) (k : Nat) : Bool :=
  ops.any (fun | .event id _ _ _ => decide (id = k) | _ => false)

/-- a solver that moves all events it was told about by a degree and a second -/
def mover : SolverAnswers ℚ :=
  { prepare := fun _ _ _ _ => .ok ()
    solve := fun _ ops _ => some ⟨fun k => if toldOf ops k then some ⟨0, 1, 0, 1⟩ else none, fun k _ _ => toldOf ops k⟩ }

theorem toldOf_ren {r : Nat → Nat} (hr : StrictMono r) (ops : List (SolverOp ℚ)) (k : Nat) :
    toldOf (ops.map (op r)) (r k) = toldOf ops k := by
  unfold toldOf
  rw [List.any_map]
  congr 1
  funext o
  cases o <;> simp [op, hr.injective.eq_iff]

theorem toldOf_none {r : Nat → Nat} (ops : List (SolverOp ℚ)) {k : Nat} (h : Function.partialInv r k = none) :
    toldOf (ops.map (op r)) k = false := by
  unfold toldOf
  rw [List.any_map, List.any_eq_false]
  intro o _
  cases o with
  | event id a b c =>
    simp only [Function.comp_apply, op, decide_eq_true_eq]
    intro he
    unfold Function.partialInv at h
    rw [dif_pos ⟨id, he⟩] at h
    cases h
  | station _ _ _ _ => simp [op]
  | obs _ => simp [op]
  | params _ => simp [op]

theorem mover_ignores {r : Nat → Nat} (hr : StrictMono r) : SolverIgnores r mover := by
  refine ⟨fun _ _ _ _ => rfl, fun it ops d => ?_⟩
  simp only [mover, Option.map_some, answer]
  refine congrArg some ((Answer.mk.injEq ..).mpr ⟨?_, ?_⟩)
  · funext k
    cases hk : Function.partialInv r k with
    | none => rw [toldOf_none ops hk]; rfl
    | some i => rw [← partialInv_some hk, toldOf_ren hr]; rfl
  · funext k _ _
    cases hk : Function.partialInv r k with
    | none => rw [toldOf_none ops hk]; rfl
    | some i => rw [← partialInv_some hk, toldOf_ren hr]; rfl

def margs' : MultiArgs ℚ := { margs with sol := fun _ => mover }

theorem env_ignores (r : Nat → Nat) : TravelTimesIgnore r env := fun _ _ _ => rfl

theorem xargs_ignores (r : Nat → Nat) : XcorrIgnores r xargs := ⟨fun _ _ => rfl, fun _ _ => rfl, fun _ _ _ _ _ => rfl⟩

/-- the numbers 1, 2, 3, 4 of two clusters and the numbers 0, 4, 9, 11 instead: not all larger, but in the same order -/
example : ∃ f g : Nat → Nat, StrictMono f ∧ StrictMono g ∧
    (∀ s ∈ ({1, 2, 3, 4} : Finset Nat), f (rank {1, 2, 3, 4} s) = s ∧ g (rank {1, 2, 3, 4} s) = [0, 0, 4, 9, 11].getD s 0) ∧
    ∃ o : Outcome (MultiState ℚ), relocateMultiEvents margs' cat4 clusters4 known = o.map (multi f) ∧
      relocateMultiEvents margs' (catalog (fun n => [0, 0, 4, 9, 11].getD n 0) cat4)
        (clusters4.map (cluster (fun n => [0, 0, 4, 9, 11].getD n 0))) (cache (fun n => [0, 0, 4, 9, 11].getD n 0) known) =
          o.map (multi g) := by
  refine same_order_same_relocation (S := {1, 2, 3, 4}) (q := fun n => [0, 0, 4, 9, 11].getD n 0) ?_ (fun r _ => env_ignores r)
    (fun r _ => xargs_ignores r) (fun r hr _ => mover_ignores hr) ?_ ?_ ?_
  · have : ∀ a ∈ ({1, 2, 3, 4} : Finset Nat), ∀ b ∈ ({1, 2, 3, 4} : Finset Nat), a < b →
        [0, 0, 4, 9, 11].getD a 0 < [0, 0, 4, 9, 11].getD b 0 := by decide
    exact fun a ha b hb h => this a (by simpa using ha) b (by simpa using hb) h
  · exact ⟨by decide +kernel, by decide +kernel⟩
  · unfold ClusterIn; decide +kernel
  · unfold CacheIn; decide +kernel

/-- what is returned for the new numbers: the four events, moved by a degree and a second -/
example : Relocate.Example.multi (relocateMultiEvents margs' (catalog tens cat4) (clusters4.map (cluster tens)) (cache tens known)) =
    some ⟨[⟨43, 41, 41000000, true⟩, ⟨33, 41, 31000000, true⟩, ⟨23, 47, 21000000, true⟩, ⟨13, 47, 11000000, true⟩], [(13, 23)], none, none⟩ := by
  decide +kernel

end Example

end Verif.Renumber
