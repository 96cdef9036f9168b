import Verif.Proofs.TimeShift
import Verif.Props.RelocateEvent
import Verif.Props.XCorrBuild

/-!
# C117: only travel times matter, not when the events happened
-/

set_option linter.unusedSectionVars false
set_option linter.unusedSimpArgs false

namespace Verif.TimeShift
open Verif.Catalog Verif.Relocate Verif.Selection

variable {K : Type} [Field K] [LinearOrder K]

/-- **C117a** The index of the events and the neighbours selected for a catalog do not depend on when the events happened. -/
theorem selection_ignores_times {g : Geometry K} (hg : TimeFreeGeometry g) (cfg : Config K) (minNumNeigh : Nat) (pop : KdTree.Pop K)
    (nth : (pt : Nat → Pt K) → (axis : Nat) → NthElement (fun i => KdTree.coord axis (pt i)))
    (order : AMap Nat Neighbours → List (Nat × Neighbours)) (δ : Nat → Int) (cat : Catalog K) :
    createEventTree nth (later δ cat) = createEventTree nth cat ∧
    selectCatalog g cfg minNumNeigh pop (createEventTree nth (later δ cat)) order (later δ cat) =
      selectCatalog g cfg minNumNeigh pop (createEventTree nth cat) order cat :=
  ⟨tree_later δ nth cat, by rw [tree_later, selectCatalog_later δ hg]⟩

/-- **C117b** If every event and its picks happen later by an amount of the event's own, the relocation does the same: the
same calls of the solver in every iteration, the same answers, the same events restored, the same events returned with the
same coordinates, residuals and weights, each later by its amount. -/
theorem relocation_ignores_times {a : Args K} (hf : TimeFree a.env) (δ : Nat → Int) (cat : Catalog K) :
    relocate a (later δ cat) = (relocate a cat).map (laterResult δ) := relocate_later δ hf cat

/-- **C117c** The same for the relocation of a catalog cluster by cluster, with the cross-correlation of the picks. -/
theorem multi_ignores_times {m : MultiArgs K} (hf : TimeFree m.env) (hx : TimeFreeXcorr m.x) (δ : Nat → Int) (bg : Catalog K)
    (clusters : List Cluster) (xc : XCorr.Cache) :
    relocateMultiEvents m (later δ bg) clusters xc = (relocateMultiEvents m bg clusters xc).map (laterMulti δ) :=
  multi_later δ hf hx bg clusters xc

/-- **C117d** The same for single-event relocation, where the event to relocate is later by another amount than the events of
the background catalog: the same neighbours are selected, the same is done, and the event is returned later by its amount.
`n` is the number the event gets. -/
theorem single_event_ignores_times [IsStrictOrderedRing K] {u : SingleEvent.Setup K} {bg single : Catalog K} {isManual : Bool}
    (hf : TimeFree u.solve.env) (hgeo : TimeFreeGeometry u.geo)
    (hx : ∀ (δ : Nat → Int) (c : Catalog K) (cl : Cluster), u.solve.xcorr (later δ c) cl = u.solve.xcorr c cl)
    (hb : bg.Sound) (he : single.Sound) (ht : u.tree.WF) (hg : ∀ e, u.geo.Nonneg bg e u.tree)
    (hroom : bg.events.find? (uintMod - 1) = none) {k : Nat} {e : Event K} (hfirst : single.eventsSorted.head? = some (k, e))
    (δ ε : Nat → Int) :
    ∃ n, SingleEvent.relocateEvent u (later δ bg) (later ε single) isManual =
        (SingleEvent.relocateEvent u bg single isManual).map (laterResult (withEvent δ n (ε e.id))) ∧
      ∀ r log x, SingleEvent.relocateEvent u bg single isManual = .ok (r, log) → log[0]? = some x →
        x.before.events.find? n = some { e with id := n } := by
  cases hs : single.eventsSorted with
  | nil => rw [hs] at hfirst; cases hfirst
  | cons kv rest =>
    rw [hs] at hfirst
    simp only [List.head?_cons, Option.some.injEq] at hfirst
    subst hfirst
    have hfind : single.events.find? k = some e :=
      (Catalog.eventsSorted_facts he.toWF).2.1 (k, e) (by rw [hs]; exact List.mem_cons_self ..)
    have hid : e.id = k := (he.eventKey _ _ hfind).1
    have hev : (SingleEvent.prepare u single isManual).eventsSorted = (k, e) :: rest := hs
    have hps : (SingleEvent.prepare u single isManual).Sound := SingleEvent.prepare_sound he isManual
    have hprep : SingleEvent.prepare u (later ε single) isManual = later ε (SingleEvent.prepare u single isManual) :=
      fill_later ε he.toWF _ _ _ _
    unfold SingleEvent.relocateEvent
    rw [hprep, later_sorted, hev]
    simp only [List.map_cons, le_id]
    rw [select_later δ hgeo ε]
    cases hsel : selectNeighbours u.geo u.cfg bg e (SingleEvent.prepare u single isManual) u.pop u.tree with
    | throws => exact ⟨0, rfl, fun _ _ _ h => by cases h⟩
    | ub => exact ⟨0, rfl, fun _ _ _ h => by cases h⟩
    | ok nb =>
      simp only []
      obtain ⟨-, c2, -, c4⟩ := neighbours_meet_constraints_partial u.pop u.tree ht
        (fun id e he => (hb.eventKey id e he).1) (hg e) nb hsel
      have hin : ∀ i ∈ nb.ids, (bg.events.find? i).isSome = true := by
        intro i hi
        obtain ⟨phs, hphs⟩ := Option.isSome_iff_exists.1 (AMap.find?_isSome.2 hi)
        obtain ⟨p, event, -, -, h3⟩ := c4 i phs hphs
        rw [h3.inCatalog]; rfl
      have hnoroom : uintMod - 1 ∉ nb.ids := by
        intro hc
        have := hin _ hc
        rw [hroom] at this; cases this
      have hlt : ∀ i ∈ nb.ids, (bg.events.find? i).isSome = true ∧ i + 1 < uintMod := by
        intro i hi
        refine ⟨hin i hi, ?_⟩
        obtain ⟨ev, hev⟩ := Option.isSome_iff_exists.1 (hin i hi)
        have h1 := (hb.eventKey _ _ hev).2
        have h2 : i ≠ uintMod - 1 := fun hc => hnoroom (hc ▸ hi)
        omega
      obtain ⟨n, -, h2, h3⟩ := singleEventCatalog_later δ hb c2 hlt hps.toWF e.id ε
      refine ⟨n, ?_, ?_⟩
      · unfold relocateSingleEvent
        rw [h2]
        split
        · split <;> rfl
        · cases hsc : singleEventCatalog bg (SingleEvent.prepare u single isManual) e.id nb with
          | throws => rfl
          | ub => rfl
          | ok y =>
            obtain ⟨c, m⟩ := y
            simp only [Outcome.map, Outcome.bind_ok, hx]
            cases u.solve.xcorr c [(m, { nb with refId := m })] with
            | throws => rfl
            | ub => rfl
            | ok xc =>
              exact relocate_later (withEvent δ n (ε e.id)) (a := u.solve.toArgs xc nb m) hf c
      · intro r log x hr hlog
        unfold relocateSingleEvent at hr
        split at hr
        · split at hr
          · cases hr; cases hlog
          · cases hr
        · rw [Outcome.bind_eq_ok] at hr
          obtain ⟨⟨c, m⟩, hsc, hr⟩ := hr
          simp only at hr
          rw [Outcome.bind_eq_ok] at hr
          obtain ⟨xc, -, hr⟩ := hr
          have hm := h3 c m hsc
          subst hm
          obtain ⟨e', g1, -, -, g4, -⟩ := singleEventCatalog_spec hb hps c2 hin hnoroom hsc
          have he' : e' = e := by
            rw [hid] at g1
            have : (SingleEvent.prepare u single isManual).events.find? k = single.events.find? k := rfl
            rw [this, hfind] at g1
            cases g1; rfl
          have hrun := (relocate_run hr).1
          have hb' : x.before = c := by
            cases hrun with
            | last _ hi _ _ => cases hlog; exact hi.before
            | step hi _ _ _ => cases hlog; exact hi.before
          rw [hb', g4, if_pos rfl, he']

/-! ## Concrete cases -/

namespace Example
open Relocate.Example

/-- event 1 happens an hour later, event 2 a day later -/
def amounts : Nat → Int := fun i => if i = 1 then 3600000000 else 86400000000

theorem timeFree : TimeFree env := fun _ _ _ _ => rfl

theorem timeFreeGeometry : TimeFreeGeometry Selection.Example.geo := fun _ _ _ => rfl

/-- the relocation of `Verif.Relocate.Example` an hour later: the same moves, the event returned an hour later -/
example : ∃ r log, relocate args (later amounts cat) = .ok (r, log) ∧
    seen r = [⟨1, 47, 3611000000, true⟩] ∧
    doneIn log = [⟨[], 1, true⟩, ⟨[], 3, true⟩, ⟨[1], 5, false⟩] := check_true (by decide +kernel)

/-- single-event relocation with the event a day later and the background catalog as it is -/
example : ∃ r log, SingleEvent.relocateEvent SingleEvent.Example.setup cat (later (fun _ => 86400000000) (SingleEvent.Example.given 7))
    true = .ok (r, log) ∧ seen r = [⟨3, 48, 86432000000, true⟩] := by
  obtain ⟨r, log, h, hs, -⟩ := SingleEvent.Example.relocated
  obtain ⟨n, h1, h2⟩ := single_event_ignores_times (u := SingleEvent.Example.setup) (bg := cat)
    (single := SingleEvent.Example.given 7) (isManual := true) timeFree timeFreeGeometry (fun _ _ _ => rfl) cat_sound
    SingleEvent.Example.given_sound SingleEvent.Example.treeWF SingleEvent.Example.nonneg (by decide +kernel)
    (k := 7) (e := { ev 0 30000000 46 with id := 7 }) rfl (fun _ => 0) (fun _ => 86400000000)
  obtain ⟨r', log', h', hs', -⟩ := check_true (x := SingleEvent.relocateEvent SingleEvent.Example.setup cat
    (later (fun _ => 86400000000) (SingleEvent.Example.given 7)) true) (evs := [⟨3, 48, 86432000000, true⟩])
    (its := [⟨[], 1, true⟩, ⟨[], 3, true⟩, ⟨[], 5, false⟩]) (by decide +kernel)
  exact ⟨r', log', h', hs'⟩

theorem timeFreeXcorr : TimeFreeXcorr xargs := ⟨fun _ _ _ => rfl, fun _ _ _ _ => rfl, fun _ _ _ _ _ _ _ => rfl⟩

/-- two clusters relocated later: the same correlation, the same moves, event 3 returned a day later and event 1 an hour later -/
example : multi (relocateMultiEvents margs (later amounts cat4) clusters4 known) =
    some ⟨[⟨3, 41, 86431000000, true⟩, ⟨1, 47, 3611000000, true⟩], [(1, 2)], some ⟨true, 3/4, -1⟩, some ⟨true, 9/10, -1/5⟩⟩ := by
  decide +kernel

end Example
end Verif.TimeShift
