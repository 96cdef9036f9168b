import Verif.Proofs.SingleEvent
import Verif.Proofs.Daemon

/-!
# Single-event relocation from the given event to the result (C50, C98)
-/

set_option linter.unusedSectionVars false
set_option linter.unusedSimpArgs false

namespace Verif.SingleEvent
open Verif.Catalog Verif.Selection

variable {K : Type} [Field K] [LinearOrder K]

/-- **C50 (the whole call).** Relocating one event: the first event of the given catalog is relocated, with neighbours that
are different events of the background catalog and meet the constraints of C28.  With fewer than the configured number
nothing is returned and no iteration is run.  Otherwise the event gets a number that no neighbour has, no neighbour ever
changes, only the event has free parameters, and only the event can be returned, with its own picks.
(Partial: numbers below 2³²-1, as in C11; the part on what is returned needs neighbours without marks.) -/
theorem single_event_call_partial [IsStrictOrderedRing K] {u : Setup K} {bg single r : Catalog K} {isManual : Bool}
    {log : List (Relocate.IterLog K)}
    (hb : bg.Sound) (hbn : Relocate.NoAt bg) (he : single.Sound) (hen : Relocate.NoAt single)
    (ht : u.tree.WF) (hg : ∀ e, u.geo.Nonneg bg e u.tree)
    (hroom : bg.events.find? (uintMod - 1) = none) (hfit : 28 * bg.phases.length ≤ uintMod)
    (h : relocateEvent u bg single isManual = .ok (r, log)) :
    ∃ n e ids, single.eventsSorted.head? = some (n, e) ∧ ids.Nodup ∧
      (∀ k ∈ ids, MayServe u bg single isManual e k) ∧
      (0 < u.cfg.maxNumNeigh → ids.length ≤ u.cfg.maxNumNeigh) ∧
      ((ids.length < u.solve.minNumNeigh ∧ r = Catalog.init ∧ log = []) ∨
       (u.solve.minNumNeigh ≤ ids.length ∧ log ≠ [] ∧ ∃ newId, OnlyTarget u bg single isManual n newId ids r log)) := by
  unfold relocateEvent at h
  have hev : (prepare u single isManual).eventsSorted = single.eventsSorted := rfl
  rw [hev] at h
  cases hs : single.eventsSorted with
  | nil => rw [hs] at h; cases h
  | cons kv rest =>
    rw [hs] at h
    simp only at h
    obtain ⟨n, e⟩ := kv
    have hfind : single.events.find? n = some e :=
      (Catalog.eventsSorted_facts he.toWF).2.1 (n, e) (by rw [hs]; exact List.mem_cons_self ..)
    have hid : e.id = n := (he.eventKey _ _ hfind).1
    cases hsel : selectNeighbours u.geo u.cfg bg e (prepare u single isManual) u.pop u.tree with
    | throws => rw [hsel] at h; cases h
    | ub => rw [hsel] at h; cases h
    | ok nb =>
      rw [hsel] at h
      simp only [hid] at h
      obtain ⟨c1, c2, c3, c4⟩ := neighbours_meet_constraints_partial u.pop u.tree ht
        (fun id e he => (hb.eventKey id e he).1) (hg e) nb hsel
      have ham : nb.amount = nb.ids.length := by simp [Neighbours.amount, Neighbours.ids, AMap.keys]
      have hserve : ∀ k ∈ nb.ids, ∃ phs, nb.nbs.find? k = some phs := by
        intro k hk
        exact Option.isSome_iff_exists.1 (AMap.find?_isSome.2 hk)
      refine ⟨n, e, nb.ids, rfl, c2, ?_, fun hm => ham ▸ c3 hm, ?_⟩
      · intro k hk
        obtain ⟨phs, hphs⟩ := hserve k hk
        obtain ⟨p, event, h1, h2, h3⟩ := c4 k phs hphs
        exact ⟨p, event, phs, h1, h2, h3⟩
      · obtain ⟨d1, d2⟩ := Relocate.single_event_needs_neighbours u.solve bg (prepare u single isManual) n nb
        obtain ⟨d2, -⟩ := d2 r log h
        by_cases hmin : u.solve.minNumNeigh ≤ nb.ids.length
        · refine .inr ⟨hmin, d2.2 hmin, ?_⟩
          have hin : ∀ k ∈ nb.ids, (bg.events.find? k).isSome = true := by
            intro k hk
            obtain ⟨phs, hphs⟩ := hserve k hk
            obtain ⟨p, event, -, -, h3⟩ := c4 k phs hphs
            rw [h3.inCatalog]; rfl
          have hnoroom : uintMod - 1 ∉ nb.ids := by
            intro hc
            have := hin _ hc
            rw [hroom] at this; cases this
          have hfit' : 28 * nb.phases.length ≤ uintMod := by
            have := phases_fit (bg := bg) c2 (by
              intro id phs hphs
              obtain ⟨p, event, -, -, h3⟩ := c4 id phs hphs
              refine ⟨h3.nodup, fun sp hsp => ?_⟩
              obtain ⟨station, -, ⟨q, hq, -, hq1, hq2⟩, -⟩ := h3.usable sp hsp
              rw [(hb.eventKey _ _ h3.inCatalog).1] at hq
              exact ⟨q, hq, by rw [hq1, hq2]⟩)
            omega
          have hphs : ∀ k, (prepare u single isManual).phasesOf k = if (single.events.find? k).isSome = true then
              (single.phasesOf k).map (fun p => { asUsed u isManual p.eventId p with eventId := p.eventId }) else [] := by
            intro k
            unfold prepare
            rw [(Catalog.fillProcessingInfo_phases he.toWF _ _ _ _).2.2 k]
            rfl
          have hpn : Relocate.NoAt (prepare u single isManual) := by
            intro k p hp
            rw [hphs k] at hp
            by_cases hk : (single.events.find? k).isSome = true
            · rw [if_pos hk, List.mem_map] at hp
              obtain ⟨q, hq, rfl⟩ := hp
              exact hen k q hq
            · rw [if_neg hk] at hp; cases hp
          obtain ⟨newId, g1, g2, g3, g4, g5⟩ := Relocate.single_event_only_target_partial hb hbn (prepare_sound he isManual) hpn
            c2 hin hnoroom hfit' (ham ▸ hmin) h
          refine ⟨newId, g1, g2, g3, g4, fun hk => ?_⟩
          rw [g5 hk, hphs n, if_pos (by rw [hfind]; rfl), List.map_map]
          rfl
        · refine .inl ⟨by omega, ?_⟩
          have hlog : log = [] := by
            by_contra hc
            exact hmin (d2.1 hc)
          unfold Relocate.relocateSingleEvent at h
          rw [if_pos (by omega)] at h
          split at h
          · simp only [Outcome.ok.injEq, Prod.mk.injEq] at h
            exact ⟨h.1.symm, hlog⟩
          · cases h

/-- **C98 (partial: numbers that are not used in the background catalog).** The result does not depend on the number the
event has in the catalog given by the caller, as long as no background event has that number: neighbours, iterations and
the relocated event are exactly the same. -/
theorem number_irrelevant_partial (u : Setup K) (bg : Catalog K) (sts : AMap String (Station K)) (e : Event K)
    (ps : List (Phase K)) (isManual : Bool) (n m : Nat)
    (hsta : ∀ (e : Event K) k st, u.geo.staDist { e with id := k } st = u.geo.staDist e st)
    (hn : bg.events.find? n = none) (hm : bg.events.find? m = none) :
    relocateEvent u bg (numbered sts e ps m) isManual = relocateEvent u bg (numbered sts e ps n) isManual := by
  have hp : ∀ k, prepare u (numbered sts e ps k) isManual = numbered sts e (ps.map (fun p =>
      { p with classWeight := u.pickWeight p.lowerUncertainty p.upperUncertainty,
               source := if isManual then .rtEventManual else .rtEventAutomatic,
               procType := Catalog.classify u.validP u.validS p.type })) k := by
    intro k
    unfold prepare
    exact fill_numbered sts e ps k _ _ _ _ (fun p => rfl)
  unfold relocateEvent
  rw [hp m, hp n]
  generalize (ps.map (fun p =>
      { p with classWeight := u.pickWeight p.lowerUncertainty p.upperUncertainty,
               source := if isManual then .rtEventManual else .rtEventAutomatic,
               procType := Catalog.classify u.validP u.validS p.type })) = qs
  have hs : ∀ k, (numbered sts e qs k).eventsSorted = [(k, { e with id := k })] := fun _ => rfl
  rw [hs m, hs n]
  simp only
  have hal : Alike u.geo bg { e with id := n } (numbered sts e qs n) { e with id := m } (numbered sts e qs m) :=
    ⟨hn, hm, rfl, fun st => (hsta e m st).trans (hsta e n st).symm, fun sp => by
      show (searchPhase (numbered sts e qs m) m sp).map _ = (searchPhase (numbered sts e qs n) n sp).map _
      rw [search_numbered, search_numbered]⟩
  rw [select_alike hal]
  cases selectNeighbours u.geo u.cfg bg { e with id := n } (numbered sts e qs n) u.pop u.tree with
  | throws => rfl
  | ub => rfl
  | ok nb => exact relocate_numbered u.solve bg sts e qs n m nb

/-- every catalog with one event, and picks of that event only, is of the form considered -/
theorem one_event_form {c : Catalog K} (hc : c.Sound) (h1 : c.events.length = 1) :
    ∃ e ps n, c = numbered c.stations e ps n := by
  obtain ⟨sts, evs, phs⟩ := c
  match evs, h1 with
  | [(n, e)], _ =>
    have hid : e.id = n := (hc.eventKey n e (by simp [AMap.find?])).1
    refine ⟨e, phs.map (·.2), n, ?_⟩
    unfold numbered
    congr 1
    · simp [← hid]
    · rw [List.map_map]
      conv_lhs => rw [← List.map_id phs]
      apply List.map_congr_left
      intro kp hkp
      have h2 := hc.phaseEvent kp hkp
      have h3 := hc.phaseKey kp hkp
      have h4 : kp.1 = n := by
        by_contra hne
        have : AMap.find? [(n, e)] kp.1 = none := by
          simp [AMap.find?, Ne.symm hne]
        rw [this] at h2; cases h2
      obtain ⟨k, p⟩ := kp
      simp only at h3 h4
      subst h4
      simp [← h3]

/-! ## A concrete case -/

namespace Example
open Relocate.Example

/-- the index of the two events of the background catalog, which are at the same place -/
def tree : EventTree ℚ := ⟨[(⟨46, 7, 5⟩, 1), (⟨46, 7, 5⟩, 2)], .node 0 0 .nil (.node 1 1 .nil .nil)⟩

def setup : Setup ℚ where
  geo := Selection.Example.geo
  cfg := ⟨0, -1, 0, 1, 0, 0, 0, 12⟩
  pop := KdTree.Example.sortingPop
  tree := tree
  validP := ["Pg", "P"]
  validS := ["Sg", "S"]
  pickWeight := fun _ _ => 1
  solve := single

/-- the event to relocate, next to both background events -/
def given (n : Nat) : Catalog ℚ := numbered [("N.A.", st)] (ev 0 30000000 46) [ph 0 35000000] n

theorem treeWF : tree.WF := by
  refine ⟨by decide +kernel, by decide +kernel, ?_⟩
  simp [tree, EventTree.pt, KdTree.Ordered, KdTree.contents, KdTree.coord]

theorem nonneg (e : Event ℚ) : setup.geo.Nonneg cat e setup.tree :=
  ⟨by intro x _; unfold setup Selection.Example.geo KdTree.Example.chebyshev; positivity,
   fun _ _ _ => abs_nonneg _, fun _ _ _ _ _ _ => abs_nonneg _⟩

theorem given_sound : (given 7).Sound := by
  have : given 7 = ((Catalog.init.addStation st).addEvent (ev 7 30000000 46) true).1.addPhase (ph 7 35000000) := rfl
  rw [this]
  refine sound_of ?_ (by decide +kernel) (by decide +kernel)
  exact .addPhase _ (.addEvent _ _ (by decide) (.addStation _ .init))

theorem relocated : ∃ r log, relocateEvent setup cat (given 7) true = .ok (r, log) ∧ seen r = [⟨3, 48, 32000000, true⟩] ∧
    doneIn log = [⟨[], 1, true⟩, ⟨[], 3, true⟩, ⟨[], 5, false⟩] := check_true (by decide +kernel)

/-- the hypotheses of the theorem on the whole call hold for a call that relocates -/
example : ∃ r log newId ids, relocateEvent setup cat (given 7) true = .ok (r, log) ∧ log ≠ [] ∧
    2 ≤ ids.length ∧ OnlyTarget setup cat (given 7) true 7 newId ids r log := by
  obtain ⟨r, log, h, hs, hd⟩ := relocated
  obtain ⟨n, e, ids, h1, h2, h3, h4, h5⟩ := single_event_call_partial cat_sound cat_noAt given_sound
    (noAt_of (by decide +kernel)) treeWF nonneg (by decide +kernel) (by decide +kernel) h
  have hn : n = 7 := by
    have : (given 7).eventsSorted.head? = some (7, { ev 0 30000000 46 with id := 7 }) := rfl
    rw [this] at h1
    simp only [Option.some.injEq, Prod.mk.injEq] at h1
    exact h1.1.symm
  subst hn
  rcases h5 with ⟨-, rfl, rfl⟩ | ⟨h6, h7, newId, h8⟩
  · cases hd
  · exact ⟨r, log, newId, ids, h, h7, h6, h8⟩

/-- the number does not matter among those that no background event has -/
example : relocateEvent setup cat (given 9) true = relocateEvent setup cat (given 7) true :=
  number_irrelevant_partial _ _ _ _ _ _ 7 9 (fun _ _ _ => rfl) (by decide +kernel) (by decide +kernel)

def isNothing (x : Outcome (Catalog ℚ × List (Relocate.IterLog ℚ))) : Bool :=
  match x with
  | .ok (r, log) => r.stations.isEmpty && r.events.isEmpty && r.phases.isEmpty && log.isEmpty
  | _ => false

theorem isNothing_true {x : Outcome (Catalog ℚ × List (Relocate.IterLog ℚ))} (h : isNothing x = true) :
    x = .ok (Catalog.init, []) := by
  match x, h with
  | .ok (⟨sts, evs, phs⟩, log), h =>
    simp only [isNothing, Bool.and_eq_true, List.isEmpty_iff] at h
    obtain ⟨⟨⟨rfl, rfl⟩, rfl⟩, rfl⟩ := h
    rfl

end Example

/-- **C98 as stated is false.** The same event, next to two background events with numbers 1 and 2: given with number 7 it
is relocated with both; given with number 1, which is what the application does (`origin_has_number_one`), the first is left
out and the event is not relocated for want of a second neighbour. -/
theorem number_matters :
    (∃ r log e, relocateEvent Example.setup Relocate.Example.cat (Example.given 7) true = .ok (r, log) ∧
      r.events.find? 3 = some e ∧ e.isRelocated = true) ∧
    relocateEvent Example.setup Relocate.Example.cat (Example.given 1) true = .ok (Catalog.init, []) := by
  refine ⟨?_, Example.isNothing_true (by decide +kernel)⟩
  obtain ⟨r, log, h, hs, -⟩ := Example.relocated
  unfold Relocate.Example.seen at hs
  rw [List.map_eq_cons_iff] at hs
  obtain ⟨⟨k, e⟩, l, hr, hk, hl⟩ := hs
  simp only [Relocate.Example.Seen.mk.injEq] at hk
  rw [List.map_eq_nil_iff] at hl
  exact ⟨r, log, e, h, by rw [hr, hk.1]; simp [AMap.find?], hk.2.2.2⟩

end Verif.SingleEvent

namespace Verif.Daemon
open Verif.Catalog

theorem addArrivals_events {src : SeisComP.DataSource} {inv : SeisComP.Inventory} {v : Phase Num} {id : Nat} :
    ∀ (arrs : List SeisComP.Arrival) {cat cat' : Catalog Num},
      SeisComP.addArrivals src inv v id arrs cat = .ok cat' → cat'.events = cat.events
  | [], cat, cat', h => by
    simp only [SeisComP.addArrivals, Outcome.ok.injEq] at h
    rw [h]
  | arr :: arrs, cat, cat', h => by
    simp only [SeisComP.addArrivals] at h
    rw [Outcome.bind_eq_ok] at h
    obtain ⟨c1, h1, h2⟩ := h
    rw [addArrivals_events arrs h2]
    unfold SeisComP.addArrival at h1
    rw [Outcome.bind_eq_ok] at h1
    obtain ⟨pick, -, h1⟩ := h1
    cases pick with
    | none => simp only [Outcome.ok.injEq] at h1; rw [h1]
    | some pick =>
      simp only at h1
      by_cases hd : SeisComP.discarded pick arr = true
      · rw [if_pos hd] at h1
        simp only [Outcome.ok.injEq] at h1; rw [h1]
      · rw [if_neg hd, Outcome.bind_eq_ok] at h1
        obtain ⟨c, hc, h1⟩ := h1
        cases c with
        | none => simp only [Outcome.ok.injEq] at h1; rw [h1]
        | some c =>
          simp only at h1
          have he : c.events = cat.events := by
            unfold SeisComP.withStation at hc
            split at hc
            · simp only [Outcome.ok.injEq, Option.some.injEq] at hc; rw [hc]
            · split at hc
              · cases hc
              · simp only [Outcome.bind_eq_ok] at hc
                obtain ⟨_, -, _, -, _, -, hc⟩ := hc
                simp only [Outcome.ok.injEq, Option.some.injEq] at hc
                rw [← hc]
                unfold Catalog.addStation
                simp only
                split <;> rfl
          split at h1
          · cases h1
          · simp only [Outcome.ok.injEq] at h1
            rw [← h1, ← he]; rfl

/-- **C98 (the application).** The application gives the event to relocate the number 1. -/
theorem origin_has_number_one {w : World} {dd : DD} {o : Origin} {cat : Catalog Num} {isManual : Bool}
    (h : singleEvent w dd o = .ok (cat, isManual)) : cat.events = [] ∨ ∃ e, cat.events = [(1, e)] ∧ e.id = 1 := by
  unfold singleEvent at h
  rw [Outcome.bind_eq_ok] at h
  obtain ⟨s, h1, h⟩ := h
  simp only [Outcome.bind_eq_ok, Outcome.ok.injEq, Prod.mk.injEq] at h
  obtain ⟨m, -, rfl, -⟩ := h
  simp only [SeisComP.addToCatalog] at h1
  rw [Outcome.bind_eq_ok] at h1
  obtain ⟨s', h1, h2⟩ := h1
  simp only [Outcome.ok.injEq] at h2
  subst h2
  unfold SeisComP.addOrigin at h1
  rw [Outcome.bind_eq_ok] at h1
  obtain ⟨org, -, h1⟩ := h1
  by_cases hl : org.arrivals.length = 0
  · rw [if_pos hl] at h1
    simp only [Outcome.ok.injEq] at h1
    subst h1
    exact .inl rfl
  · rw [if_neg hl] at h1
    simp only [Outcome.bind_eq_ok] at h1
    obtain ⟨depth, -, parent, -, mag, -, h1⟩ := h1
    simp only [Catalog.addEvent, Bool.false_eq_true, if_false, Outcome.ok.injEq] at h1
    obtain ⟨id, rfl, c, hc, rfl⟩ := h1
    right
    have := addArrivals_events _ hc
    rw [this]
    exact ⟨_, rfl, rfl⟩

end Verif.Daemon
