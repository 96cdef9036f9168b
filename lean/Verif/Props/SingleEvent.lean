import Verif.Props.Relocate

/-!
# Single-event relocation (C50)
-/

set_option linter.unusedSectionVars false
set_option linter.unusedSimpArgs false

namespace Verif.Relocate
open Verif.Catalog Verif.Solver

variable {K : Type} [Field K] [LinearOrder K]

/-- the catalog given to the relocation -/
theorem singleEventCatalog_spec {bg evCat cat : Catalog K} (hb : bg.Sound) (he : evCat.Sound) {evId newId : Nat}
    {nb : Neighbours} (hn : nb.ids.Nodup) (hin : ∀ k ∈ nb.ids, (bg.events.find? k).isSome = true)
    (hroom : uintMod - 1 ∉ nb.ids) (h : singleEventCatalog bg evCat evId nb = .ok (cat, newId)) :
    ∃ e, evCat.events.find? evId = some e ∧ cat.Sound ∧ newId ∉ nb.ids ∧
      (∀ k, cat.events.find? k = if k = newId then some { e with id := newId } else
        if k ∈ nb.ids then bg.events.find? k else none) ∧
      (∀ k ∈ nb.ids, cat.phasesOf k = bg.phasesOf k) ∧
      cat.phasesOf newId = (evCat.phasesOf evId).map (fun p => { p with eventId := newId }) ∧
      (∀ k, k ≠ newId → k ∉ nb.ids → cat.phasesOf k = []) := by
  obtain ⟨c, g1, g2⟩ := copy_spec hb init_sound nb.ids hn hin (by intro k _; simp [Catalog.init])
  have g1' : toCatalog nb bg = .ok c := g1
  unfold singleEventCatalog at h
  rw [g1'] at h
  simp only [Outcome.bind_ok] at h
  cases hev : evCat.events.find? evId with
  | none =>
    have : (c.addFrom evId evCat false).2 = .ub := by unfold Catalog.addFrom; rw [hev]
    cases hx : c.addFrom evId evCat false with
    | mk c' r =>
      rw [hx] at this h
      simp only at this
      subst this
      simp at h
  | some e =>
    have hlt : c.maxKey + 1 < uintMod := by
      have h1 : c.maxKey ≤ uintMod - 2 := by
        apply Catalog.foldl_max_le
        · omega
        · intro x hx
          rw [← AMap.find?_isSome, Option.isSome_iff_exists] at hx
          obtain ⟨e, he'⟩ := hx
          have h3 := (g2.sound.eventKey x e he').2
          have : x ≠ uintMod - 1 := by
            rintro rfl
            rw [g2.events, if_neg hroom] at he'
            simp [Catalog.init] at he'
          omega
      unfold uintMod at *; omega
    obtain ⟨a1, a2⟩ := Catalog.addEvent_false c e hlt
    have hid := (he.eventKey _ _ hev).1
    obtain ⟨c', k1, k2⟩ := Catalog.addFrom_ok he.toWF he.phaseStation hev a1 rfl
    rw [k1] at h
    simp only [Outcome.ok.injEq, Prod.mk.injEq] at h
    obtain ⟨rfl, rfl⟩ := h
    have hw' : c'.WF := by
      have := g2.sound.toWF.addFrom he.toWF evId false
      rw [k1] at this; exact this
    have hnot : c.maxKey + 1 ∉ nb.ids := by
      intro hc
      have := hin _ hc
      rw [g2.events, if_pos hc] at a2
      rw [a2] at this; cases this
    refine ⟨e, rfl, Catalog.Copied.sound g2.sound he.placed hlt k2 hw', hnot, ?_, ?_, ?_, ?_⟩
    · intro k
      rw [k2.events, AMap.find?_set, g2.events]
      simp [Catalog.init]
    · intro k hk
      rw [k2.phases, if_neg (by rintro rfl; exact hnot hk), List.append_nil, g2.phases, if_pos hk]
    · rw [k2.phases, if_pos rfl, phasesOf_nil g2.sound a2, hid]
      rfl
    · intro k hk hk'
      rw [k2.phases, if_neg hk, List.append_nil, g2.phases, if_neg hk']
      rfl

/-- **C50.** Single-event relocation with enough neighbours: the event gets an id that no neighbour
has; in every iteration every neighbour is exactly as in the background catalog, hypocentre and picks;
the parameters given to the solver are free for the event and for no neighbour; and if neither the
neighbours nor the event were marked as relocated, the only event that can be returned is the event
itself, with its own picks. The background catalog itself is an argument that is only read.
(Partial: ids below 2³²-1, as in C11; catalogs without marks for the last part.) -/
theorem single_event_only_target_partial {s : SingleArgs K} {bg evCat r : Catalog K} {evId : Nat} {nb : Neighbours}
    (hb : bg.Sound) (hbn : NoAt bg) (he : evCat.Sound) (hen : NoAt evCat)
    (hn : nb.ids.Nodup) (hin : ∀ k ∈ nb.ids, (bg.events.find? k).isSome = true)
    (hroom : uintMod - 1 ∉ nb.ids) (hfit : 28 * nb.phases.length ≤ uintMod)
    (hmin : s.minNumNeigh ≤ nb.amount) {log : List (IterLog K)}
    (h : relocateSingleEvent s bg evCat evId nb = .ok (r, log)) :
    ∃ newId, newId ∉ nb.ids ∧
      (∀ x ∈ log, ∀ k ∈ nb.ids,
        x.before.events.find? k = bg.events.find? k ∧ x.before.phasesOf k = bg.phasesOf k ∧
        x.after.events.find? k = bg.events.find? k ∧ x.after.phasesOf k = bg.phasesOf k) ∧
      (∀ x ∈ log, ∀ q ∈ parOf x.ops, (q.free = true ↔ q.ev = newId) ∧ (q.ev = newId ∨ q.ev ∈ nb.ids)) ∧
      ((∀ k ∈ nb.ids, ¬ Marked bg k) → ∀ k, (r.events.find? k).isSome = true → k = newId) ∧
      ((r.events.find? newId).isSome = true →
        (r.phasesOf newId).map pick0 = (evCat.phasesOf evId).map (fun p => pick0 { p with eventId := newId })) := by
  unfold relocateSingleEvent at h
  rw [if_neg (by omega), Outcome.bind_eq_ok] at h
  obtain ⟨⟨cat, newId⟩, h1, h⟩ := h
  simp only at h
  rw [Outcome.bind_eq_ok] at h
  obtain ⟨xc, h2, h⟩ := h
  obtain ⟨e, g1, g2, g3, g4, g5, g6, g7⟩ := singleEventCatalog_spec hb he hn hin hroom h1
  have hnat : NoAt cat := by
    intro k p hp
    by_cases hk : k = newId
    · subst hk
      rw [g6, List.mem_map] at hp
      obtain ⟨p', hp', rfl⟩ := hp
      exact hen evId p' hp'
    · by_cases hk' : k ∈ nb.ids
      · rw [g5 k hk'] at hp; exact hbn _ _ hp
      · rw [g7 k hk hk'] at hp; cases hp
  have hg : GoodArgs (s.toArgs xc nb newId) := by
    refine ⟨⟨by simp [SingleArgs.toArgs], by simp [SingleArgs.toArgs]⟩, ?_⟩
    simp only [SingleArgs.toArgs, List.map_cons, List.map_nil, List.sum_cons, List.sum_nil, Nat.add_zero]
    exact hfit
  have hkeys : (s.toArgs xc nb newId).cluster.map (·.1) = [newId] := rfl
  have hrun := (relocate_run h).1
  have hrel := hrun.rel hg (Rel.refl g2 hnat) (Or.inl rfl)
  have hne : ∀ k ∈ nb.ids, k ≠ newId := by rintro k hk rfl; exact g3 hk
  have hbgk : ∀ k ∈ nb.ids, cat.events.find? k = bg.events.find? k := by
    intro k hk
    rw [g4, if_neg (hne k hk), if_pos hk]
  refine ⟨newId, g3, ?_, ?_, ?_, ?_⟩
  · intro x hx k hk
    obtain ⟨r1, r2⟩ := hrel x hx
    have hk' : k ∉ (s.toArgs xc nb newId).cluster.map (·.1) := by rw [hkeys]; simpa using hne k hk
    have o1 := r1.others k hk'
    have o2 := r2.others k hk'
    rw [hbgk k hk, g5 k hk] at o1 o2
    exact ⟨o1.1, o1.2, o2.1, o2.2⟩
  · intro x hx q hq
    obtain ⟨i, hi⟩ := List.getElem?_of_mem hx
    have hops : ∃ (p c : Catalog K) (st : ObserveState K),
        ObserveInv s.env true p c (s.toArgs xc nb newId).cluster st ∧ st.ops = x.ops := by
      cases i with
      | zero =>
        have : IterOk (s.toArgs xc nb newId) 0 Catalog.init cat x := by
          cases hrun with
          | last _ hi' _ _ => simp at hi; subst hi; exact hi'
          | step hi' _ _ _ => simp at hi; subst hi; exact hi'
        obtain ⟨_, st, a, _, b, _⟩ := this.spec hg (Rel.refl g2 hnat) (Or.inl rfl)
        exact ⟨_, _, st, a, b⟩
      | succ i =>
        have hlen : i < log.length := by
          have := (List.getElem?_eq_some_iff.1 hi).1; omega
        have hz : log[i]? = some log[i] := List.getElem?_eq_getElem hlen
        have := (hrun.link i log[i] x hz hi).1
        obtain ⟨_, st, a, _, b, _⟩ := this.spec hg (hrel x hx).1 (Or.inr (hrel _ (List.getElem_mem hlen)).2)
        exact ⟨_, _, st, a, b⟩
    obtain ⟨p, c, st, hinv, hst⟩ := hops
    rw [← hst] at hq
    have := hinv.free q hq
    simp only [SingleArgs.toArgs, List.map_cons, List.map_nil, List.mem_singleton, Bool.not_true,
      exists_eq_left] at this
    have hids : ({ nb with refId := newId } : Neighbours).ids = nb.ids := rfl
    rw [hids] at this
    rcases this with ⟨a, b⟩ | ⟨a, b⟩
    · exact ⟨by simp [a, b], Or.inl b⟩
    · refine ⟨?_, Or.inr b⟩
      rw [a]
      simp only [Bool.false_eq_true, false_iff]
      exact hne _ b
  · intro hmark k hk
    by_contra hkn
    rw [relocate_returns hg g2 hnat h] at hk
    rw [hkeys] at hk
    simp only [List.mem_singleton, hkn, false_and, false_or, not_false_eq_true, true_and] at hk
    obtain ⟨ev, h3, h4⟩ := hk
    rw [g4, if_neg hkn] at h3
    by_cases hk' : k ∈ nb.ids
    · rw [if_pos hk'] at h3
      exact hmark k hk' ⟨ev, h3, h4⟩
    · rw [if_neg hk'] at h3; cases h3
  · intro hk
    rw [(relocate_content hg g2 hnat h).2.2.1 newId hk, g6, List.map_map]
    rfl

/-- **C50 (enough neighbours).** The event is relocated only with at least the configured number of
neighbours: with fewer the returned catalog is empty and no iteration is run; whenever an iteration was run,
or an event returned, there were enough; and with enough at least one iteration is run. (With fewer than the
minimum but more than 33 neighbours the message is built out of bounds.) -/
theorem single_event_needs_neighbours (s : SingleArgs K) (bg evCat : Catalog K) (evId : Nat) (nb : Neighbours) :
    (nb.ids.length < s.minNumNeigh → nb.ids.length ≤ 33 →
      relocateSingleEvent s bg evCat evId nb = .ok (Catalog.init, [])) ∧
    (∀ r log, relocateSingleEvent s bg evCat evId nb = .ok (r, log) →
      (log ≠ [] ↔ s.minNumNeigh ≤ nb.ids.length) ∧
      (∀ k, (r.events.find? k).isSome = true → s.minNumNeigh ≤ nb.ids.length)) := by
  have ham : nb.amount = nb.ids.length := by simp [Neighbours.amount, Neighbours.ids, AMap.keys]
  unfold relocateSingleEvent
  rw [ham]
  refine ⟨fun h1 h2 => by rw [if_pos h1, if_pos h2], ?_⟩
  intro r log h
  by_cases hlt : nb.ids.length < s.minNumNeigh
  · rw [if_pos hlt] at h
    split at h
    · simp only [Outcome.ok.injEq, Prod.mk.injEq] at h
      obtain ⟨rfl, rfl⟩ := h
      refine ⟨⟨fun h => absurd rfl h, fun h => by omega⟩, ?_⟩
      intro k hk
      simp [Catalog.init] at hk
    · cases h
  · rw [if_neg hlt, Outcome.bind_eq_ok] at h
    obtain ⟨⟨cat, newId⟩, _, h⟩ := h
    simp only at h
    rw [Outcome.bind_eq_ok] at h
    obtain ⟨xc, _, h⟩ := h
    refine ⟨⟨fun _ => by omega, fun _ => ?_⟩, fun _ _ => by omega⟩
    have hrun := (relocate_run h).1
    cases hrun <;> simp

/-! ## A concrete case -/

namespace Example

/-- the event to relocate has id 2 in its own catalog, as has a background event -/
def evCat : Catalog ℚ :=
  ((Catalog.init.addStation st).addEvent (ev 2 30000000 46) true).1.addPhase (ph 2 35000000)

theorem evCat_sound : evCat.Sound := by
  refine sound_of ?_ (by decide +kernel) (by decide +kernel)
  exact .addPhase _ (.addEvent _ _ (by decide) (.addStation _ .init))

def neighbours : Neighbours := ⟨2, [(1, [("N.A.", "Pg")]), (2, [("N.A.", "Pg")])]⟩

def single : SingleArgs ℚ :=
  ⟨env, ⟨2, 1, 3, 0, 0, 0, 0⟩, true, 3, fun _ => some (1/2), fun _ _ => .ok [], solver 3 (fun _ => 1), 2⟩

/-- the hypotheses hold for an event with two neighbours: it gets id 3, moves twice by one degree, and
alone is returned -/
example : (∃ r log, relocateSingleEvent single cat evCat 2 neighbours = .ok (r, log) ∧
    seen r = [⟨3, 48, 32000000, true⟩] ∧
    doneIn log = [⟨[], 1, true⟩, ⟨[], 3, true⟩, ⟨[], 5, false⟩]) ∧
    neighbours.ids.Nodup ∧ (∀ k ∈ neighbours.ids, (cat.events.find? k).isSome = true) ∧
    single.minNumNeigh ≤ neighbours.amount ∧ cat.Sound ∧ evCat.Sound ∧ NoAt cat ∧ NoAt evCat :=
  ⟨check_true (by decide +kernel), by decide, by decide +kernel, by decide, cat_sound, evCat_sound,
    cat_noAt, noAt_of (by decide +kernel)⟩

/-- with a minimum of three neighbours nothing is done -/
example : neighbours.ids.length < ({ single with minNumNeigh := 3 } : SingleArgs ℚ).minNumNeigh ∧
    relocateSingleEvent { single with minNumNeigh := 3 } cat evCat 2 neighbours = .ok (Catalog.init, []) :=
  ⟨by decide, (single_event_needs_neighbours _ _ _ _ _).1 (by decide) (by decide)⟩

end Example

end Verif.Relocate
