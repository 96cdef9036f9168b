import Verif.Model.RelocateTop
import Verif.Proofs.RelocateRun

/-! Helper lemmas for C47 and C50: catalogs built event by event. -/

set_option linter.unusedSectionVars false
set_option linter.unusedSimpArgs false

namespace Verif.Relocate
open Verif.Catalog Verif.Solver

variable {K : Type} [Field K] [LinearOrder K]

theorem init_sound : (Catalog.init : Catalog K).Sound :=
  ⟨⟨List.nodup_nil, by simp [Catalog.init], List.nodup_nil, by simp [Catalog.init],
      by simp [Catalog.init]⟩, by simp [Catalog.init], by simp [Catalog.init]⟩

theorem phasesOf_nil {c : Catalog K} (h : c.Sound) {k : Nat} (hk : c.events.find? k = none) : c.phasesOf k = [] := by
  rw [List.eq_nil_iff_forall_not_mem]
  intro p hp
  have := h.phaseEvent _ (Catalog.mem_phasesOf.1 hp)
  simp only [hk] at this
  cases this

/-- the events `ids` of `o` are added to `r` -/
structure CopiedAll (o r : Catalog K) (ids : List Nat) (r' : Catalog K) : Prop where
  sound : r'.Sound
  events : ∀ k, r'.events.find? k = if k ∈ ids then o.events.find? k else r.events.find? k
  phases : ∀ k, r'.phasesOf k = if k ∈ ids then o.phasesOf k else r.phasesOf k
  old : ∀ x st, r.stations.find? x = some st → r'.stations.find? x = some st
  new : ∀ x st, r'.stations.find? x = some st → r.stations.find? x = some st ∨ o.stations.find? x = some st

theorem copy_spec {o r : Catalog K} (ho : o.Sound) (hr : r.Sound) (ids : List Nat) (hn : ids.Nodup)
    (h1 : ∀ k ∈ ids, (o.events.find? k).isSome = true) (h2 : ∀ k ∈ ids, r.events.find? k = none) :
    ∃ r', ids.foldlM (copyStep o) r = .ok r' ∧ CopiedAll o r ids r' := by
  induction ids generalizing r with
  | nil => exact ⟨r, rfl, hr, by simp, by simp, fun _ _ h => h, fun _ _ h => Or.inl h⟩
  | cons id ids ih =>
    obtain ⟨e, he⟩ := Option.isSome_iff_exists.1 (h1 id (by simp))
    have hnone := h2 id (by simp)
    have hid := (ho.eventKey _ _ he).1
    have hlt := (ho.eventKey _ _ he).2
    have hadd := Catalog.addEvent_true (c := r) (e := e) (by rw [hid]; exact hnone)
    obtain ⟨c', k1, k2⟩ := Catalog.addFrom_ok ho.toWF ho.phaseStation he hadd (by simp)
    rw [hid] at k1 k2
    have hw' : c'.WF := by
      have := hr.toWF.addFrom ho.toWF id true
      rw [k1] at this; exact this
    have hmap : (o.phasesOf id).map (Catalog.relabel id) = o.phasesOf id := by
      conv_rhs => rw [← List.map_id (o.phasesOf id)]
      apply List.map_congr_left
      intro p hpm
      have := ho.phaseKey _ (Catalog.mem_phasesOf.1 hpm)
      cases p; simp [Catalog.relabel] at this ⊢; exact this.symm
    have hs' : c'.Sound := Catalog.Copied.sound hr ho.placed hlt k2 hw'
    have hev : ∀ k, c'.events.find? k = if k = id then some e else r.events.find? k := by
      intro k
      rw [k2.events, AMap.find?_set]
      split
      · cases e; simp at hid ⊢; exact hid.symm
      · rfl
    have hph : ∀ k, c'.phasesOf k = if k = id then o.phasesOf id else r.phasesOf k := by
      intro k
      rw [k2.phases]
      by_cases hk : k = id
      · subst hk; rw [if_pos rfl, if_pos rfl, phasesOf_nil hr hnone, hid, hmap]; rfl
      · rw [if_neg hk, if_neg hk, List.append_nil]
    rw [List.nodup_cons] at hn
    have hids : ∀ k ∈ ids, c'.events.find? k = none := by
      intro k hk
      rw [hev, if_neg (by rintro rfl; exact hn.1 hk)]
      exact h2 k (List.mem_cons_of_mem _ hk)
    obtain ⟨r', g1, g2⟩ := ih hs' hn.2 (fun k hk => h1 k (List.mem_cons_of_mem _ hk)) hids
    refine ⟨r', ?_, g2.sound, ?_, ?_, ?_, ?_⟩
    · rw [List.foldlM_cons]
      have : copyStep o r id = .ok c' := by unfold copyStep; rw [k1]
      rw [this]; exact g1
    · intro k
      rw [g2.events, hev]
      by_cases hk : k ∈ ids
      · simp [hk]
      · by_cases hk' : k = id
        · subst hk'; simp [hk, he]
        · simp [hk, hk']
    · intro k
      rw [g2.phases, hph]
      by_cases hk : k ∈ ids
      · simp [hk]
      · by_cases hk' : k = id
        · subst hk'; simp [hk]
        · simp [hk, hk']
    · intro x st hx
      apply g2.old
      rw [k2.stations, hx]; rfl
    · intro x st hx
      rcases g2.new x st hx with h | h
      · rw [k2.stations] at h
        cases hrx : r.stations.find? x with
        | some y => rw [hrx] at h; exact Or.inl h
        | none =>
          rw [hrx] at h
          simp only [Option.none_or] at h
          split at h
          · exact Or.inr h
          · cases h
      · exact Or.inr h

theorem returnedLoop_eq {cur : Catalog K} (hc : cur.WF) (l : List (Nat × Event K))
    (hl : ∀ kv ∈ l, cur.events.find? kv.1 = some kv.2) (r : Catalog K) :
    returnedLoop cur r l = ((l.filter (fun kv => kv.2.isRelocated)).map (·.1)).foldlM (copyStep cur) r := by
  induction l generalizing r with
  | nil => rfl
  | cons kv l ih =>
    have hid := (hc.eventKey _ _ (hl kv (by simp))).1
    have ih := ih (fun x hx => hl x (List.mem_cons_of_mem _ hx))
    unfold returnedLoop
    by_cases hf : kv.2.isRelocated = true
    · rw [if_pos hf, List.filter_cons, if_pos hf, List.map_cons, List.foldlM_cons, hid]
      unfold copyStep
      cases hx : r.addFrom kv.1 cur true with
      | mk c o =>
        cases o with
        | ok n => simp only [Outcome.bind_ok]; rw [ih]; rfl
        | throws => rfl
        | ub => rfl
    · rw [if_neg hf, List.filter_cons, if_neg hf, ih]

/-- the catalog returned holds the marked events -/
theorem returned_spec {cur : Catalog K} (hc : cur.Sound) :
    ∃ r, returnedLoop cur Catalog.init cur.eventsSorted = .ok r ∧ r.Sound ∧
      (∀ k, r.events.find? k = if flag cur k = true then cur.events.find? k else none) ∧
      (∀ k, r.phasesOf k = if flag cur k = true then cur.phasesOf k else []) ∧
      (∀ x st, r.stations.find? x = some st → cur.stations.find? x = some st) := by
  obtain ⟨f1, f2, f3, f4⟩ := Catalog.eventsSorted_facts hc.toWF
  have hmem : ∀ k, k ∈ (cur.eventsSorted.filter (fun kv => kv.2.isRelocated)).map (·.1) ↔ flag cur k = true := by
    intro k
    rw [List.mem_map]
    constructor
    · rintro ⟨kv, hkv, rfl⟩
      rw [List.mem_filter] at hkv
      unfold flag
      rw [f2 kv hkv.1]; exact hkv.2
    · intro h
      unfold flag at h
      cases he : cur.events.find? k with
      | none => rw [he] at h; cases h
      | some e =>
        rw [he] at h
        exact ⟨(k, e), List.mem_filter.2 ⟨f3 k e he, h⟩, rfl⟩
  rw [returnedLoop_eq hc.toWF _ f2]
  obtain ⟨r, g1, g2⟩ := copy_spec hc init_sound _ ((List.filter_sublist.map _).nodup f1) (by
    intro k hk
    rw [hmem] at hk
    unfold flag at hk
    cases he : cur.events.find? k with
    | none => rw [he] at hk; cases hk
    | some e => rfl) (by intro k _; simp [Catalog.init])
  refine ⟨r, g1, g2.sound, ?_, ?_, ?_⟩
  · intro k
    rw [g2.events]
    simp only [hmem]
    rfl
  · intro k
    rw [g2.phases]
    simp only [hmem]
    rfl
  · intro x st hx
    rcases g2.new x st hx with h | h
    · simp [Catalog.init] at h
    · exact h

theorem marked_iff {c : Catalog K} {k : Nat} : Marked c k ↔ flag c k = true := by
  unfold Marked flag
  cases c.events.find? k <;> simp

/-- summary of a relocation -/
theorem relocate_summary {a : Args K} (hg : GoodArgs a) {cat r : Catalog K} (hs : cat.Sound) (hn : NoAt cat)
    {log : List (IterLog K)} (h : relocate a cat = .ok (r, log)) :
    ∃ last, log.getLast? = some last ∧ Rel a.cluster cat last.after ∧ r.Sound ∧
      (∀ k, r.events.find? k = if flag last.after k = true then last.after.events.find? k else none) ∧
      (∀ k, r.phasesOf k = if flag last.after k = true then last.after.phasesOf k else []) ∧
      (∀ x st, r.stations.find? x = some st → last.after.stations.find? x = some st) ∧
      (∀ k ∈ a.cluster.map (·.1), flag last.after k = true ↔
        KeptSolution log k ∨ (flag cat k = true ∧ ∀ y, log[1]? = some y → k ∈ y.reverted)) ∧
      (∀ k, k ∉ a.cluster.map (·.1) → flag last.after k = flag cat k) := by
  obtain ⟨hrun, last, hl, hret⟩ := relocate_run h
  have hrel := (hrun.rel hg (Rel.refl hs hn) (Or.inl rfl) last (List.mem_of_getLast? hl)).2
  obtain ⟨r', g1, g2, g3, g4, g5⟩ := returned_spec hrel.sound
  rw [hret] at g1
  simp only [Outcome.ok.injEq] at g1
  subst g1
  refine ⟨last, hl, hrel, g2, g3, g4, g5, ?_, ?_⟩
  · intro k hk
    exact hrun.flags hg (Rel.refl hs hn) hl k hk
  · intro k hk
    unfold flag
    rw [(hrel.others k hk).1]

end Verif.Relocate
