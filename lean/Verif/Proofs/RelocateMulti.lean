import Verif.Proofs.XCorrBuild
import Verif.Proofs.RelocateTop
import Verif.Props.Catalog

/-! Lemmas about multi-event relocation. -/

set_option linter.unusedSectionVars false
set_option linter.unusedSimpArgs false

namespace Verif.Relocate
open Verif.Catalog Verif.XCorr

variable {K : Type} [Field K] [LinearOrder K]

/-- what is known after the clusters `cls` -/
structure MultiInv (m : MultiArgs K) (bg : Catalog K) (data0 : Cache) (cls : List Cluster) (s : MultiState K) : Prop where
  od : OneDir s.xcorrData
  uq : Uniq s.xcorrData
  once : s.calls.Pairwise (fun c d => ¬ SamePair c d)
  good : ∀ i c, s.calls[i]? = some c → GoodCall m.x bg i c
  kept : ∀ c ∈ s.calls, c.refEv.id ≠ c.ev.id ∧
    look data0 c.refEv.id c.ev.id (c.refPhase.stationId, c.refPhase.type) = none ∧
    look s.xcorrData c.refEv.id c.ev.id (c.refPhase.stationId, c.refPhase.type) = some c.result
  keep : ∀ a b sp e, a ≠ b → look data0 a b sp = some e → look s.xcorrData a b sp = some e
  prov : ∀ a b sp e, a ≠ b → look s.xcorrData a b sp = some e → look data0 a b sp = some e ∨
    (look data0 a b sp = none ∧ ∃ c ∈ s.calls, Answered c a b sp e ∨ Answered c b a sp e.neg)
  len : s.done.length = cls.length
  each : ∀ i d cl, s.done[i]? = some d → cls[i]? = some cl →
    relocate (m.toArgs i cl d.1) bg = .ok d.2 ∧
    (∀ a b sp e, look d.1 a b sp = some e → look s.xcorrData a b sp = some e) ∧
    (∀ a b sp, m.x.enable = true → Wanted m.x bg cl a b sp → (look d.1 a b sp).isSome = true) ∧
    (∀ a b sp, (look d.1 a b sp).isSome = true →
      a ≠ b ∧ m.x.enable = true ∧ (Wanted m.x bg cl a b sp ∨ Wanted m.x bg cl b a sp))
  sound : s.reloc.Sound
  events : ∀ k, s.reloc.events.find? k = s.done.findSome? (fun d => d.2.1.events.find? k)
  phases : ∀ k, s.reloc.phasesOf k =
    ((s.done.find? (fun d => (d.2.1.events.find? k).isSome)).map (fun d => d.2.1.phasesOf k)).getD []

theorem SamePair.look_eq {c d : XcorrCall K} (h : SamePair c d) {x : Cache} (ho : OneDir x)
    (hc : look x c.refEv.id c.ev.id (c.refPhase.stationId, c.refPhase.type) = none) :
    look x d.refEv.id d.ev.id (d.refPhase.stationId, d.refPhase.type) = none := by
  obtain ⟨h1, h2, h3⟩ := h
  rw [← h2, ← h3]
  rcases h1 with ⟨h4, h5⟩ | ⟨h4, h5⟩
  · rw [← h4, ← h5]; exact hc
  · have := XCorr.get_symm ho c.refEv.id c.ev.id c.refPhase.stationId c.refPhase.type
    unfold look at hc ⊢
    rw [hc] at this
    rw [← h4, ← h5]; exact this

theorem SamePair.symm {c d : XcorrCall K} (h : SamePair c d) : SamePair d c := by
  obtain ⟨h1, h2, h3⟩ := h
  refine ⟨?_, h2.symm, h3.symm⟩
  rcases h1 with ⟨h4, h5⟩ | ⟨h4, h5⟩
  · exact Or.inl ⟨h4.symm, h5.symm⟩
  · exact Or.inr ⟨h5.symm, h4.symm⟩

theorem multiStep_inv {m : MultiArgs K} {bg : Catalog K} (hs : bg.Sound) (hn : NoAt bg) {data0 : Cache}
    {cls : List Cluster} {cl : Cluster} (hcl : GoodCluster cl) (hself : NoSelf cl)
    (hfit : 28 * (cl.map (·.2.phases.length)).sum ≤ IdToIndex.uintMod) {s t : MultiState K}
    (hi : MultiInv m bg data0 cls s) (h : multiStep m bg s cl = .ok t) : MultiInv m bg data0 (cls ++ [cl]) t := by
  unfold multiStep at h
  rw [Outcome.bind_eq_ok] at h
  obtain ⟨b, hb, h⟩ := h
  rw [Outcome.bind_eq_ok] at h
  obtain ⟨⟨r, log⟩, hrel, h⟩ := h
  have hext := build_ext hs hi.od hself hb
  obtain ⟨new, hcalls, hbuilt⟩ := hext.built ⟨[], by simp, Built.start _ _ _ _⟩
  have hga : GoodArgs (m.toArgs s.done.length cl b.cache) := ⟨hcl, hfit⟩
  obtain ⟨_, _, _, hrs, _⟩ := relocate_summary hga hs hn hrel
  obtain ⟨rc, k1, k2, k3, k4', _⟩ := Catalog.catalog_merge_keep_ids hi.sound hrs.placed
  have k4 : ∀ k, rc.phasesOf k = if (s.reloc.events.find? k).isSome then s.reloc.phasesOf k else r.phasesOf k := by
    intro k
    rw [k4']
    cases hr : r.events.find? k with
    | some e => rfl
    | none =>
      rw [Catalog.phasesOf_of_no_event hrs hr]
      simp
  simp only [k1, Outcome.ok.injEq] at h
  have hget : ∀ a b' sp, a ≠ b' → look t.xcorrData a b' sp =
      (look b.cache a b' sp).or (look s.xcorrData a b' sp) := by
    intro a b' sp hab
    rw [← h]
    unfold look
    simp only
    rw [XCorr.get_merge hi.od hi.uq hbuilt.od hbuilt.uq hab]
    unfold XCorrSpec.View.overlay
    beta_reduce
    cases hx : XCorr.get b.cache a b' sp.1 sp.2 <;> rfl
  -- no result already known is changed
  have hold : ∀ a b' sp e, a ≠ b' → look s.xcorrData a b' sp = some e → look t.xcorrData a b' sp = some e := by
    intro a b' sp e hab he
    rw [hget a b' sp hab]
    cases hx : look b.cache a b' sp with
    | none => simpa using he
    | some e' =>
      rcases hbuilt.prov a b' sp e' hx with h1 | ⟨h1, _⟩
      · rw [he] at h1; injection h1 with h1; subst h1; rfl
      · rw [he] at h1; cases h1
  have hne : ∀ a b' sp e, look b.cache a b' sp = some e → a ≠ b' := by
    rintro a b' sp e he rfl
    rw [hbuilt.self] at he; cases he
  have hnew : ∀ a b' sp e, look b.cache a b' sp = some e → look t.xcorrData a b' sp = some e := by
    intro a b' sp e he
    rw [hget a b' sp (hne a b' sp e he), he]; rfl
  have htc : t.calls = s.calls ++ new := by rw [← h]; exact hcalls
  -- the pairs newly correlated were not known before
  have hdata0 : ∀ c ∈ new, look data0 c.refEv.id c.ev.id (c.refPhase.stationId, c.refPhase.type) = none := by
    intro c hc
    obtain ⟨g1, g2, _⟩ := hbuilt.kept c hc
    cases hd : look data0 c.refEv.id c.ev.id (c.refPhase.stationId, c.refPhase.type) with
    | none => rfl
    | some e => rw [hi.keep _ _ _ _ g1 hd] at g2; cases g2
  have hdone : t.done = s.done ++ [(b.cache, r, log)] := by rw [← h]
  have hreloc : t.reloc = rc := by rw [← h]
  refine ⟨?_, ?_, ?_, ?_, ?_, ?_, ?_, ?_, ?_, ?_, ?_, ?_⟩
  · rw [← h]; exact (merge_inv hi.od hi.uq).1
  · rw [← h]; exact (merge_inv hi.od hi.uq).2
  · rw [htc, List.pairwise_append]
    refine ⟨hi.once, hbuilt.once, ?_⟩
    intro c hc d hd hsame
    obtain ⟨_, _, g3⟩ := hi.kept c hc
    obtain ⟨_, g2, _⟩ := hbuilt.kept d hd
    rw [hsame.symm.look_eq hi.od g2] at g3; cases g3
  · intro i c hc
    rw [htc] at hc
    rcases Nat.lt_or_ge i s.calls.length with hlt | hge
    · rw [List.getElem?_append_left hlt] at hc; exact hi.good i c hc
    · rw [List.getElem?_append_right hge] at hc
      have := hbuilt.good _ c hc
      rwa [Nat.add_sub_cancel' hge] at this
  · intro c hc
    rw [htc] at hc
    rcases List.mem_append.1 hc with hc | hc
    · obtain ⟨g1, g2, g3⟩ := hi.kept c hc
      exact ⟨g1, g2, hold _ _ _ _ g1 g3⟩
    · obtain ⟨g1, g2, g3⟩ := hbuilt.kept c hc
      exact ⟨g1, hdata0 c hc, hnew _ _ _ _ g3⟩
  · intro a b' sp e hab he
    exact hold a b' sp e hab (hi.keep a b' sp e hab he)
  · intro a b' sp e hab he
    have hs' : look s.xcorrData a b' sp = some e → look data0 a b' sp = some e ∨
        (look data0 a b' sp = none ∧ ∃ c ∈ t.calls, Answered c a b' sp e ∨ Answered c b' a sp e.neg) := by
      intro he'
      rcases hi.prov a b' sp e hab he' with h1 | ⟨h1, c, hc, h2⟩
      · exact Or.inl h1
      · exact Or.inr ⟨h1, c, by rw [htc]; exact List.mem_append_left _ hc, h2⟩
    rw [hget a b' sp hab] at he
    cases hx : look b.cache a b' sp with
    | none => rw [hx] at he; exact hs' he
    | some e' =>
      rw [hx] at he
      simp only [Option.or_some, Option.some_or, Option.some.injEq] at he
      subst he
      rcases hbuilt.prov a b' sp e' hx with h1 | ⟨h1, c, hc, h2⟩
      · exact hs' h1
      · refine Or.inr ⟨?_, c, by rw [htc]; exact List.mem_append_right _ hc, h2⟩
        cases hd : look data0 a b' sp with
        | none => rfl
        | some e => rw [hi.keep _ _ _ _ hab hd] at h1; cases h1
  · rw [hdone]; simp [hi.len]
  · intro i d cl' hd hc'
    rw [hdone] at hd
    rcases Nat.lt_or_ge i s.done.length with hlt | hge
    · rw [List.getElem?_append_left hlt] at hd
      rw [List.getElem?_append_left (by rw [← hi.len]; exact hlt)] at hc'
      obtain ⟨g1, g2, g3, g4⟩ := hi.each i d cl' hd hc'
      refine ⟨g1, ?_, g3, g4⟩
      intro a b' sp e he
      exact hold a b' sp e (g4 a b' sp (by rw [he]; rfl)).1 (g2 a b' sp e he)
    · rw [List.getElem?_append_right hge] at hd
      rw [List.getElem?_append_right (by rw [← hi.len]; exact hge)] at hc'
      have hi0 : i = s.done.length := by
        by_contra hne0
        rw [List.getElem?_eq_none (by simp; omega)] at hd; cases hd
      subst hi0
      simp only [Nat.sub_self, hi.len, List.length_cons, List.length_nil, Nat.zero_add, Nat.lt_add_one, List.getElem?_eq_getElem,
            List.getElem_cons_zero, Option.some.injEq] at hd hc'
      subst hd hc'
      refine ⟨hrel, hnew, ?_, ?_⟩
      · intro a b' sp he hw
        exact hext.all OneDir.nil a b' sp ⟨he, hw⟩
      · intro a b' sp hsome
        obtain ⟨e, he⟩ := Option.isSome_iff_exists.1 hsome
        refine ⟨hne a b' sp e he, ?_⟩
        rcases hext.only OneDir.nil a b' sp hsome with h1 | h1 | h1
        · cases h1
        · exact ⟨h1.1, Or.inl h1.2⟩
        · exact ⟨h1.1, Or.inr h1.2⟩
  · rw [hreloc]; exact k2
  · intro k
    rw [hreloc, k3, hi.events, hdone, List.findSome?_append]
    simp [List.findSome?]
    cases r.events.find? k <;> rfl
  · intro k
    rw [hreloc, k4, hi.events, hi.phases, hdone, List.find?_append]
    have hiff : (List.findSome? (fun (d : Cache × Catalog K × List (IterLog K)) => d.2.1.events.find? k) s.done).isSome =
        (s.done.find? (fun d => (d.2.1.events.find? k).isSome)).isSome := by
      rw [Bool.eq_iff_iff, List.find?_isSome, List.findSome?_isSome_iff]
    rw [hiff]
    cases hx : s.done.find? (fun d => (d.2.1.events.find? k).isSome) with
    | some d => simp
    | none =>
      simp only [Option.isSome_none, Bool.false_eq_true, if_false, Option.none_or, List.find?_cons, List.find?_nil]
      cases hr : r.events.find? k with
      | some e => simp [hr]
      | none =>
        simp only [hr, Option.isSome_none, Option.map_none, Option.getD_none]
        rw [List.eq_nil_iff_forall_not_mem]
        intro p hp
        have := hrs.phaseEvent _ (Catalog.mem_phasesOf.1 hp)
        rw [hr] at this; cases this

theorem multi_inv {m : MultiArgs K} {bg : Catalog K} (hs : bg.Sound) (hn : NoAt bg) {data0 : Cache} (ho : OneDir data0)
    (hu : Uniq data0) {clusters : List Cluster} (hc : ∀ cl ∈ clusters, GoodCluster cl ∧ NoSelf cl ∧
      28 * (cl.map (·.2.phases.length)).sum ≤ IdToIndex.uintMod) {t : MultiState K}
    (h : relocateMultiEvents m bg clusters data0 = .ok t) : MultiInv m bg data0 clusters t := by
  unfold relocateMultiEvents at h
  refine foldlM_inv _ (fun done u => MultiInv m bg data0 done u) clusters ?_ ?_ h
  · refine ⟨ho, hu, by simp, by simp, by simp, fun _ _ _ _ _ h => h, fun _ _ _ _ _ h => Or.inl h, rfl, by simp, init_sound,
      by intro k; rfl, by intro k; rfl⟩
  · intro done cl u v hcl hi hstep
    exact multiStep_inv hs hn (hc cl hcl).1 (hc cl hcl).2.1 (hc cl hcl).2.2 hi hstep

end Verif.Relocate
