import Verif.Spec.XCorrBuild
import Verif.Proofs.XCorrCache
import Verif.Proofs.Relocate

/-! Lemmas about building the cross-correlation cache. -/

set_option linter.unusedSectionVars false
set_option linter.unusedSimpArgs false

namespace Verif.XCorr
open Verif.XCorrSpec

theorem get_add_self (c : Cache) {e1 e2 : Nat} (h : e1 ≠ e2) (s p : String) (e : Entry) (a : Nat) (s' p' : String) :
    get (add c e1 e2 s p e) a a s' p' = get c a a s' p' := by
  have : at? (add c e1 e2 s p e) a s' p' a = at? c a s' p' a := by
    rw [at?_add, if_neg (by rintro ⟨_, _, h1, h2⟩; exact h (h2.symm.trans h1)),
      if_neg (by rintro ⟨_, _, h1, h2⟩; exact h (h1.symm.trans h2))]
  unfold get
  rw [this]

end Verif.XCorr

namespace Verif.Relocate
open Verif.Catalog Verif.XCorr

variable {K : Type} [Field K] [LinearOrder K]

/-- `get` with the pair of names -/
abbrev look (c : Cache) (a b : Nat) (sp : StaPhase) : Option Entry := XCorr.get c a b sp.1 sp.2

/-- what is known while the cache is built: `new` are the calls made -/
structure Built (x : XcorrArgs K) (cat : Catalog K) (pre : Cache) (n0 : Nat) (cache : Cache)
    (new : List (XcorrCall K)) : Prop where
  od : OneDir cache
  uq : Uniq cache
  self : ∀ a sp, look cache a a sp = none
  prov : ∀ a b sp e, look cache a b sp = some e → look pre a b sp = some e ∨
    (look pre a b sp = none ∧ ∃ c ∈ new, Answered c a b sp e ∨ Answered c b a sp e.neg)
  good : ∀ i c, new[i]? = some c → GoodCall x cat (n0 + i) c
  kept : ∀ c ∈ new, c.refEv.id ≠ c.ev.id ∧ look pre c.refEv.id c.ev.id (c.refPhase.stationId, c.refPhase.type) = none ∧
    look cache c.refEv.id c.ev.id (c.refPhase.stationId, c.refPhase.type) = some c.result
  once : new.Pairwise (fun c d => ¬ SamePair c d)

theorem Built.start (x : XcorrArgs K) (cat : Catalog K) (pre : Cache) (n0 : Nat) : Built x cat pre n0 [] [] :=
  ⟨OneDir.nil, Uniq.nil, by intro a sp; rfl, by intro a b sp e h; simp [XCorr.get, XCorr.at?, AMap.find?] at h, by simp, by simp, by simp⟩

/-- `t` comes from `s` by asking for the pairs `W` -/
structure Ext (x : XcorrArgs K) (cat : Catalog K) (pre : Cache) (calls0 : List (XcorrCall K))
    (W : Nat → Nat → StaPhase → Prop) (s t : BuildState K) : Prop where
  built : (∃ new, s.calls = calls0 ++ new ∧ Built x cat pre calls0.length s.cache new) →
    ∃ new, t.calls = calls0 ++ new ∧ Built x cat pre calls0.length t.cache new
  mono : OneDir s.cache → ∀ a b sp e, a ≠ b → look s.cache a b sp = some e → look t.cache a b sp = some e
  all : OneDir s.cache → ∀ a b sp, W a b sp → (look t.cache a b sp).isSome = true
  only : OneDir s.cache → ∀ a b sp, (look t.cache a b sp).isSome = true → (look s.cache a b sp).isSome = true ∨ W a b sp ∨ W b a sp
  od : OneDir s.cache → OneDir t.cache
  ne : ∀ a b sp, W a b sp → a ≠ b

theorem Ext.refl {x : XcorrArgs K} {cat : Catalog K} {pre : Cache} {calls0 : List (XcorrCall K)} (s : BuildState K) :
    Ext x cat pre calls0 (fun _ _ _ => False) s s :=
  ⟨id, fun _ _ _ _ _ _ h => h, by simp, fun _ _ _ _ h => Or.inl h, id, by simp⟩

theorem Ext.comp {x : XcorrArgs K} {cat : Catalog K} {pre : Cache} {calls0 : List (XcorrCall K)}
    {W V U : Nat → Nat → StaPhase → Prop} {s t u : BuildState K} (h1 : Ext x cat pre calls0 W s t)
    (h2 : Ext x cat pre calls0 V t u) (hU : ∀ a b sp, U a b sp ↔ W a b sp ∨ V a b sp) :
    Ext x cat pre calls0 U s u where
  built h := h2.built (h1.built h)
  mono ho a b sp e hab h := h2.mono (h1.od ho) a b sp e hab (h1.mono ho a b sp e hab h)
  all ho a b sp h := by
    rcases (hU a b sp).1 h with h | h
    · obtain ⟨e, he⟩ := Option.isSome_iff_exists.1 (h1.all ho a b sp h)
      rw [h2.mono (h1.od ho) a b sp e (h1.ne _ _ _ h) he]; rfl
    · exact h2.all (h1.od ho) a b sp h
  only ho a b sp h := by
    rcases h2.only (h1.od ho) a b sp h with h | h | h
    · rcases h1.only ho a b sp h with h | h | h
      · exact Or.inl h
      · exact Or.inr (Or.inl ((hU _ _ _).2 (Or.inl h)))
      · exact Or.inr (Or.inr ((hU _ _ _).2 (Or.inl h)))
    · exact Or.inr (Or.inl ((hU _ _ _).2 (Or.inr h)))
    · exact Or.inr (Or.inr ((hU _ _ _).2 (Or.inr h)))
  od ho := h2.od (h1.od ho)
  ne a b sp h := by
    rcases (hU a b sp).1 h with h | h
    · exact h1.ne _ _ _ h
    · exact h2.ne _ _ _ h

theorem Ext.congr {x : XcorrArgs K} {cat : Catalog K} {pre : Cache} {calls0 : List (XcorrCall K)}
    {W U : Nat → Nat → StaPhase → Prop} {s t : BuildState K} (h1 : Ext x cat pre calls0 W s t)
    (hU : ∀ a b sp, U a b sp ↔ W a b sp) : Ext x cat pre calls0 U s t := by
  have : U = W := by funext a b sp; exact propext (hU a b sp)
  rw [this]; exact h1

/-- a loop of such steps -/
theorem Ext.fold {β : Type} {x : XcorrArgs K} {cat : Catalog K} {pre : Cache} {calls0 : List (XcorrCall K)}
    (f : BuildState K → β → Outcome (BuildState K)) (W : β → Nat → Nat → StaPhase → Prop) (l : List β)
    (hstep : ∀ y ∈ l, ∀ s t, f s y = .ok t → Ext x cat pre calls0 (W y) s t) {s t : BuildState K}
    (h : l.foldlM f s = .ok t) : Ext x cat pre calls0 (fun a b sp => ∃ y ∈ l, W y a b sp) s t := by
  refine foldlM_inv f (fun done u => Ext x cat pre calls0 (fun a b sp => ∃ y ∈ done, W y a b sp) s u) l ?_ ?_ h
  · exact (Ext.refl s).congr (by simp)
  · intro done y u v hy h1 h2
    refine h1.comp (hstep y hy u v h2) ?_
    intro a b sp
    simp only [List.mem_append, List.mem_singleton]
    constructor
    · rintro ⟨z, hz | rfl, hw⟩
      · exact Or.inl ⟨z, hz, hw⟩
      · exact Or.inr hw
    · rintro (⟨z, hz, hw⟩ | hw)
      · exact ⟨z, Or.inl hz, hw⟩
      · exact ⟨y, Or.inr rfl, hw⟩

theorem look_add {c : Cache} (h : OneDir c) {e1 e2 : Nat} (hne : e1 ≠ e2) (sp : StaPhase) (e : Entry) (a b : Nat)
    (sp' : StaPhase) : look (XCorr.add c e1 e2 sp.1 sp.2 e) a b sp' =
      if sp' = sp ∧ a = e1 ∧ b = e2 then some e
      else if sp' = sp ∧ a = e2 ∧ b = e1 then some e.neg else look c a b sp' := by
  by_cases hab : a = b
  · subst hab
    unfold look
    rw [XCorr.get_add_self c hne, if_neg (by rintro ⟨_, h1, h2⟩; exact hne (h1.symm.trans h2)),
      if_neg (by rintro ⟨_, h1, h2⟩; exact hne (h2.symm.trans h1))]
  · unfold look
    rw [XCorr.get_add h e1 e2 sp.1 sp.2 e hab]
    unfold XCorrSpec.View.record
    obtain ⟨x1, x2⟩ := sp
    obtain ⟨y1, y2⟩ := sp'
    simp only [Prod.mk.injEq]
    by_cases h1 : y1 = x1 ∧ y2 = x2
    · simp only [h1, and_self, true_and, if_true]; rfl
    · simp only [h1, if_false, false_and]

/-- asking for one pick pair -/
theorem request_ext {x : XcorrArgs K} {cat : Catalog K} {pre : Cache} {calls0 : List (XcorrCall K)}
    (hpre : OneDir pre) {refEv ev : Event K} {rp p : Phase K} {s t : BuildState K}
    (hr : cat.events.find? refEv.id = some refEv) (he : cat.events.find? ev.id = some ev)
    (hrp : rp ∈ cat.phasesOf refEv.id) (hp : IsPick cat ev.id (rp.stationId, rp.type) p)
    (hsrc : p.source = Source.catalog) (hne : refEv.id ≠ ev.id) (h : request x pre refEv rp ev p s = .ok t) :
    Ext x cat pre calls0 (fun a b sp => a = refEv.id ∧ b = ev.id ∧ sp = (rp.stationId, rp.type)) s t := by
  unfold request at h
  by_cases hh : XCorr.has s.cache refEv.id ev.id rp.stationId rp.type = true
  · rw [if_pos hh] at h
    injection h with h; subst h
    refine ⟨id, fun _ _ _ _ _ _ h => h, ?_, fun _ _ _ _ h => Or.inl h, id, ?_⟩
    · rintro _ a b sp ⟨rfl, rfl, rfl⟩; exact hh
    · rintro a b sp ⟨rfl, rfl, rfl⟩; exact hne
  · rw [if_neg hh] at h
    have hnone : look s.cache refEv.id ev.id (rp.stationId, rp.type) = none := by
      simpa [XCorr.has] using hh
    -- what the new entry changes
    have add : ∀ (e : Entry), t.cache = XCorr.add s.cache refEv.id ev.id rp.stationId rp.type e →
        OneDir s.cache →
        (∀ a b sp, look t.cache a b sp = if sp = (rp.stationId, rp.type) ∧ a = refEv.id ∧ b = ev.id then some e
          else if sp = (rp.stationId, rp.type) ∧ a = ev.id ∧ b = refEv.id then some e.neg else look s.cache a b sp) := by
      intro e ht ho a b sp
      rw [ht]; exact look_add ho hne (rp.stationId, rp.type) e a b sp
    have rest : ∀ (e : Entry), t.cache = XCorr.add s.cache refEv.id ev.id rp.stationId rp.type e →
        ((∃ new, s.calls = calls0 ++ new ∧ Built x cat pre calls0.length s.cache new) →
          ∃ new, t.calls = calls0 ++ new ∧ Built x cat pre calls0.length t.cache new) →
        Ext x cat pre calls0 (fun a b sp => a = refEv.id ∧ b = ev.id ∧ sp = (rp.stationId, rp.type)) s t := by
      intro e ht hb
      refine ⟨hb, ?_, ?_, ?_, ?_, ?_⟩
      · intro ho a b sp e' hab hl
        rw [add e ht ho]
        rw [if_neg, if_neg, hl]
        · rintro ⟨rfl, rfl, rfl⟩
          have := XCorr.get_symm ho refEv.id ev.id rp.stationId rp.type
          unfold look at hl hnone
          rw [hnone] at this
          simp only at hl
          rw [this] at hl; cases hl
        · rintro ⟨rfl, rfl, rfl⟩; rw [hnone] at hl; cases hl
      · rintro ho a b sp ⟨rfl, rfl, rfl⟩
        rw [add e ht ho, if_pos ⟨rfl, rfl, rfl⟩]; rfl
      · intro ho a b sp hl
        rw [add e ht ho] at hl
        split at hl
        · rename_i h1; exact Or.inr (Or.inl ⟨h1.2.1, h1.2.2, h1.1⟩)
        · split at hl
          · rename_i h1; exact Or.inr (Or.inr ⟨h1.2.2, h1.2.1, h1.1⟩)
          · exact Or.inl hl
      · intro ho; rw [ht]; exact ho.add _ _ _ _ _
      · rintro a b sp ⟨rfl, rfl, rfl⟩; exact hne
    cases hg : XCorr.get pre refEv.id ev.id rp.stationId rp.type with
    | some e =>
      rw [hg] at h
      injection h with h
      have ht : t.cache = XCorr.add s.cache refEv.id ev.id rp.stationId rp.type e := by rw [← h]
      refine rest e ht ?_
      rintro ⟨new, hc, hb⟩
      refine ⟨new, by rw [← h]; exact hc, ?_⟩
      have hadd := add e ht hb.od
      refine ⟨by rw [ht]; exact hb.od.add _ _ _ _ _, by rw [ht]; exact hb.uq.add _ _ _ _ _, ?_, ?_, hb.good, ?_, hb.once⟩
      · intro a sp
        rw [hadd, if_neg (by rintro ⟨_, h1, h2⟩; exact hne (h1.symm.trans h2)),
          if_neg (by rintro ⟨_, h1, h2⟩; exact hne (h2.symm.trans h1))]
        exact hb.self a sp
      · intro a b sp e' hl
        rw [hadd] at hl
        split at hl
        · rename_i h1
          obtain ⟨rfl, rfl, rfl⟩ := h1
          injection hl with hl; subst hl
          exact Or.inl hg
        · split at hl
          · rename_i h1
            obtain ⟨rfl, rfl, rfl⟩ := h1
            injection hl with hl; subst hl
            left
            have := XCorr.get_symm hpre refEv.id ev.id rp.stationId rp.type
            rw [hg] at this
            exact this
          · exact hb.prov a b sp e' hl
      · intro c hc
        obtain ⟨k1, k2, k3⟩ := hb.kept c hc
        refine ⟨k1, k2, ?_⟩
        rw [hadd, if_neg, if_neg, k3]
        · rintro ⟨h1, h2, h3⟩
          rw [h1, h2, h3] at k3
          have := XCorr.get_symm hb.od refEv.id ev.id rp.stationId rp.type
          unfold look at k3 hnone
          rw [hnone] at this
          simp only at k3
          rw [this] at k3; cases k3
        · rintro ⟨h1, h2, h3⟩; rw [h1, h2, h3, hnone] at k3; cases k3
    | none =>
      rw [hg] at h
      simp only at h
      rw [Outcome.bind_eq_ok] at h
      obtain ⟨e, hcorr, h⟩ := h
      injection h with h
      have ht : t.cache = XCorr.add s.cache refEv.id ev.id rp.stationId rp.type e := by rw [← h]
      refine rest e ht ?_
      rintro ⟨new, hc, hb⟩
      refine ⟨new ++ [⟨refEv, rp, ev, p, e⟩], by rw [← h, hc, List.append_assoc], ?_⟩
      have hadd := add e ht hb.od
      have hnone' : look s.cache ev.id refEv.id (rp.stationId, rp.type) = none := by
        have := XCorr.get_symm hb.od refEv.id ev.id rp.stationId rp.type
        unfold look at hnone ⊢
        rw [hnone] at this
        exact this
      refine ⟨by rw [ht]; exact hb.od.add _ _ _ _ _, by rw [ht]; exact hb.uq.add _ _ _ _ _, ?_, ?_, ?_, ?_, ?_⟩
      · intro a sp
        rw [hadd, if_neg (by rintro ⟨_, h1, h2⟩; exact hne (h1.symm.trans h2)),
          if_neg (by rintro ⟨_, h1, h2⟩; exact hne (h2.symm.trans h1))]
        exact hb.self a sp
      · intro a b sp e' hl
        rw [hadd] at hl
        split at hl
        · rename_i h1
          obtain ⟨rfl, rfl, rfl⟩ := h1
          injection hl with hl; subst hl
          exact Or.inr ⟨hg, _, List.mem_append_right _ (List.mem_singleton.2 rfl), Or.inl ⟨rfl, rfl, rfl, rfl⟩⟩
        · split at hl
          · rename_i h1
            obtain ⟨rfl, rfl, rfl⟩ := h1
            injection hl with hl; subst hl
            refine Or.inr ⟨?_, _, List.mem_append_right _ (List.mem_singleton.2 rfl), Or.inr ⟨rfl, rfl, rfl, ?_⟩⟩
            · have := XCorr.get_symm hpre refEv.id ev.id rp.stationId rp.type
              rw [hg] at this; exact this
            · rw [Entry.neg_neg]
          · rcases hb.prov a b sp e' hl with h1 | ⟨h1, c, hc, h2⟩
            · exact Or.inl h1
            · exact Or.inr ⟨h1, c, List.mem_append_left _ hc, h2⟩
      · intro i c hi
        rcases Nat.lt_or_ge i new.length with hlt | hge
        · rw [List.getElem?_append_left hlt] at hi
          exact hb.good i c hi
        · rw [List.getElem?_append_right hge] at hi
          have hi0 : i - new.length = 0 := by
            by_contra hne0
            rw [List.getElem?_eq_none (by simp; omega)] at hi; cases hi
          rw [hi0] at hi
          simp only [List.length_cons, List.length_nil, Nat.zero_add, Nat.lt_add_one, List.getElem?_eq_getElem,
            List.getElem_cons_zero, Option.some.injEq] at hi
          subst hi
          have hlen : calls0.length + i = s.calls.length := by rw [hc, List.length_append]; omega
          exact ⟨hr, he, hrp, hp, hsrc, by rw [hlen]; exact hcorr⟩
      · intro c hc'
        rcases List.mem_append.1 hc' with hc' | hc'
        · obtain ⟨k1, k2, k3⟩ := hb.kept c hc'
          refine ⟨k1, k2, ?_⟩
          rw [hadd, if_neg, if_neg, k3]
          · rintro ⟨h1, h2, h3⟩; rw [h1, h2, h3, hnone'] at k3; cases k3
          · rintro ⟨h1, h2, h3⟩; rw [h1, h2, h3, hnone] at k3; cases k3
        · rw [List.mem_singleton.1 hc']
          exact ⟨hne, hg, by rw [hadd, if_pos ⟨rfl, rfl, rfl⟩]⟩
      · rw [List.pairwise_append]
        refine ⟨hb.once, by simp, ?_⟩
        intro c hc' d hd hsame
        rw [List.mem_singleton.1 hd] at hsame
        obtain ⟨k1, k2, k3⟩ := hb.kept c hc'
        obtain ⟨hid, hs1, hs2⟩ := hsame
        simp only at hid hs1 hs2
        rw [hs1, hs2] at k3
        rcases hid with ⟨h1, h2⟩ | ⟨h1, h2⟩
        · rw [h1, h2, hnone] at k3; cases k3
        · rw [h1, h2, hnone'] at k3; cases k3

/-- asking for one neighbour -/
theorem pairStep_ext {x : XcorrArgs K} {cat : Catalog K} (hs : cat.Sound) {pre : Cache} {calls0 : List (XcorrCall K)}
    (hpre : OneDir pre) {nb : Neighbours} (hself : nb.refId ∉ nb.ids) {refEv : Event K}
    (hr : cat.events.find? nb.refId = some refEv) {rp : Phase K} (hrp : rp ∈ cat.phasesOf refEv.id) {n : Nat}
    (hn : n ∈ nb.ids) {s t : BuildState K} (h : pairStep x cat pre nb refEv rp s n = .ok t) :
    Ext x cat pre calls0 (fun a b sp => a = nb.refId ∧ b = n ∧ sp = (rp.stationId, rp.type) ∧
      (∃ eb, cat.events.find? n = some eb ∧ WithinLimit (x.evEv refEv eb) x.maxInterEvDist) ∧
      nb.hasPhase n (rp.stationId, rp.type) = true) s t := by
  have hrid := (hs.eventKey _ _ hr).1
  unfold pairStep at h
  cases he : cat.events.find? n with
  | none => rw [he] at h; cases h
  | some ev =>
    rw [he] at h
    simp only at h
    have hid := (hs.eventKey _ _ he).1
    have hlim : WithinLimit (x.evEv refEv ev) x.maxInterEvDist ↔
        ¬ (x.maxInterEvDist < x.evEv refEv ev ∧ 0 ≤ x.maxInterEvDist) := by
      unfold WithinLimit; rw [not_and_or, not_lt, not_le]
    by_cases hfar : x.maxInterEvDist < x.evEv refEv ev ∧ 0 ≤ x.maxInterEvDist
    · rw [if_pos hfar] at h
      injection h with h; subst h
      refine (Ext.refl s).congr ?_
      intro a b sp
      simp only [iff_false]
      rintro ⟨_, _, _, ⟨eb, h1, h2⟩, _⟩
      injection h1 with h1; subst h1
      exact hlim.1 h2 hfar
    · rw [if_neg hfar] at h
      by_cases hph : nb.hasPhase n (rp.stationId, rp.type) = true
      · rw [if_pos hph] at h
        cases hsp : searchPhase cat ev.id (rp.stationId, rp.type) with
        | none => rw [hsp] at h; cases h
        | some p =>
          rw [hsp] at h
          simp only at h
          by_cases hsrc : p.source = Source.catalog
          · rw [if_neg (by simp [hsrc])] at h
            have hne : refEv.id ≠ ev.id := by
              rw [hrid, hid]; rintro rfl; exact hself hn
            refine (request_ext (calls0 := calls0) hpre (by rw [hrid]; exact hr) (by rw [hid]; exact he) hrp
              (searchPhase_pick hsp) hsrc hne h).congr ?_
            intro a b sp
            rw [hrid, hid]
            constructor
            · rintro ⟨h1, h2, h3, _⟩; exact ⟨h1, h2, h3⟩
            · rintro ⟨h1, h2, h3⟩; exact ⟨h1, h2, h3, ⟨ev, rfl, hlim.2 hfar⟩, hph⟩
          · rw [if_pos hsrc] at h; cases h
      · rw [if_neg hph] at h
        injection h with h; subst h
        refine (Ext.refl s).congr ?_
        intro a b sp
        simp only [iff_false]
        rintro ⟨_, _, _, _, h2⟩
        exact hph h2

/-- asking for one event of the cluster -/
theorem clusterStep_ext {x : XcorrArgs K} {cat : Catalog K} (hs : cat.Sound) {pre : Cache} {calls0 : List (XcorrCall K)}
    (hpre : OneDir pre) {kv : Nat × Neighbours} (hself : kv.2.refId ∉ kv.2.ids) {s t : BuildState K}
    (h : clusterStep x cat pre s kv = .ok t) :
    Ext x cat pre calls0 (Wanted x cat [kv]) s t := by
  unfold clusterStep at h
  cases hr : cat.events.find? kv.2.refId with
  | none => rw [hr] at h; cases h
  | some refEv =>
    rw [hr] at h
    simp only at h
    have hrid := (hs.eventKey _ _ hr).1
    refine (Ext.fold (calls0 := calls0) _ (fun (rp : Phase K) a b sp => a = kv.2.refId ∧ sp = (rp.stationId, rp.type) ∧
      (∃ st, cat.stations.find? rp.stationId = some st ∧ x.minEvStaDist ≤ x.evSta refEv st ∧
        WithinLimit (x.evSta refEv st) x.maxEvStaDist) ∧ b ∈ kv.2.ids ∧
      (∃ eb, cat.events.find? b = some eb ∧ WithinLimit (x.evEv refEv eb) x.maxInterEvDist) ∧
      kv.2.hasPhase b (rp.stationId, rp.type) = true) _ ?_ h).congr ?_
    · intro rp hrp s1 s2 hstep
      unfold refPhaseStep at hstep
      cases hst : cat.stations.find? rp.stationId with
      | none => rw [hst] at hstep; cases hstep
      | some st =>
        rw [hst] at hstep
        simp only at hstep
        by_cases h1 : x.evSta refEv st < x.minEvStaDist
        · rw [if_pos h1] at hstep
          injection hstep with hstep; subst hstep
          refine (Ext.refl s1).congr ?_
          intro a b sp
          simp only [iff_false]
          rintro ⟨_, _, ⟨st', h2, h3, _⟩, _⟩
          injection h2 with h2; subst h2
          exact absurd h1 (not_lt.2 h3)
        · rw [if_neg h1] at hstep
          by_cases h2 : x.maxEvStaDist < x.evSta refEv st ∧ 0 ≤ x.maxEvStaDist
          · rw [if_pos h2] at hstep
            injection hstep with hstep; subst hstep
            refine (Ext.refl s1).congr ?_
            intro a b sp
            simp only [iff_false]
            rintro ⟨_, _, ⟨st', h3, _, h4⟩, _⟩
            injection h3 with h3; subst h3
            rcases h4 with h4 | h4
            · exact absurd h2.1 (not_lt.2 h4)
            · exact absurd h2.2 (not_le.2 h4)
          · rw [if_neg h2] at hstep
            refine (Ext.fold (calls0 := calls0) _ _ _ (fun n hn u v huv =>
              pairStep_ext (calls0 := calls0) hs hpre hself hr hrp hn huv) hstep).congr ?_
            intro a b sp
            constructor
            · rintro ⟨h3, h4, h5, h6, h7, h8⟩
              exact ⟨b, h6, h3, rfl, h4, h7, h8⟩
            · rintro ⟨n, h3, h4, rfl, h5, h6, h7⟩
              refine ⟨h4, h5, ⟨st, rfl, not_lt.1 h1, ?_⟩, h3, h6, h7⟩
              unfold WithinLimit
              rw [not_and_or, not_lt, not_le] at h2
              exact h2
    · intro a b sp
      unfold Wanted
      simp only [List.mem_singleton, exists_eq_left]
      constructor
      · rintro ⟨rfl, ea, eb, st, h1, h2, h3, ⟨p, hp1, hp2, hp3⟩, h4, h5, h6, h7, h8⟩
        rw [hr] at h1; injection h1 with h1; subst h1
        obtain ⟨s1, s2⟩ := sp
        simp only at hp2 hp3 h3
        subst hp2 hp3
        exact ⟨p, by rw [hrid]; exact hp1, rfl, rfl, ⟨st, h3, h4, h5⟩, h7, ⟨eb, h2, h6⟩, decide_eq_true h8⟩
      · rintro ⟨p, hp, rfl, rfl, ⟨st, h1, h2, h3⟩, h4, ⟨eb, h5, h6⟩, h7⟩
        exact ⟨rfl, refEv, eb, st, hr, h5, h1, ⟨p, by rw [← hrid]; exact hp, rfl, rfl⟩, h2, h3, h6, h4, of_decide_eq_true h7⟩

/-- the whole cluster -/
theorem build_ext {x : XcorrArgs K} {cat : Catalog K} (hs : cat.Sound) {pre : Cache} {calls0 : List (XcorrCall K)}
    (hpre : OneDir pre) {cluster : Cluster} (hself : NoSelf cluster) {t : BuildState K}
    (h : buildXCorrCache x cat cluster pre calls0 = .ok t) :
    Ext x cat pre calls0 (fun a b sp => x.enable = true ∧ Wanted x cat cluster a b sp) ⟨[], calls0⟩ t := by
  unfold buildXCorrCache at h
  by_cases hen : x.enable = true
  · rw [if_pos hen] at h
    refine (Ext.fold (calls0 := calls0) _ _ _ (fun kv hkv u v huv =>
      clusterStep_ext (calls0 := calls0) hs hpre (hself kv hkv) huv) h).congr ?_
    intro a b sp
    simp only [hen, true_and]
    unfold Wanted
    simp only [List.mem_singleton, exists_eq_left]
  · rw [if_neg hen] at h
    injection h with h; subst h
    exact (Ext.refl _).congr (by simp [hen])

end Verif.Relocate
