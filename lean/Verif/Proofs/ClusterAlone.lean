import Verif.Proofs.ClusterAlike
import Verif.Props.XCorrBuild

/-!
# Auxiliary lemmas for C99: a cluster is relocated alone as it is with the others
-/

set_option linter.unusedSimpArgs false

namespace Verif.Relocate
open Verif.Catalog Verif.XCorr

variable {K : Type} [Field K] [LinearOrder K]

/-- the same results of pairs of the cluster -/
def Agree (l : Cluster) (pre pre' : Cache) : Prop :=
  ∀ kv ∈ l, ∀ b ∈ kv.2.ids, ∀ s p, XCorr.get pre kv.2.refId b s p = XCorr.get pre' kv.2.refId b s p

/-- the same results, and the same correlations after those done before -/
def SameNew (c c' : List (XcorrCall K)) (s t : BuildState K) : Prop :=
  s.cache = t.cache ∧ ∃ new, s.calls = c ++ new ∧ t.calls = c' ++ new

theorem pairStep_local {x : XcorrArgs K} (hx : Steady x) {cat : Catalog K} (hs : cat.Sound) {pre pre' : Cache} (nb : Neighbours)
    (refEv : Event K) (rp : Phase K) {n : Nat} (hg : ∀ s p, XCorr.get pre refEv.id n s p = XCorr.get pre' refEv.id n s p)
    {c c' : List (XcorrCall K)} {s s' t : BuildState K} (h : SameNew c c' s s') (ht : pairStep x cat pre nb refEv rp s n = .ok t) :
    ∃ t', pairStep x cat pre' nb refEv rp s' n = .ok t' ∧ SameNew c c' t t' := by
  have he : pairStep x cat pre' nb refEv rp s' n = pairStep x cat pre nb refEv rp s' n := by
    unfold pairStep request
    cases hf : cat.events.find? n with
    | none => rfl
    | some ev =>
      have hid := (hs.eventKey _ _ hf).1
      simp only [hid, hg]
  rw [he]
  obtain ⟨h1, new, h2, h3⟩ := h
  rcases pairStep_form hx hs pre nb refEv rp n with hf | hf | ⟨v, hf⟩
  · rw [hf] at ht; cases ht
    exact ⟨s', hf s', h1, new, h2, h3⟩
  · exact absurd ht (hf s t)
  · rw [hf] at ht ⊢
    unfold lookStep at *
    rw [← h1]
    split at ht
    · rename_i hh
      cases ht
      rw [if_pos hh]
      exact ⟨s', rfl, h1, new, h2, h3⟩
    · rename_i hh
      rw [if_neg hh]
      cases v with
      | throws => cases ht
      | ub => cases ht
      | ok ec =>
        cases ht
        exact ⟨_, rfl, rfl, new ++ ec.2, by rw [h2, List.append_assoc], by rw [h3, List.append_assoc]⟩

theorem build_local {x : XcorrArgs K} (hx : Steady x) {cat : Catalog K} (hs : cat.Sound) {l : Cluster} {pre pre' : Cache}
    (hg : Agree l pre pre') (c c' : List (XcorrCall K)) {t : BuildState K} (ht : buildXCorrCache x cat l pre c = .ok t) :
    ∃ t', buildXCorrCache x cat l pre' c' = .ok t' ∧ SameNew c c' t t' := by
  unfold buildXCorrCache at *
  split at ht
  · rename_i he
    rw [if_pos he]
    have hl : List.Forall₂ (fun kv kv' => kv = kv' ∧ kv ∈ l) l l :=
      List.forall₂_same.2 (fun kv hkv => ⟨rfl, hkv⟩)
    refine foldlM_related₂ (R := SameNew c c') ?_ hl ⟨[], c⟩ ⟨[], c'⟩ t ⟨rfl, [], by simp, by simp⟩ ht
    rintro kv _ ⟨rfl, hkv⟩ s s' t h ht
    unfold clusterStep at *
    split at ht
    · cases ht
    · rename_i refEv hev
      have hid := (hs.eventKey _ _ hev).1
      refine foldlM_related₂ (R := SameNew c c') (Q := Eq) ?_ (List.forall₂_refl _) s s' t h ht
      rintro rp _ rfl s s' t h ht
      unfold refPhaseStep at *
      split at ht
      · cases ht
      · split at ht
        · rename_i h1
          cases ht
          rw [if_pos h1]
          exact ⟨s', rfl, h⟩
        · rename_i h1
          rw [if_neg h1]
          split at ht
          · rename_i h2
            cases ht
            rw [if_pos h2]
            exact ⟨s', rfl, h⟩
          · rename_i h2
            rw [if_neg h2]
            have hl : List.Forall₂ (fun n n' => n = n' ∧ n ∈ kv.2.ids) kv.2.ids kv.2.ids :=
              List.forall₂_same.2 (fun n hn => ⟨rfl, hn⟩)
            refine foldlM_related₂ (R := SameNew c c') ?_ hl s s' t h ht
            rintro n _ ⟨rfl, hn⟩ s s' t h ht
            exact pairStep_local hx hs kv.2 refEv rp (fun s p => by rw [hid]; exact hg kv hkv n hn s p) h ht
  · rename_i he
    rw [if_neg he]
    cases ht
    exact ⟨_, rfl, rfl, [], by simp, by simp⟩

/-- what comes out if only this cluster is relocated -/
def Alone (m : MultiArgs K) (bg : Catalog K) (data : Cache) (cl : Cluster) (d : Cache × Catalog K × List (IterLog K)) : Prop :=
  ∃ b, buildXCorrCache m.x bg cl data [] = .ok b ∧ d.1 = b.cache ∧ relocate (m.toArgs 0 cl b.cache) bg = .ok d.2

/-- neighbours are events of the same cluster -/
def InsideOf (cl : Cluster) : Prop := ∀ kv ∈ cl, ∀ b ∈ kv.2.ids, b ∈ cl.map (·.1)

def Apart (cl cl' : Cluster) : Prop := ∀ k ∈ cl.map (·.1), k ∉ cl'.map (·.1)

theorem toArgs_steady {m : MultiArgs K} (hsol : ∀ i j, m.sol i = m.sol j) (i j : Nat) (cl : Cluster) (c : Cache) :
    m.toArgs i cl c = m.toArgs j cl c := by
  unfold MultiArgs.toArgs
  rw [hsol i j]

theorem multiStep_forward {m : MultiArgs K} (hx : Steady m.x) (hsol : ∀ i j, m.sol i = m.sol j) {bg : Catalog K} (hs : bg.Sound)
    {data : Cache} {cl : Cluster} {s t : MultiState K} (hg : Agree cl s.xcorrData data) (h : multiStep m bg s cl = .ok t) :
    ∃ d, Alone m bg data cl d ∧ t.done = s.done ++ [d] := by
  unfold multiStep at h
  obtain ⟨b, hb, h⟩ := Outcome.bind_eq_ok.1 h
  obtain ⟨⟨r, log⟩, hrel, h⟩ := Outcome.bind_eq_ok.1 h
  obtain ⟨b', k1, k2, -⟩ := build_local hx hs hg s.calls [] hb
  refine ⟨(b.cache, r, log), ⟨b', k1, k2, ?_⟩, ?_⟩
  · rw [← k2, toArgs_steady hsol 0 s.done.length]; exact hrel
  · simp only at h
    split at h
    · cases h; rfl
    · cases h
    · cases h

theorem Agree.symm {cl : Cluster} {pre pre' : Cache} (h : Agree cl pre pre') : Agree cl pre' pre :=
  fun kv hkv b hb s p => (h kv hkv b hb s p).symm

theorem multiStep_back {m : MultiArgs K} (hx : Steady m.x) (hsol : ∀ i j, m.sol i = m.sol j) {bg : Catalog K} (hs : bg.Sound)
    (hn : NoAt bg) {data : Cache} {cl : Cluster} (hcl : GoodCluster cl)
    (hfit : 28 * (cl.map (·.2.phases.length)).sum ≤ IdToIndex.uintMod) {s : MultiState K} (hg : Agree cl s.xcorrData data)
    (hr : s.reloc.Sound) {d : Cache × Catalog K × List (IterLog K)} (h : Alone m bg data cl d) :
    ∃ t, multiStep m bg s cl = .ok t ∧ t.done = s.done ++ [d] ∧ t.reloc.Sound := by
  obtain ⟨b, h1, h2, h3⟩ := h
  obtain ⟨xc, r, log⟩ := d
  obtain ⟨b', k1, k2, -⟩ := build_local hx hs hg.symm [] s.calls h1
  have hga : GoodArgs (m.toArgs 0 cl b.cache) := ⟨hcl, hfit⟩
  obtain ⟨_, _, _, hrs, _⟩ := relocate_summary hga hs hn h3
  obtain ⟨rc, q1, q2, _⟩ := Catalog.catalog_merge_keep_ids hr hrs.placed
  refine ⟨⟨rc, XCorr.merge s.xcorrData b'.cache, b'.calls, s.done ++ [(b'.cache, r, log)]⟩, ?_, ?_, q2⟩
  · unfold multiStep
    rw [k1]
    simp only [Outcome.bind_ok]
    rw [toArgs_steady hsol s.done.length 0, ← k2, h3]
    simp only [Outcome.bind_ok]
    rw [q1]
  · simp only
    rw [← k2]
    simp only at h2
    rw [h2]

theorem multiStep_data {m : MultiArgs K} {bg : Catalog K} (hs : bg.Sound) {cl : Cluster} (hcl : GoodCluster cl) (hself : NoSelf cl)
    {s t : MultiState K} (ho : OneDir s.xcorrData) (hu : Uniq s.xcorrData) (h : multiStep m bg s cl = .ok t) :
    OneDir t.xcorrData ∧ Uniq t.xcorrData ∧
    ∀ cl', GoodCluster cl' → NoSelf cl' → InsideOf cl' → Apart cl cl' → Agree cl' t.xcorrData s.xcorrData := by
  unfold multiStep at h
  obtain ⟨b, hb, h⟩ := Outcome.bind_eq_ok.1 h
  obtain ⟨⟨r, log⟩, hrel, h⟩ := Outcome.bind_eq_ok.1 h
  have hext := build_ext hs ho hself hb
  obtain ⟨_, _, hbuilt⟩ := hext.built ⟨[], by simp, Built.start _ _ _ _⟩
  have ht : t.xcorrData = XCorr.merge s.xcorrData b.cache := by
    simp only at h
    split at h
    · cases h; rfl
    · cases h
    · cases h
  rw [ht]
  refine ⟨(merge_inv ho hu).1, (merge_inv ho hu).2, ?_⟩
  intro cl' hcl' hself' hin hap kv hkv n hn st p
  have hne : kv.2.refId ≠ n := by rintro rfl; exact hself' kv hkv hn
  rw [XCorr.get_merge ho hu hbuilt.od hbuilt.uq hne]
  unfold XCorrSpec.View.overlay
  simp only
  cases hc : XCorr.get b.cache kv.2.refId n st p with
  | none => rfl
  | some e =>
    exfalso
    have hk : kv.2.refId ∈ cl'.map (·.1) := by
      rw [hcl'.key kv hkv]; exact List.mem_map_of_mem hkv
    have hk' : n ∈ cl'.map (·.1) := hin kv hkv n hn
    have hw : ∀ a c, Wanted m.x bg cl a c (st, p) → a ∈ cl.map (·.1) := by
      rintro a c ⟨kv', hkv', rfl, -⟩
      rw [hcl.key kv' hkv']
      exact List.mem_map_of_mem hkv'
    rcases hext.only OneDir.nil kv.2.refId n (st, p) (by unfold look; simp only; rw [hc]; rfl) with h1 | h1 | h1
    · cases h1
    · exact hap _ (hw _ _ h1.2) hk
    · exact hap _ (hw _ _ h1.2) hk'

/-- conditions on the clusters -/
structure Separate (cls : List Cluster) : Prop where
  good : ∀ cl ∈ cls, GoodCluster cl ∧ NoSelf cl ∧ 28 * (cl.map (·.2.phases.length)).sum ≤ IdToIndex.uintMod
  inside : ∀ cl ∈ cls, InsideOf cl
  apart : cls.Pairwise Apart

theorem agree_trans {cl : Cluster} {a b c : Cache} (h : Agree cl a b) (h' : Agree cl b c) : Agree cl a c :=
  fun kv hkv n hn s p => (h kv hkv n hn s p).trans (h' kv hkv n hn s p)

theorem run_forward {m : MultiArgs K} (hx : Steady m.x) (hsol : ∀ i j, m.sol i = m.sol j) {bg : Catalog K} (hs : bg.Sound)
    {data : Cache} : ∀ {cls : List Cluster}, Separate cls → ∀ {s t : MultiState K}, OneDir s.xcorrData → Uniq s.xcorrData →
      (∀ cl ∈ cls, Agree cl s.xcorrData data) → cls.foldlM (multiStep m bg) s = .ok t →
      ∃ ds, List.Forall₂ (Alone m bg data) cls ds ∧ t.done = s.done ++ ds
  | [], _, s, t, _, _, _, h => by
    cases h
    exact ⟨[], .nil, by simp⟩
  | cl :: cls, hsep, s, t, ho, hu, hag, h => by
    rw [List.foldlM_cons] at h
    obtain ⟨u, h1, h2⟩ := Outcome.bind_eq_ok.1 h
    obtain ⟨d, h3, h4⟩ := multiStep_forward hx hsol hs (hag cl (by simp)) h1
    obtain ⟨h5, h6, h7⟩ := multiStep_data hs (hsep.good cl (by simp)).1 (hsep.good cl (by simp)).2.1 ho hu h1
    have hap := List.pairwise_cons.1 hsep.apart
    obtain ⟨ds, h8, h9⟩ := run_forward hx hsol hs
      ⟨fun c hc => hsep.good c (by simp [hc]), fun c hc => hsep.inside c (by simp [hc]), hap.2⟩ h5 h6
      (fun c hc => agree_trans (h7 c (hsep.good c (by simp [hc])).1 (hsep.good c (by simp [hc])).2.1 (hsep.inside c (by simp [hc]))
        (hap.1 c hc)) (hag c (by simp [hc]))) h2
    exact ⟨d :: ds, .cons h3 h8, by rw [h9, h4, List.append_assoc]; rfl⟩

theorem run_back {m : MultiArgs K} (hx : Steady m.x) (hsol : ∀ i j, m.sol i = m.sol j) {bg : Catalog K} (hs : bg.Sound) (hn : NoAt bg)
    {data : Cache} : ∀ {cls : List Cluster}, Separate cls → ∀ {s : MultiState K}, OneDir s.xcorrData → Uniq s.xcorrData → s.reloc.Sound →
      (∀ cl ∈ cls, Agree cl s.xcorrData data) → ∀ {ds}, List.Forall₂ (Alone m bg data) cls ds →
      ∃ t, cls.foldlM (multiStep m bg) s = .ok t ∧ t.done = s.done ++ ds
  | [], _, s, _, _, _, _, [], .nil => ⟨s, rfl, by simp⟩
  | cl :: cls, hsep, s, ho, hu, hr, hag, d :: ds, .cons h1 h2 => by
    obtain ⟨u, h3, h4, h5⟩ := multiStep_back hx hsol hs hn (hsep.good cl (by simp)).1 (hsep.good cl (by simp)).2.2 (hag cl (by simp)) hr h1
    obtain ⟨h6, h7, h8⟩ := multiStep_data hs (hsep.good cl (by simp)).1 (hsep.good cl (by simp)).2.1 ho hu h3
    have hap := List.pairwise_cons.1 hsep.apart
    obtain ⟨t, h9, h10⟩ := run_back hx hsol hs hn
      ⟨fun c hc => hsep.good c (by simp [hc]), fun c hc => hsep.inside c (by simp [hc]), hap.2⟩ h6 h7 h5
      (fun c hc => agree_trans (h8 c (hsep.good c (by simp [hc])).1 (hsep.good c (by simp [hc])).2.1 (hsep.inside c (by simp [hc]))
        (hap.1 c hc)) (hag c (by simp [hc]))) h2
    refine ⟨t, ?_, by rw [h10, h4, List.append_assoc]; rfl⟩
    rw [List.foldlM_cons, h3]
    exact h9

end Verif.Relocate
