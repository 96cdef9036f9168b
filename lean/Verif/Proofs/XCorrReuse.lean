import Verif.Proofs.ClusterAlone
import Verif.Props.XCorrCache

/-!
# Auxiliary lemmas for C100: the results of the correlations of a run
-/

set_option linter.unusedSimpArgs false

namespace Verif.Relocate
open Verif.Catalog Verif.XCorr

variable {K : Type} [Field K] [LinearOrder K]

theorem foldlM_keep {σ β : Type} {P : σ → Prop} {f : σ → β → Outcome σ} (h : ∀ s x t, P s → f s x = .ok t → P t) :
    ∀ {l : List β} {s t : σ}, P s → l.foldlM f s = .ok t → P t
  | [], s, t, hs, ht => by cases ht; exact hs
  | x :: l, s, t, hs, ht => by
    rw [List.foldlM_cons] at ht
    obtain ⟨u, h1, h2⟩ := Outcome.bind_eq_ok.1 ht
    exact foldlM_keep h (h s x u hs h1) h2

theorem build_history {x : XcorrArgs K} {cat : Catalog K} {l : Cluster} {pre : Cache} {calls : List (XcorrCall K)} {t : BuildState K}
    (ht : buildXCorrCache x cat l pre calls = .ok t) : ∃ f, History t.cache f := by
  unfold buildXCorrCache at ht
  split at ht
  · refine foldlM_keep (P := fun s : BuildState K => ∃ f, History s.cache f) ?_ (s := ⟨[], calls⟩) ⟨_, History.new⟩ ht
    intro s kv t hs ht
    unfold clusterStep at ht
    split at ht
    · cases ht
    · refine foldlM_keep (P := fun s : BuildState K => ∃ f, History s.cache f) ?_ hs ht
      intro s rp t hs ht
      unfold refPhaseStep at ht
      split at ht
      · cases ht
      · split at ht
        · cases ht; exact hs
        · split at ht
          · cases ht; exact hs
          · refine foldlM_keep (P := fun s : BuildState K => ∃ f, History s.cache f) ?_ hs ht
            intro s n t hs ht
            unfold pairStep at ht
            split at ht
            · cases ht
            · split at ht
              · cases ht; exact hs
              · split at ht
                · split at ht
                  · cases ht
                  · split at ht
                    · cases ht
                    · unfold request at ht
                      split at ht
                      · cases ht; exact hs
                      · obtain ⟨f, hf⟩ := hs
                        split at ht
                        · cases ht
                          exact ⟨_, hf.add _ _ _ _ _⟩
                        · obtain ⟨e, -, h2⟩ := Outcome.bind_eq_ok.1 ht
                          cases h2
                          exact ⟨_, hf.add _ _ _ _ _⟩
                · cases ht; exact hs
  · cases ht
    exact ⟨_, History.new⟩

/-- what is known of the results of a run -/
structure RunResults (m : MultiArgs K) (bg : Catalog K) (data : Cache) (cls : List Cluster) (t : MultiState K) : Prop where
  history : ∃ f, History t.xcorrData f
  self : (∀ a s p, at? data a s p a = none) → ∀ a s p, at? t.xcorrData a s p a = none
  wanted : ∀ c ∈ t.calls, m.x.enable = true ∧ ∃ cl ∈ cls,
    Wanted m.x bg cl c.refEv.id c.ev.id (c.refPhase.stationId, c.refPhase.type) ∨
    Wanted m.x bg cl c.ev.id c.refEv.id (c.refPhase.stationId, c.refPhase.type)

theorem run_results {m : MultiArgs K} {bg : Catalog K} (hs : bg.Sound) {data : Cache} {f : XCorrSpec.View} (hd : History data f)
    {cls : List Cluster} (hc : ∀ cl ∈ cls, NoSelf cl) {t : MultiState K}
    (h : relocateMultiEvents m bg cls data = .ok t) : RunResults m bg data cls t := by
  unfold relocateMultiEvents at h
  refine foldlM_inv _ (fun done u => RunResults m bg data done u) cls ⟨⟨f, hd⟩, id, by simp⟩ ?_ h
  intro done cl u v hcl hi hstep
  unfold multiStep at hstep
  obtain ⟨b, hb, hstep⟩ := Outcome.bind_eq_ok.1 hstep
  obtain ⟨⟨r, log⟩, hrel, hstep⟩ := Outcome.bind_eq_ok.1 hstep
  obtain ⟨g, hg⟩ := hi.history
  obtain ⟨g', hg'⟩ := build_history hb
  have hext := build_ext hs hg.inv.1 (hc cl hcl) hb
  obtain ⟨new, hcalls, hbuilt⟩ := hext.built ⟨[], by simp, Built.start _ _ _ _⟩
  have hv : v.xcorrData = XCorr.merge u.xcorrData b.cache ∧ v.calls = b.calls := by
    simp only at hstep
    split at hstep
    · cases hstep; exact ⟨rfl, rfl⟩
    · cases hstep
    · cases hstep
  refine ⟨?_, ?_, ?_⟩
  · rw [hv.1]; exact ⟨_, hg.merge hg'⟩
  · intro hself a s p
    rw [hv.1, at?_merge hbuilt.od hbuilt.uq]
    have hn : at? b.cache a s p a = none := by
      have := hbuilt.self a (s, p)
      unfold look XCorr.get at this
      simp only at this
      cases hx : at? b.cache a s p a with
      | none => rfl
      | some e => rw [hx] at this; cases this
    simp [hn, hi.self hself]
  · intro c hcv
    rw [hv.2, hcalls] at hcv
    rcases List.mem_append.1 hcv with hcv | hcv
    · obtain ⟨h1, cl', h2, h3⟩ := hi.wanted c hcv
      exact ⟨h1, cl', List.mem_append_left _ h2, h3⟩
    · obtain ⟨-, -, h3⟩ := hbuilt.kept c hcv
      rcases hext.only OneDir.nil c.refEv.id c.ev.id (c.refPhase.stationId, c.refPhase.type) (by rw [h3]; rfl) with h4 | h4 | h4
      · cases h4
      · exact ⟨h4.1, cl, by simp, .inl h4.2⟩
      · exact ⟨h4.1, cl, by simp, .inr h4.2⟩

end Verif.Relocate
