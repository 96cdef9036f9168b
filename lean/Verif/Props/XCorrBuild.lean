import Verif.Proofs.RelocateMulti
import Verif.Proofs.RelocateFree
import Verif.Props.Relocate
import Verif.Props.XCorrCache

/-! C60: each phase pair is cross-correlated once. -/

set_option linter.unusedSectionVars false
set_option linter.unusedSimpArgs false

namespace Verif.Relocate
open Verif.Catalog Verif.XCorr

variable {K : Type} [Field K] [LinearOrder K]

/-- **C60a.** While the cache of a cluster is built no pair is correlated twice (in either direction) and
none whose result is precomputed; each correlation is of two events of the catalog and their picks at the
same station and of the same type, and its answer is what the cache says afterwards. -/
theorem xcorr_computed_once {x : XcorrArgs K} {cat : Catalog K} (hs : cat.Sound) {pre : Cache} {f : XCorrSpec.View}
    (hpre : History pre f) {cluster : Cluster} (hself : NoSelf cluster) {calls : List (XcorrCall K)} {t : BuildState K}
    (h : buildXCorrCache x cat cluster pre calls = .ok t) :
    ∃ new, t.calls = calls ++ new ∧
      new.Pairwise (fun c d => ¬ SamePair c d) ∧
      (∀ c ∈ new, XCorr.get pre c.refEv.id c.ev.id c.refPhase.stationId c.refPhase.type = none) ∧
      (∀ c ∈ new, XCorr.get t.cache c.refEv.id c.ev.id c.refPhase.stationId c.refPhase.type = some c.result) ∧
      (∀ i c, new[i]? = some c → GoodCall x cat (calls.length + i) c) := by
  obtain ⟨new, h1, h2⟩ := (build_ext hs hpre.inv.1 hself h).built ⟨[], by simp, Built.start _ _ _ _⟩
  exact ⟨new, h1, h2.once, fun c hc => (h2.kept c hc).2.1, fun c hc => (h2.kept c hc).2.2, h2.good⟩

/-- **C60b.** Every pair wanted by the cluster and within the distance limits is in the cache, and nothing
else; disabled, the cache is empty and nothing is correlated. -/
theorem xcorr_cache_exact {x : XcorrArgs K} {cat : Catalog K} (hs : cat.Sound) {pre : Cache} {f : XCorrSpec.View}
    (hpre : History pre f) {cluster : Cluster} (hself : NoSelf cluster) {calls : List (XcorrCall K)} {t : BuildState K}
    (h : buildXCorrCache x cat cluster pre calls = .ok t) (a b : Nat) (sp : StaPhase) :
    (XCorr.has t.cache a b sp.1 sp.2 = true ↔
      x.enable = true ∧ (Wanted x cat cluster a b sp ∨ Wanted x cat cluster b a sp)) ∧
    (x.enable = false → t.calls = calls) := by
  have hext := build_ext hs hpre.inv.1 hself h
  refine ⟨⟨?_, ?_⟩, ?_⟩
  · intro hh
    rcases hext.only OneDir.nil a b sp hh with h1 | h1 | h1
    · cases h1
    · exact ⟨h1.1, Or.inl h1.2⟩
    · exact ⟨h1.1, Or.inr h1.2⟩
  · rintro ⟨he, hw | hw⟩
    · exact hext.all OneDir.nil a b sp ⟨he, hw⟩
    · have h1 := hext.all OneDir.nil b a sp ⟨he, hw⟩
      obtain ⟨e, h1⟩ := Option.isSome_iff_exists.1 h1
      have := XCorr.get_symm (hext.od OneDir.nil) b a sp.1 sp.2
      unfold XCorr.has
      rw [this]
      unfold look at h1
      rw [h1]; rfl
  · intro he
    unfold buildXCorrCache at h
    rw [he] at h
    simp only [Bool.false_eq_true, if_false, Outcome.ok.injEq] at h
    rw [← h]

/-- **C60c.** Where a result of the cache comes from: a precomputed one is used unchanged (whichever way
round it was stored); otherwise it is the answer of a correlation, with the lag reversed if that was done
the other way round. -/
theorem xcorr_cache_origin {x : XcorrArgs K} {cat : Catalog K} (hs : cat.Sound) {pre : Cache} {f : XCorrSpec.View}
    (hpre : History pre f) {cluster : Cluster} (hself : NoSelf cluster) {calls : List (XcorrCall K)} {t : BuildState K}
    (h : buildXCorrCache x cat cluster pre calls = .ok t) {a b : Nat} {sp : StaPhase} {e : Entry}
    (he : XCorr.get t.cache a b sp.1 sp.2 = some e) :
    (∀ e', XCorr.get pre a b sp.1 sp.2 = some e' → e = e') ∧
    (XCorr.get pre a b sp.1 sp.2 = none →
      ∃ new, t.calls = calls ++ new ∧ ∃ c ∈ new, Answered c a b sp e ∨
        Answered c b a sp { valid := e.valid, coeff := e.coeff, lag := -e.lag }) := by
  obtain ⟨new, h1, h2⟩ := (build_ext hs hpre.inv.1 hself h).built ⟨[], by simp, Built.start _ _ _ _⟩
  rcases h2.prov a b sp e he with h3 | ⟨h3, h4⟩
  · refine ⟨?_, ?_⟩
    · intro e' he'
      unfold look at h3
      rw [h3] at he'; injection he'
    · intro hn
      unfold look at h3
      rw [h3] at hn; cases hn
  · refine ⟨?_, ?_⟩
    · intro e' he'
      unfold look at h3
      rw [h3] at he'; cases he'
    · intro _; exact ⟨new, h1, h4⟩

/-- **C60d.** Building the cache succeeds for every cluster that refers to events of the catalog and lists
only pick pairs whose neighbour pick is in the catalog and comes from it, if no correlation throws. -/
theorem xcorr_build_succeeds {x : XcorrArgs K} {cat : Catalog K} (hs : cat.Sound) {pre : Cache}
    {cluster : Cluster} {calls : List (XcorrCall K)}
    (href : ∀ kv ∈ cluster, (cat.events.find? kv.2.refId).isSome = true)
    (hnb : ∀ kv ∈ cluster, ∀ n ∈ kv.2.ids, (cat.events.find? n).isSome = true)
    (hpick : ∀ kv ∈ cluster, ∀ n sp, kv.2.hasPhase n sp = true → ∃ p, IsPick cat n sp p)
    (hsrc : ∀ n p, p ∈ cat.phasesOf n → p.source = Source.catalog)
    (hcorr : ∀ i e1 p1 e2 p2, ∃ r, x.correlate i e1 p1 e2 p2 = .ok r) :
    ∃ t, buildXCorrCache x cat cluster pre calls = .ok t := by
  have fold : ∀ {β : Type} (g : BuildState K → β → Outcome (BuildState K)) (l : List β),
      (∀ y ∈ l, ∀ s, ∃ t, g s y = .ok t) → ∀ s, ∃ t, l.foldlM g s = .ok t := by
    intro β g l
    induction l with
    | nil => intro _ s; exact ⟨s, rfl⟩
    | cons y l ih =>
      intro hg s
      obtain ⟨u, hu⟩ := hg y (by simp) s
      obtain ⟨t, ht⟩ := ih (fun z hz => hg z (List.mem_cons_of_mem _ hz)) u
      exact ⟨t, by rw [List.foldlM_cons, hu]; exact ht⟩
  unfold buildXCorrCache
  split
  · apply fold
    intro kv hkv s
    obtain ⟨refEv, hr⟩ := Option.isSome_iff_exists.1 (href kv hkv)
    unfold clusterStep
    rw [hr]
    apply fold
    intro rp hrp s
    obtain ⟨st, hst⟩ := Option.isSome_iff_exists.1 (hs.phaseStation _ (Catalog.mem_phasesOf.1 hrp))
    unfold refPhaseStep
    rw [hst]
    simp only
    split
    · exact ⟨s, rfl⟩
    · split
      · exact ⟨s, rfl⟩
      · apply fold
        intro n hn s
        obtain ⟨ev, he⟩ := Option.isSome_iff_exists.1 (hnb kv hkv n hn)
        have hid := (hs.eventKey _ _ he).1
        unfold pairStep
        rw [he]
        simp only
        split
        · exact ⟨s, rfl⟩
        · split
          · rename_i hph
            obtain ⟨p, hp1, hp2, hp3⟩ := hpick kv hkv n _ hph
            have hsome : (searchPhase cat ev.id (rp.stationId, rp.type)).isSome = true := by
              unfold searchPhase
              rw [List.find?_isSome]
              exact ⟨p, by rw [hid]; exact hp1, by simp [hp2, hp3]⟩
            obtain ⟨q, hq⟩ := Option.isSome_iff_exists.1 hsome
            rw [hq]
            simp only
            rw [if_neg (by rw [not_not]; exact hsrc _ q (searchPhase_pick hq).1)]
            unfold request
            split
            · exact ⟨s, rfl⟩
            · split
              · exact ⟨_, rfl⟩
              · obtain ⟨r, hr⟩ := hcorr s.calls.length refEv rp ev q
                rw [hr]; exact ⟨_, rfl⟩
          · exact ⟨s, rfl⟩
  · exact ⟨_, rfl⟩

/-! ## Several clusters -/

/-- The input of multi-event relocation: every cluster lists each event once under its own id, none as its
own neighbour, and has few enough pairs for 32 bit indices. -/
def GoodClusters (clusters : List Cluster) : Prop := ∀ cl ∈ clusters, GoodCluster cl ∧ NoSelf cl ∧
  28 * (cl.map (·.2.phases.length)).sum ≤ IdToIndex.uintMod

/-- **C60e.** Over all clusters of a multi-event relocation: no pair is correlated twice and none that was
given; the results given are all still there unchanged at the end; every pair wanted by any cluster has a
result at the end; and every other result is the answer of a correlation. -/
theorem multi_event_correlations {m : MultiArgs K} {bg : Catalog K} (hs : bg.Sound) (hn : NoAt bg) {data : Cache}
    {f : XCorrSpec.View} (hd : History data f) {clusters : List Cluster} (hc : GoodClusters clusters) {t : MultiState K}
    (h : relocateMultiEvents m bg clusters data = .ok t) :
    t.calls.Pairwise (fun c d => ¬ SamePair c d) ∧
    (∀ c ∈ t.calls, XCorr.get data c.refEv.id c.ev.id c.refPhase.stationId c.refPhase.type = none) ∧
    (∀ i c, t.calls[i]? = some c → GoodCall m.x bg i c) ∧
    (∀ (a b : Nat) (sp : StaPhase) (e : Entry), a ≠ b → XCorr.get data a b sp.1 sp.2 = some e → XCorr.get t.xcorrData a b sp.1 sp.2 = some e) ∧
    (m.x.enable = true → ∀ cl ∈ clusters, ∀ (a b : Nat) (sp : StaPhase), Wanted m.x bg cl a b sp → XCorr.has t.xcorrData a b sp.1 sp.2 = true) ∧
    (∀ (a b : Nat) (sp : StaPhase) (e : Entry), a ≠ b → XCorr.get t.xcorrData a b sp.1 sp.2 = some e → XCorr.get data a b sp.1 sp.2 = none →
      ∃ c ∈ t.calls, Answered c a b sp e ∨ Answered c b a sp { valid := e.valid, coeff := e.coeff, lag := -e.lag }) := by
  have hi := multi_inv hs hn hd.inv.1 hd.inv.2 hc h
  refine ⟨hi.once, fun c hc => (hi.kept c hc).2.1, hi.good, hi.keep, ?_, ?_⟩
  · intro he cl hcl a b sp hw
    obtain ⟨i, hil⟩ := List.mem_iff_getElem?.1 hcl
    have hlt : i < t.done.length := by
      rw [hi.len]; exact (List.getElem?_eq_some_iff.1 hil).1
    obtain ⟨_, g2, g3, _⟩ := hi.each i _ cl (List.getElem?_eq_getElem hlt) hil
    obtain ⟨e, he'⟩ := Option.isSome_iff_exists.1 (g3 a b sp he hw)
    have := g2 a b sp e he'
    unfold look at this
    unfold XCorr.has
    rw [this]; rfl
  · intro a b sp e hab he hnone
    rcases hi.prov a b sp e hab he with h1 | ⟨_, h2⟩
    · unfold look at h1; rw [hnone] at h1; cases h1
    · exact h2

/-- **C72a.** Each cluster is relocated by itself: from the input catalog, not from the result of another
cluster, with exactly the correlation results of the pairs it wants, all of which are in the results
returned; and the final catalog holds each event, with its picks, as the first cluster that returned it did. -/
theorem multi_event_result {m : MultiArgs K} {bg : Catalog K} (hs : bg.Sound) (hn : NoAt bg) {data : Cache}
    {f : XCorrSpec.View} (hd : History data f) {clusters : List Cluster} (hc : GoodClusters clusters) {t : MultiState K}
    (h : relocateMultiEvents m bg clusters data = .ok t) :
    t.done.length = clusters.length ∧ t.reloc.Sound ∧
    (∀ (i : Nat) (xc : Cache) (r : Catalog K) (log : List (IterLog K)) (cl : Cluster), t.done[i]? = some (xc, r, log) → clusters[i]? = some cl →
      relocate (m.toArgs i cl xc) bg = .ok (r, log) ∧
      (∀ (a b : Nat) (sp : StaPhase), XCorr.has xc a b sp.1 sp.2 = true ↔
        m.x.enable = true ∧ (Wanted m.x bg cl a b sp ∨ Wanted m.x bg cl b a sp)) ∧
      (∀ (a b : Nat) (sp : StaPhase) (e : Entry), XCorr.get xc a b sp.1 sp.2 = some e → XCorr.get t.xcorrData a b sp.1 sp.2 = some e)) ∧
    (∀ k e, t.reloc.events.find? k = some e ↔ ∃ (i : Nat) (xc : Cache) (r : Catalog K) (log : List (IterLog K)), t.done[i]? = some (xc, r, log) ∧
      r.events.find? k = some e ∧ (∀ (j : Nat) (xc' : Cache) (r' : Catalog K) (log' : List (IterLog K)), j < i → t.done[j]? = some (xc', r', log') → r'.events.find? k = none) ∧
      t.reloc.phasesOf k = r.phasesOf k) := by
  have hi := multi_inv hs hn hd.inv.1 hd.inv.2 hc h
  refine ⟨hi.len, hi.sound, ?_, ?_⟩
  · intro i xc r log cl h1 h2
    obtain ⟨g1, g2, g3, g4⟩ := hi.each i _ cl h1 h2
    refine ⟨g1, ?_, g2⟩
    intro a b sp
    refine ⟨fun hh => (g4 a b sp hh).2, ?_⟩
    rintro ⟨he, hw | hw⟩
    · exact g3 a b sp he hw
    · obtain ⟨e, he'⟩ := Option.isSome_iff_exists.1 (g3 b a sp he hw)
      unfold look at he'
      simp only at he'
      have hne := (g4 b a sp (by unfold look; simp only; rw [he']; rfl)).1
      unfold XCorr.has
      unfold XCorr.get at he' ⊢
      cases hx : XCorr.at? xc b sp.1 sp.2 a with
      | some e1 => cases hy : XCorr.at? xc a sp.1 sp.2 b <;> simp
      | none =>
        rw [hx] at he'
        cases hy : XCorr.at? xc a sp.1 sp.2 b with
        | some e1 => simp
        | none => rw [hy] at he'; cases he'
  · intro k e
    rw [hi.events, hi.phases]
    generalize t.done = done
    induction done with
    | nil => simp
    | cons d done ih =>
      obtain ⟨xc, r, log⟩ := d
      rw [List.findSome?_cons, List.find?_cons]
      simp only
      cases hr : r.events.find? k with
      | some e' =>
        simp only [Option.isSome_some, Option.some.injEq, Option.map_some, Option.getD_some]
        constructor
        · rintro rfl
          exact ⟨0, xc, r, log, rfl, hr, by simp, rfl⟩
        · rintro ⟨i, xc', r', log', h1, h2, h3, _⟩
          cases i with
          | zero =>
            simp only [List.getElem?_cons_zero, Option.some.injEq, Prod.mk.injEq] at h1
            obtain ⟨_, rfl, _⟩ := h1
            rw [hr] at h2; injection h2
          | succ i =>
            have := h3 0 xc r log (Nat.succ_pos _) rfl
            rw [hr] at this; cases this
      | none =>
        simp only [Option.isSome_none]
        rw [ih]
        constructor
        · rintro ⟨i, xc', r', log', h1, h2, h3, h4⟩
          refine ⟨i + 1, xc', r', log', h1, h2, ?_, h4⟩
          intro j xc'' r'' log'' hj hj'
          cases j with
          | zero =>
            simp only [List.getElem?_cons_zero, Option.some.injEq, Prod.mk.injEq] at hj'
            rw [← hj'.2.1]; exact hr
          | succ j => exact h3 j xc'' r'' log'' (by omega) hj'
        · rintro ⟨i, xc', r', log', h1, h2, h3, h4⟩
          cases i with
          | zero =>
            simp only [List.getElem?_cons_zero, Option.some.injEq, Prod.mk.injEq] at h1
            rw [← h1.2.1, hr] at h2; cases h2
          | succ i =>
            refine ⟨i, xc', r', log', h1, h2, ?_, h4⟩
            intro j xc'' r'' log'' hj hj'
            exact h3 (j + 1) xc'' r'' log'' (by omega) hj'

/-- **C72b (partial: input without marks).** With clusters that share no event and an input in which no event is
marked as relocated, the final catalog consists of exactly the events that some cluster kept a solution
for, each as that cluster returned it, under its own id, with its own picks. -/
theorem multi_event_solved_partial {m : MultiArgs K} {bg : Catalog K} (hs : bg.Sound) (hn : NoAt bg)
    (hnew : ∀ k, ¬ Marked bg k) {data : Cache}
    {f : XCorrSpec.View} (hd : History data f) {clusters : List Cluster} (hc : GoodClusters clusters)
    (hdisj : ∀ (i j : Nat) (cl cl' : Cluster) (k : Nat), clusters[i]? = some cl → clusters[j]? = some cl' → k ∈ cl.map (·.1) →
      k ∈ cl'.map (·.1) → i = j) {t : MultiState K}
    (h : relocateMultiEvents m bg clusters data = .ok t) :
    (∀ k, (t.reloc.events.find? k).isSome = true ↔ ∃ (i : Nat) (cl : Cluster) (xc : Cache) (r : Catalog K) (log : List (IterLog K)), clusters[i]? = some cl ∧
      t.done[i]? = some (xc, r, log) ∧ k ∈ cl.map (·.1) ∧ KeptSolution log k) ∧
    (∀ (i : Nat) (cl : Cluster) (xc : Cache) (r : Catalog K) (log : List (IterLog K)), clusters[i]? = some cl → t.done[i]? = some (xc, r, log) → ∀ k ∈ cl.map (·.1),
      t.reloc.events.find? k = r.events.find? k ∧ t.reloc.phasesOf k = r.phasesOf k) := by
  obtain ⟨h1, h2, h3, h4⟩ := multi_event_result hs hn hd hc h
  have hcl : ∀ {i : Nat} {xc : Cache} {r : Catalog K} {log : List (IterLog K)}, t.done[i]? = some (xc, r, log) → ∃ cl : Cluster, clusters[i]? = some cl := by
    intro i xc r log hi
    have hlt : i < clusters.length := by rw [← h1]; exact (List.getElem?_eq_some_iff.1 hi).1
    exact ⟨_, List.getElem?_eq_getElem hlt⟩
  have hmem : ∀ {i : Nat} {xc : Cache} {r : Catalog K} {log : List (IterLog K)} {cl : Cluster}, t.done[i]? = some (xc, r, log) → clusters[i]? = some cl → ∀ k,
      (r.events.find? k).isSome = true ↔ k ∈ cl.map (·.1) ∧ KeptSolution log k := by
    intro i xc r log cl hi hcl' k
    have hg : GoodArgs (m.toArgs i cl xc) :=
      ⟨(hc cl (List.mem_of_getElem? hcl')).1, (hc cl (List.mem_of_getElem? hcl')).2.2⟩
    exact relocate_returns_solved_partial hg hs hn hnew (h3 i xc r log cl hi hcl').1 k
  refine ⟨?_, ?_⟩
  · intro k
    rw [Option.isSome_iff_exists]
    constructor
    · rintro ⟨e, he⟩
      obtain ⟨i, xc, r, log, g1, g2, _⟩ := (h4 k e).1 he
      obtain ⟨cl, hcl'⟩ := hcl g1
      obtain ⟨g3, g4⟩ := (hmem g1 hcl' k).1 (by rw [g2]; rfl)
      exact ⟨i, cl, xc, r, log, hcl', g1, g3, g4⟩
    · rintro ⟨i, cl, xc, r, log, g1, g2, g3, g4⟩
      obtain ⟨e, he⟩ := Option.isSome_iff_exists.1 ((hmem g2 g1 k).2 ⟨g3, g4⟩)
      by_contra hno
      have hno' : t.reloc.events.find? k = none := by
        cases hx : t.reloc.events.find? k with
        | none => rfl
        | some e => exact absurd ⟨e, hx⟩ hno
      -- the first cluster with the event
      have hi := multi_inv hs hn hd.inv.1 hd.inv.2 hc h
      rw [hi.events, List.findSome?_eq_none_iff] at hno'
      have := hno' _ (List.mem_of_getElem? g2)
      simp only at this
      rw [he] at this; cases this
  · intro i cl xc r log g1 g2 k hk
    have hi := multi_inv hs hn hd.inv.1 hd.inv.2 hc h
    have hothers : ∀ (j : Nat) (xc' : Cache) (r' : Catalog K) (log' : List (IterLog K)) (e : Event K), t.done[j]? = some (xc', r', log') → r'.events.find? k = some e → j = i := by
      intro j xc' r' log' e hj he
      obtain ⟨cl', hcl'⟩ := hcl hj
      have := ((hmem hj hcl' k).1 (by rw [he]; rfl)).1
      exact (hdisj i j cl cl' k g1 hcl' hk this).symm
    have hrs : r.Sound := by
      have hg : GoodArgs (m.toArgs i cl xc) :=
        ⟨(hc cl (List.mem_of_getElem? g1)).1, (hc cl (List.mem_of_getElem? g1)).2.2⟩
      obtain ⟨_, _, _, hrs, _⟩ := relocate_summary hg hs hn (h3 i xc r log cl g2 g1).1
      exact hrs
    have nophase : ∀ {c : Catalog K}, c.Sound → c.events.find? k = none → c.phasesOf k = [] := by
      intro c hcs hce
      rw [List.eq_nil_iff_forall_not_mem]
      intro p hp
      have := hcs.phaseEvent _ (Catalog.mem_phasesOf.1 hp)
      rw [hce] at this; cases this
    cases hx : t.reloc.events.find? k with
    | some e =>
      obtain ⟨j, xc', r', log', k1, k2, k3, k4⟩ := (h4 k e).1 hx
      have := hothers j xc' r' log' e k1 k2
      subst this
      rw [g2] at k1
      simp only [Option.some.injEq, Prod.mk.injEq] at k1
      obtain ⟨_, rfl, _⟩ := k1
      exact ⟨k2.symm, k4⟩
    | none =>
      have hr : r.events.find? k = none := by
        rw [hi.events, List.findSome?_eq_none_iff] at hx
        exact hx _ (List.mem_of_getElem? g2)
      exact ⟨hr.symm, by rw [nophase hrs hr, nophase h2 hx]⟩

/-- **C72c.** In a multi-event relocation no event is held fixed: all parameters given to the solver, for an
event of the cluster or a neighbour of one, in every iteration for every cluster, are free. -/
theorem multi_event_all_move {m : MultiArgs K} {bg : Catalog K} (hs : bg.Sound) (hn : NoAt bg) {data : Cache}
    {f : XCorrSpec.View} (hd : History data f) {clusters : List Cluster} (hc : GoodClusters clusters) {t : MultiState K}
    (h : relocateMultiEvents m bg clusters data = .ok t) :
    ∀ (i : Nat) (xc : Cache) (r : Catalog K) (log : List (IterLog K)) (cl : Cluster), t.done[i]? = some (xc, r, log) →
      clusters[i]? = some cl → ∀ x ∈ log, ∀ q ∈ Solver.parOf x.ops, q.free = true ∧
        (q.ev ∈ cl.map (·.1) ∨ ∃ kv ∈ cl, q.ev ∈ kv.2.ids) := by
  intro i xc r log cl h1 h2 x hx q hq
  have hg : GoodArgs (m.toArgs i cl xc) :=
    ⟨(hc cl (List.mem_of_getElem? h2)).1, (hc cl (List.mem_of_getElem? h2)).2.2⟩
  rcases relocate_free hg hs hn ((multi_event_result hs hn hd hc h).2.2.1 i xc r log cl h1 h2).1 x hx q hq with
    ⟨a, b⟩ | ⟨a, b⟩
  · exact ⟨a, Or.inl b⟩
  · exact ⟨a, Or.inr b⟩

/-! ## Concrete cases -/

namespace Example

/-- four events -/
def cat4 : Catalog ℚ :=
  (((cat.addEvent (ev 3 30000000 40) true).1.addEvent (ev 4 40000000 40) true).1.addPhase (ph 3 35000000)).addPhase
    (ph 4 43000000)

theorem cat4_sound : cat4.Sound := by
  refine sound_of ?_ (by decide +kernel) (by decide +kernel)
  exact .addPhase _ (.addPhase _ (.addEvent _ _ (by decide) (.addEvent _ _ (by decide) cat_reachable)))

theorem cat4_noAt : NoAt cat4 := noAt_of (by decide +kernel)

def clusters4 : List Cluster :=
  [[(1, nb), (2, nb2)], [(3, ⟨3, [(4, [("N.A.", "Pg")])]⟩), (4, ⟨4, [(3, [("N.A.", "Pg")])]⟩)]]

/-- the result for (4,3) is known; the solver moves events 1 and 3 -/
def known : Cache := XCorr.add [] 4 3 "N.A." "Pg" ⟨true, 9/10, 1/5⟩

def xargs : XcorrArgs ℚ := ⟨true, 0, -1, 10, fun _ _ => 5, fun _ _ => 1, fun i _ _ _ _ => .ok ⟨true, 3/4, i + 1⟩⟩

def margs : MultiArgs ℚ :=
  ⟨env, ⟨1, 1, 1, 0, 0, 0, 0⟩, true, 3, fun _ => some (1/2), xargs, fun i => solver (2 * i + 1) (fun _ => 1)⟩

structure Multi where
  evs : List Seen
  correlated : List (Nat × Nat)
  e12 : Option Entry
  e34 : Option Entry
deriving DecidableEq

def multi (x : Outcome (MultiState ℚ)) : Option Multi :=
  match x with
  | .ok t => some ⟨seen t.reloc, t.calls.map (fun c => (c.refEv.id, c.ev.id)),
      XCorr.get t.xcorrData 2 1 "N.A." "Pg", XCorr.get t.xcorrData 3 4 "N.A." "Pg"⟩
  | _ => none

/-- the hypotheses hold for a run with two clusters: events 1 and 3 are returned, moved by a degree; only
events 1 and 2 are correlated, once; the known result is used -/
example : ∃ t, relocateMultiEvents margs cat4 clusters4 known = .ok t ∧
    seen t.reloc = [⟨3, 41, 31000000, true⟩, ⟨1, 47, 11000000, true⟩] ∧
    t.calls.map (fun c => (c.refEv.id, c.ev.id)) = [(1, 2)] ∧
    XCorr.get t.xcorrData 2 1 "N.A." "Pg" = some ⟨true, 3/4, -1⟩ ∧
    XCorr.get t.xcorrData 3 4 "N.A." "Pg" = some ⟨true, 9/10, -1/5⟩ := by
  have h : multi (relocateMultiEvents margs cat4 clusters4 known) =
      some ⟨[⟨3, 41, 31000000, true⟩, ⟨1, 47, 11000000, true⟩], [(1, 2)], some ⟨true, 3/4, -1⟩, some ⟨true, 9/10, -1/5⟩⟩ := by
    decide +kernel
  cases hx : relocateMultiEvents margs cat4 clusters4 known with
  | ok t =>
    rw [hx] at h
    simp only [multi, Option.some.injEq, Multi.mk.injEq] at h
    exact ⟨t, rfl, h.1, h.2.1, h.2.2.1, h.2.2.2⟩
  | throws => rw [hx] at h; cases h
  | ub => rw [hx] at h; cases h

/-- in this run the solver is given parameters for the events of both clusters -/
example : (match relocateMultiEvents margs cat4 clusters4 known with
    | .ok t => t.done.map (fun d => d.2.2.map (fun x => (Solver.parOf x.ops).map (fun q => (q.ev, q.free))))
    | _ => []) = [[[(1, true), (2, true)], [(1, true), (2, true)]], [[(3, true), (4, true)], [(3, true), (4, true)]]] := by
  decide +kernel

theorem clusters4_good : GoodClusters clusters4 := by
  intro cl hcl
  simp only [clusters4, List.mem_cons, List.not_mem_nil, or_false] at hcl
  rcases hcl with rfl | rfl
  · exact ⟨⟨by decide, by decide⟩, by unfold NoSelf; decide, by decide⟩
  · exact ⟨⟨by decide, by decide⟩, by unfold NoSelf; decide, by decide⟩

/-- the pair (3,4) is wanted in both directions -/
example : Wanted xargs cat4 [(3, ⟨3, [(4, [("N.A.", "Pg")])]⟩)] 3 4 ("N.A.", "Pg") :=
  ⟨_, List.mem_singleton.2 rfl, rfl, ev 3 30000000 40, ev 4 40000000 40, st, by decide +kernel, by decide +kernel,
    by decide +kernel, ⟨ph 3 35000000, by decide +kernel, rfl, rfl⟩, by decide +kernel, Or.inr (by decide +kernel),
    Or.inl (by decide +kernel), by decide, by decide⟩

example : History known (XCorrSpec.View.record XCorrSpec.View.empty 4 3 "N.A." "Pg" ⟨true, 9/10, 1/5⟩) :=
  .add .new 4 3 "N.A." "Pg" ⟨true, 9/10, 1/5⟩

/-- event 3 marked on input -/
def marked4 : Catalog ℚ :=
  (((cat.addEvent { ev 3 30000000 40 with isRelocated := true } true).1.addEvent (ev 4 40000000 40) true).1.addPhase
    (ph 3 35000000)).addPhase (ph 4 43000000)

theorem marked4_sound : marked4.Sound := by
  refine sound_of ?_ (by decide +kernel) (by decide +kernel)
  exact .addPhase _ (.addPhase _ (.addEvent _ _ (by decide) (.addEvent _ _ (by decide) cat_reachable)))

theorem marked4_noAt : NoAt marked4 := noAt_of (by decide +kernel)

end Example

/-- **C72 is false for catalogs with marks from an earlier relocation**: the first cluster returns an event of
the second one as it was on input, and the relocated one of the second cluster is then dropped. Here event 3
moves from 40 to 41 degrees, but the final catalog has it at 40 degrees. -/
theorem marked_event_relocation_lost :
    ∃ (m : MultiArgs ℚ) (bg : Catalog ℚ) (clusters : List Cluster) (t : MultiState ℚ),
      bg.Sound ∧ NoAt bg ∧ GoodClusters clusters ∧ relocateMultiEvents m bg clusters [] = .ok t ∧
      (bg.events.find? 3).map (·.latitude) = some 40 ∧
      (∃ c ∈ clusters, ∃ d ∈ t.done, 3 ∈ c.map (·.1) ∧ (d.2.1.events.find? 3).map (·.latitude) = some 41) ∧
      (t.reloc.events.find? 3).map (·.latitude) = some 40 := by
  have h : (match relocateMultiEvents Example.margs Example.marked4 Example.clusters4 [] with
      | .ok t => decide ((t.done.map (fun d => (d.2.1.events.find? 3).map (·.latitude))) = [some 40, some 41]) &&
          decide ((t.reloc.events.find? 3).map (·.latitude) = some 40)
      | _ => false) = true := by decide +kernel
  cases hx : relocateMultiEvents Example.margs Example.marked4 Example.clusters4 [] with
  | throws => rw [hx] at h; cases h
  | ub => rw [hx] at h; cases h
  | ok t =>
    rw [hx] at h
    simp only [Bool.and_eq_true, decide_eq_true_eq] at h
    obtain ⟨h1, h2⟩ := h
    have hmem : some (41 : ℚ) ∈ t.done.map (fun d => (d.2.1.events.find? 3).map (·.latitude)) := by rw [h1]; simp
    obtain ⟨d, hd, hd'⟩ := List.mem_map.1 hmem
    exact ⟨_, _, _, t, Example.marked4_sound, Example.marked4_noAt, Example.clusters4_good, hx, by decide +kernel,
      ⟨_, List.mem_cons_of_mem _ (List.mem_singleton.2 rfl), d, hd, by decide, hd'⟩, h2⟩

end Verif.Relocate
