import Verif.Proofs.XCorrReport
import Verif.Props.XCorrBuild

/-!
# C110: the summary of the cross-correlations
-/

set_option linter.unusedSimpArgs false

namespace Verif.XCorrReport
open Verif.Catalog Verif.Relocate Verif.Stats

/-- counting the members of a list with a property -/
theorem count_of {es : List (Pair × XCorr.Entry)} (hn : (es.map (·.1)).Nodup) (q : Pair × XCorr.Entry → Bool) {P : Pair → Prop}
    (hP : ∀ x, P x ↔ ∃ e, (x, e) ∈ es ∧ q (x, e) = true) : Count (es.countP q) P := by
  refine ⟨(es.filter q).map (·.1), ?_, ?_, ?_⟩
  · exact hn.sublist (List.Sublist.map _ List.filter_sublist)
  · intro x
    rw [hP, List.mem_map]
    constructor
    · rintro ⟨⟨y, e⟩, h, rfl⟩
      rw [List.mem_filter] at h
      exact ⟨e, h⟩
    · rintro ⟨e, h⟩
      exact ⟨(x, e), List.mem_filter.2 h, rfl⟩
  · rw [List.length_map, List.countP_eq_length_filter]

theorem percent_ok {a tot : Nat} (h : tot ≠ 0) : IsPercent a tot (percent a tot) := by
  unfold percent
  rw [if_neg h]
  have : (tot : ℚ) ≠ 0 := by exact_mod_cast h
  refine ⟨_, rfl, ?_⟩
  field_simp

theorem mapM_all_ok {A B : Type} {f : A → Outcome B} : ∀ {l : List A} {ys : List B}, l.mapM f = .ok ys → ∀ x ∈ l, ∃ y, f x = .ok y := by
  intro l
  induction l with
  | nil => intro ys _ x hx; cases hx
  | cons a l ih =>
    intro ys h x hx
    rw [List.mapM_cons] at h
    cases ha : f a with
    | ok y =>
      rw [ha] at h
      cases hl : l.mapM f with
      | ok zs =>
        rcases List.mem_cons.1 hx with rfl | hx
        · exact ⟨y, ha⟩
        · exact ih hl x hx
      | throws => rw [hl] at h; cases h
      | ub => rw [hl] at h; cases h
    | throws => rw [ha] at h; cases h
    | ub => rw [ha] at h; cases h

/-- a part of the summary -/
theorem part_cases {nth : NthElement (id : ℚ → ℚ)} {m : ℚ} {cluster : Cluster} {xc : XCorr.Cache} {isType : String → Prop}
    {es : List (Pair × XCorr.Entry)} {t : AMap String Counters} (ht : TInv m es t) (hn : (es.map (·.1)).Nodup)
    (hes : ∀ x e, (x, e) ∈ es ↔ isType x.phase ∧ Correlated cluster xc x e) :
    (part nth (some m) t = .ub ∧ ∃ sta, 1 ≤ (es.filter (fun y => y.1.station = sta ∧ y.2.valid = true)).length ∧
      (es.filter (fun y => y.1.station = sta ∧ y.2.valid = true)).length ≤ 3) ∨
    ((∀ sta, (es.filter (fun y => y.1.station = sta ∧ y.2.valid = true)).length = 0 ∨
      4 ≤ (es.filter (fun y => y.1.station = sta ∧ y.2.valid = true)).length) ∧
      ∃ p, part nth (some m) t = .ok p ∧ IsPart cluster xc isType m p) := by
  have hperm : (t.insertionSort (fun a b => a.1 ≤ b.1)).Perm t := List.perm_insertionSort _ _
  have hsorted : (t.insertionSort (fun a b => a.1 ≤ b.1)).Pairwise (fun a b => a.1 ≤ b.1) := by
    have : Std.Total (fun a b : String × Counters => a.1 ≤ b.1) := ⟨fun a b => le_total a.1 b.1⟩
    have : IsTrans (String × Counters) (fun a b => a.1 ≤ b.1) := ⟨fun a b c h1 h2 => le_trans h1 h2⟩
    exact List.pairwise_insertionSort _ _
  set st := t.insertionSort (fun a b => a.1 ≤ b.1) with hst
  have hrow : ∀ kv ∈ st, es.filter (fun y => y.1.station = kv.1) ≠ [] ∧
      kv.2 = tally m ((es.filter (fun y => y.1.station = kv.1)).map (·.2)) := by
    intro kv hkv
    have := AMap.find?_of_mem ht.nodup (hperm.mem_iff.1 hkv)
    rw [ht.find] at this
    split at this
    · cases this
    · rename_i h
      exact ⟨h, by simpa using this.symm⟩
  have hcoef : ∀ kv ∈ st, kv.2.coeff = (es.filter (fun y => y.1.station = kv.1 ∧ y.2.valid = true)).map (fun y => |y.2.coeff|) := by
    intro kv hkv
    rw [(hrow kv hkv).2]
    simp only [tally]
    rw [List.filter_map, List.map_map, List.filter_filter]
    simp [Function.comp_def, and_comm, Bool.and_comm]
  have hline : ∀ kv ∈ st, line nth kv = .ub ∨ ∃ l, line nth kv = .ok l ∧ (l.station = kv.1 ∧ IsLine cluster xc isType m l) := by
    intro kv hkv
    unfold line
    rcases summary_cases nth kv.2.coeff with ⟨h, -⟩ | ⟨-, s, h, hs⟩
    · left; rw [h]; rfl
    · right
      rw [h]
      refine ⟨_, rfl, rfl, ?_⟩
      obtain ⟨hne, htal⟩ := hrow kv hkv
      rw [hcoef kv hkv] at hs
      have hnf : ((es.filter (fun y => y.1.station = kv.1)).map (·.1)).Nodup := hn.sublist (List.Sublist.map _ List.filter_sublist)
      have htot : kv.2.performed + kv.2.failed = (es.filter (fun y => y.1.station = kv.1)).countP (fun _ => true) := by
        rw [htal]
        simp only [tally, List.countP_map, List.countP_true]
        have := List.length_eq_countP_add_countP (l := es.filter (fun y => y.1.station = kv.1)) (fun y => y.2.valid)
        rw [this]
        congr 1
        apply List.countP_congr
        intro y _
        simp [Function.comp]
      have hmem : ∀ x e, (x, e) ∈ es.filter (fun y => y.1.station = kv.1) ↔ (isType x.phase ∧ x.station = kv.1 ∧ Correlated cluster xc x e) := by
        intro x e
        rw [List.mem_filter, hes]
        simp only [decide_eq_true_eq]
        tauto
      have hpos : kv.2.performed + kv.2.failed ≠ 0 := by
        rw [htot, List.countP_true]
        intro h0
        exact hne (List.length_eq_zero_iff.1 h0)
      refine ⟨?_, hpos, ⟨_, percent_ok hpos, ?_⟩, ⟨_, percent_ok hpos, ?_⟩, es.filter (fun y => y.1.station = kv.1 ∧ y.2.valid = true),
        (List.Nodup.of_map _ hn).filter _, ?_, hs⟩
      · show Count (kv.2.performed + kv.2.failed) _
        rw [htot]
        refine count_of hnf _ (fun x => ?_)
        simp only [and_true, hmem]
        constructor
        · rintro ⟨h1, h2, e, h3⟩; exact ⟨e, h1, h2, h3⟩
        · rintro ⟨e, h1, h2, h3⟩; exact ⟨h1, h2, e, h3⟩
      · have : kv.2.failed = (es.filter (fun y => y.1.station = kv.1)).countP (fun y => !y.2.valid) := by
          rw [htal]; simp only [tally, List.countP_map]; rfl
        rw [this]
        refine count_of hnf _ (fun x => ?_)
        simp only [hmem]
        constructor
        · rintro ⟨h1, h2, e, h3, h4⟩; exact ⟨e, ⟨h1, h2, h3⟩, by simpa using h4⟩
        · rintro ⟨e, ⟨h1, h2, h3⟩, h4⟩; exact ⟨h1, h2, e, h3, by simpa using h4⟩
      · have : kv.2.aboveThreshold = (es.filter (fun y => y.1.station = kv.1)).countP
            (fun y => y.2.valid && decide (m ≤ |y.2.coeff|)) := by
          rw [htal]; simp only [tally, List.countP_map]; rfl
        rw [this]
        refine count_of hnf _ (fun x => ?_)
        simp only [hmem]
        constructor
        · rintro ⟨h1, h2, e, h3, h4, h5⟩; exact ⟨e, ⟨h1, h2, h3⟩, by simpa using ⟨h4, h5⟩⟩
        · rintro ⟨e, ⟨h1, h2, h3⟩, h4⟩
          simp only [Bool.and_eq_true, decide_eq_true_eq] at h4
          exact ⟨h1, h2, e, h3, h4⟩
      · rintro ⟨x, e⟩
        rw [List.mem_filter, hes]
        simp only [decide_eq_true_eq]
        tauto
  rcases mapM_cases st hline with ⟨h, kv, hkv, hub⟩ | ⟨ls, h, hls⟩
  · left
    refine ⟨by unfold part; rw [← hst, h]; rfl, kv.1, ?_⟩
    unfold line at hub
    rcases summary_cases nth kv.2.coeff with ⟨-, h1, h2⟩ | ⟨-, s, h', -⟩
    · rw [hcoef kv hkv, List.length_map] at h1 h2
      exact ⟨h1, h2⟩
    · rw [h'] at hub; cases hub
  · right
    have hlk : ls.map (·.station) = st.map (·.1) := by
      have : List.Forall₂ (fun kv l => l.station = kv.1) st ls := hls.imp (fun _ _ h => h.1)
      clear h hls
      clear_value st
      clear hst hperm hsorted hrow hcoef hline
      induction this with
      | nil => rfl
      | cons h1 _ ih => rw [List.map_cons, List.map_cons, h1, ih]
    have hnof : ∀ sta, sta ∈ st.map (·.1) ↔ es.filter (fun y => y.1.station = sta) ≠ [] := by
      intro sta
      have : sta ∈ st.map (·.1) ↔ sta ∈ t.keys := (hperm.map (·.1)).mem_iff
      rw [this, ← AMap.find?_isSome, ht.find]
      split
      · rename_i h; simp [h]
      · rename_i h; simpa using h
    have hall : ∀ l ∈ ls, IsLine cluster xc isType m l := by
      intro l hl
      clear h hlk hnof
      clear_value st
      clear hst hperm hsorted hrow hcoef hline
      induction hls with
      | nil => cases hl
      | cons h1 _ ih =>
        rcases List.mem_cons.1 hl with rfl | hl
        · exact h1.2
        · exact ih hl
    constructor
    · intro sta
      by_cases hs : sta ∈ st.map (·.1)
      · obtain ⟨kv, hkv, rfl⟩ := List.mem_map.1 hs
        have hok : ∃ l, line nth kv = .ok l := mapM_all_ok h kv hkv
        unfold line at hok
        rcases summary_cases nth kv.2.coeff with ⟨h', -⟩ | ⟨h', -⟩
        · rw [h'] at hok; obtain ⟨l, hok⟩ := hok; cases hok
        · rw [hcoef kv hkv, List.length_map] at h'
          exact h'
      · left
        rw [hnof, not_not] at hs
        rw [List.length_eq_zero_iff, List.filter_eq_nil_iff]
        intro y hy hc
        rw [List.filter_eq_nil_iff] at hs
        simp only [decide_eq_true_eq] at hc
        exact hs y hy (by simpa using hc.1)
    · have htot : (t.map (·.2.performed)).sum + (t.map (·.2.failed)).sum = es.countP (fun _ => true) := by
        rw [ht.performed, ht.failed]
        simp only [tally, List.countP_map, List.countP_true]
        have := List.length_eq_countP_add_countP (l := es) (fun y => y.2.valid)
        rw [this]
        congr 1
        apply List.countP_congr
        intro y _
        simp [Function.comp]
      unfold part
      rw [← hst, h]
      refine ⟨_, rfl, rfl, ?_, ?_, ?_, fun h => percent_ok h, fun h => percent_ok h, ?_, ?_, hall⟩
      · show Count ((t.map (·.2.performed)).sum + (t.map (·.2.failed)).sum) _
        rw [htot]
        refine count_of hn _ (fun x => ?_)
        simp only [and_true, hes]
        constructor
        · rintro ⟨h1, e, h3⟩; exact ⟨e, h1, h3⟩
        · rintro ⟨e, h1, h3⟩; exact ⟨h1, e, h3⟩
      · have : (t.map (·.2.failed)).sum = es.countP (fun y => !y.2.valid) := by
          rw [ht.failed]; simp only [tally, List.countP_map]; rfl
        show Count (t.map (·.2.failed)).sum _
        rw [this]
        refine count_of hn _ (fun x => ?_)
        simp only [hes]
        constructor
        · rintro ⟨h1, e, h3, h4⟩; exact ⟨e, ⟨h1, h3⟩, by simpa using h4⟩
        · rintro ⟨e, ⟨h1, h3⟩, h4⟩; exact ⟨h1, e, h3, by simpa using h4⟩
      · have : (t.map (·.2.aboveThreshold)).sum = es.countP (fun y => y.2.valid && decide (m ≤ |y.2.coeff|)) := by
          rw [ht.above]; simp only [tally, List.countP_map]; rfl
        show Count (t.map (·.2.aboveThreshold)).sum _
        rw [this]
        refine count_of hn _ (fun x => ?_)
        simp only [hes]
        constructor
        · rintro ⟨h1, e, h3, h4, h5⟩; exact ⟨e, ⟨h1, h3⟩, by simpa using ⟨h4, h5⟩⟩
        · rintro ⟨e, ⟨h1, h3⟩, h4⟩
          simp only [Bool.and_eq_true, decide_eq_true_eq] at h4
          exact ⟨h1, e, h3, h4⟩
      · show (ls.map (·.station)).Pairwise (· < ·)
        rw [hlk]
        have h1 : (st.map (·.1)).Pairwise (· ≤ ·) := by rw [List.pairwise_map]; exact hsorted
        have h2 : (st.map (·.1)).Nodup := (hperm.map Prod.fst).nodup_iff.2 ht.nodup
        exact (h1.and h2).imp (fun h => lt_of_le_of_ne h.1 h.2)
      · intro sta
        show sta ∈ ls.map (·.station) ↔ _
        rw [hlk, hnof]
        constructor
        · intro h0
          obtain ⟨⟨x, e⟩, hy⟩ := List.exists_mem_of_ne_nil _ h0
          rw [List.mem_filter, hes] at hy
          exact ⟨x, e, hy.1.1, by simpa using hy.2, hy.1.2⟩
        · rintro ⟨x, e, h1, h2, h3⟩
          exact List.ne_nil_of_mem (List.mem_filter.2 ⟨(hes x e).2 ⟨h1, h3⟩, by simpa using h2⟩)

theorem found_visits {cluster : Cluster} (hc : Proper cluster) (validP validS : List String) (xc : XCorr.Cache) (ty : PhaseType)
    {isType : String → Prop} (h : ∀ ph, isType ph ↔ Catalog.Catalog.classify validP validS ph = ty) (x : Pair) (e : XCorr.Entry) :
    (x, e) ∈ found validP validS xc ty (visits cluster) ↔ isType x.phase ∧ Correlated cluster xc x e := by
  rw [mem_found, h, mem_visits hc]
  unfold Correlated
  constructor
  · rintro ⟨⟨kv, h1, h2, h3⟩, h4, h5⟩; exact ⟨h4, kv, h1, h2, h3, h5⟩
  · rintro ⟨h4, kv, h1, h2, h3, h5⟩; exact ⟨⟨kv, h1, h2, h3⟩, h4, h5⟩

theorem isP_iff (validP validS : List String) (ph : String) : IsP validP ph ↔ Catalog.Catalog.classify validP validS ph = .P := by
  unfold IsP Catalog.Catalog.classify
  split
  · simp [*]
  · split <;> simp [*]

theorem isS_iff (validP validS : List String) (ph : String) : IsS validP validS ph ↔ Catalog.Catalog.classify validP validS ph = .S := by
  unfold IsS Catalog.Catalog.classify
  split
  · simp [*]
  · split <;> simp [*]


theorem few_iff {cluster : Cluster} {xc : XCorr.Cache} {isType : String → Prop} {es : List (Pair × XCorr.Entry)}
    (hn : (es.map (·.1)).Nodup) (hes : ∀ x e, (x, e) ∈ es ↔ isType x.phase ∧ Correlated cluster xc x e) :
    FewSomewhere cluster xc isType ↔ ∃ sta, 1 ≤ (es.filter (fun y => y.1.station = sta ∧ y.2.valid = true)).length ∧
      (es.filter (fun y => y.1.station = sta ∧ y.2.valid = true)).length ≤ 3 := by
  have key : ∀ sta, Count (es.filter (fun y => y.1.station = sta ∧ y.2.valid = true)).length
      (fun x : Pair => isType x.phase ∧ x.station = sta ∧ ∃ e, Correlated cluster xc x e ∧ e.valid = true) := by
    intro sta
    rw [← List.countP_eq_length_filter]
    refine count_of hn _ (fun x => ?_)
    simp only [hes, decide_eq_true_eq]
    constructor
    · rintro ⟨h1, h2, e, h3, h4⟩; exact ⟨e, ⟨h1, h3⟩, h2, h4⟩
    · rintro ⟨e, ⟨h1, h3⟩, h2, h4⟩; exact ⟨h1, h2, e, h3, h4⟩
  constructor
  · rintro ⟨sta, n, h1, h3, l, hl, hm, rfl⟩
    obtain ⟨l', hl', hm', hlen⟩ := key sta
    have : l.Perm l' := (List.perm_ext_iff_of_nodup hl hl').2 (fun x => by rw [hm, hm'])
    exact ⟨sta, by rw [← hlen, ← this.length_eq]; exact h1, by rw [← hlen, ← this.length_eq]; exact h3⟩
  · rintro ⟨sta, h1, h3⟩
    exact ⟨sta, _, h1, h3, key sta⟩

theorem part_iff {nth : NthElement (id : ℚ → ℚ)} {m : ℚ} {cluster : Cluster} {xc : XCorr.Cache} {isType : String → Prop}
    {es : List (Pair × XCorr.Entry)} {t : AMap String Counters} (ht : TInv m es t) (hn : (es.map (·.1)).Nodup)
    (hes : ∀ x e, (x, e) ∈ es ↔ isType x.phase ∧ Correlated cluster xc x e) :
    (part nth (some m) t = .ub ∧ FewSomewhere cluster xc isType) ∨
    (¬ FewSomewhere cluster xc isType ∧ ∃ p, part nth (some m) t = .ok p ∧ IsPart cluster xc isType m p) := by
  rw [few_iff hn hes]
  rcases part_cases (nth := nth) (cluster := cluster) (xc := xc) ht hn hes with h | ⟨h1, h2⟩
  · exact .inl h
  · refine .inr ⟨?_, h2⟩
    rintro ⟨sta, h3, h4⟩
    have := h1 sta
    omega

/-- **C110.** For every cluster and every outcome of the correlations, the summary is right: the totals and, for each station with
a correlation, the number of correlations, the percentage that failed, the percentage above the threshold, and the five-number
summary of the coefficients of those that succeeded.  The only exception is undefined behaviour, exactly when a station has 1, 2 or
3 successful correlations of P phases or of S phases. -/
theorem xcorr_summary {cluster : Cluster} (hc : Proper cluster) (nth : NthElement (id : ℚ → ℚ)) (validP validS : List String)
    {minCoef : PhaseType → Option ℚ} {mP mS : ℚ} (hP : minCoef .P = some mP) (hS : minCoef .S = some mS) (xc : XCorr.Cache) :
    (logXCorrSummary nth validP validS minCoef xc cluster = .ub ∧
      (FewSomewhere cluster xc (IsP validP) ∨ FewSomewhere cluster xc (IsS validP validS))) ∨
    (¬ FewSomewhere cluster xc (IsP validP) ∧ ¬ FewSomewhere cluster xc (IsS validP validS) ∧
      ∃ p s, logXCorrSummary nth validP validS minCoef xc cluster = .ok (p, s) ∧
        IsPart cluster xc (IsP validP) mP p ∧ IsPart cluster xc (IsS validP validS) mS s) := by
  obtain ⟨t, ht, h1, h2⟩ := tables_ok validP validS xc hP hS cluster
  have n1 := nodup_found validP validS xc (ty := .P) (nodup_visits hc)
  have n2 := nodup_found validP validS xc (ty := .S) (nodup_visits hc)
  have e1 := found_visits hc validP validS xc .P (isP_iff validP validS)
  have e2 := found_visits hc validP validS xc .S (isS_iff validP validS)
  unfold logXCorrSummary
  rw [ht, hP, hS]
  simp only [Outcome.bind_ok]
  rcases part_iff (nth := nth) h1 n1 e1 with ⟨h, hf⟩ | ⟨hf1, p, hp, gp⟩
  · left; rw [h]; exact ⟨rfl, .inl hf⟩
  · rw [hp]
    simp only [Outcome.bind_ok]
    rcases part_iff (nth := nth) h2 n2 e2 with ⟨h, hf⟩ | ⟨hf2, s, hs, gs⟩
    · left; rw [h]; exact ⟨rfl, .inr hf⟩
    · right; rw [hs]; exact ⟨hf1, hf2, p, s, rfl, gp, gs⟩

theorem correlated_wanted {K : Type} [Field K] [LinearOrder K] {x : XcorrArgs K} {cat : Catalog K} (hs : cat.Sound)
    {pre : XCorr.Cache} {f : XCorrSpec.View} (hpre : XCorr.History pre f) {cluster : Cluster} (hone : OneWay cluster)
    {calls : List (XcorrCall K)} {t : BuildState K} (h : buildXCorrCache x cat cluster pre calls = .ok t)
    (hen : x.enable = true) (y : Pair) :
    (∃ e, Correlated cluster t.cache y e) ↔ Wanted x cat cluster y.ev y.nb (y.station, y.phase) := by
  have hself : NoSelf cluster := fun kv hkv hm => hone kv hkv kv hkv hm hm
  have hex := (xcorr_cache_exact hs hpre hself h y.ev y.nb (y.station, y.phase)).1
  unfold XCorr.has at hex
  rw [Option.isSome_iff_exists] at hex
  have hids : ∀ (n : Neighbours) (b : Nat) (sp : StaPhase), sp ∈ n.phasesOf b → b ∈ n.ids := by
    intro n b sp hsp
    unfold Neighbours.phasesOf at hsp
    cases hf : n.nbs.find? b with
    | none => rw [hf] at hsp; cases hsp
    | some l => exact AMap.mem_keys_of_find? hf
  constructor
  · rintro ⟨e, kv, hkv, hr, hp, he⟩
    rcases (hex.1 ⟨e, he⟩).2 with hw | ⟨kv', hkv', hr', _, _, _, _, _, _, _, _, _, _, hb, -⟩
    · exact hw
    · exfalso
      refine hone kv hkv kv' hkv' ?_ ?_
      · rw [hr']; exact hids _ _ _ hp
      · rw [hr]; exact hb
  · intro hw
    obtain ⟨e, he⟩ := hex.2 ⟨hen, .inl hw⟩
    obtain ⟨kv, hkv, hr, _, _, _, _, _, _, _, _, _, _, hb, hp⟩ := hw
    exact ⟨e, kv, hkv, hr, hp, he⟩

/-- **C110, after correlating a cluster.** What is counted as attempted is the pairs of picks of the cluster within the distance
limits, each of them once. -/
theorem attempted_wanted {K : Type} [Field K] [LinearOrder K] {x : XcorrArgs K} {cat : Catalog K} (hs : cat.Sound)
    {pre : XCorr.Cache} {f : XCorrSpec.View} (hpre : XCorr.History pre f) {cluster : Cluster} (hone : OneWay cluster)
    {calls : List (XcorrCall K)} {t : BuildState K} (h : buildXCorrCache x cat cluster pre calls = .ok t)
    (hen : x.enable = true) {isType : String → Prop} {m : ℚ} {p : Part} (hp : IsPart cluster t.cache isType m p) :
    Count p.attempted (fun y : Pair => isType y.phase ∧ Wanted x cat cluster y.ev y.nb (y.station, y.phase)) := by
  obtain ⟨l, h1, h2, h3⟩ := hp.attempted
  exact ⟨l, h1, fun y => (h2 y).trans (and_congr_right (fun _ => correlated_wanted hs hpre hone h hen y)), h3⟩

/-- Counts are unique: the numbers of the summary are determined by what they count. -/
theorem count_unique {A : Type} {n m : Nat} {P : A → Prop} (h1 : Count n P) (h2 : Count m P) : n = m := by
  obtain ⟨l, a1, a2, rfl⟩ := h1
  obtain ⟨l', b1, b2, rfl⟩ := h2
  exact ((List.perm_ext_iff_of_nodup a1 b1).2 (fun x => by rw [a2, b2])).length_eq

/-- **C110, nothing was correlated.** The percentages of the totals are then not numbers. -/
theorem nothing_attempted {cluster : Cluster} (hc : Proper cluster) (nth : NthElement (id : ℚ → ℚ)) (validP validS : List String)
    {minCoef : PhaseType → Option ℚ} {mP mS : ℚ} (hP : minCoef .P = some mP) (hS : minCoef .S = some mS) (xc : XCorr.Cache)
    (hno : ∀ x e, ¬ Correlated cluster xc x e) :
    logXCorrSummary nth validP validS minCoef xc cluster = .ok (⟨0, .nan, 0, mP, .nan, 0, []⟩, ⟨0, .nan, 0, mS, .nan, 0, []⟩) := by
  obtain ⟨t, ht, h1, h2⟩ := tables_ok validP validS xc hP hS cluster
  have e1 := found_visits hc validP validS xc .P (isP_iff validP validS)
  have e2 := found_visits hc validP validS xc .S (isS_iff validP validS)
  have z1 : found validP validS xc .P (visits cluster) = [] :=
    List.eq_nil_iff_forall_not_mem.2 (fun x h => hno _ _ ((e1 x.1 x.2).1 h).2)
  have z2 : found validP validS xc .S (visits cluster) = [] :=
    List.eq_nil_iff_forall_not_mem.2 (fun x h => hno _ _ ((e2 x.1 x.2).1 h).2)
  have empty : ∀ (m : ℚ) (t : AMap String Counters), TInv m [] t → t = [] := by
    intro m t h
    cases t with
    | nil => rfl
    | cons a t =>
      have := h.find a.1
      obtain ⟨k, v⟩ := a
      rw [AMap.find?_cons] at this
      simp at this
  rw [z1] at h1; rw [z2] at h2
  unfold logXCorrSummary
  rw [ht, hP, hS]
  simp only [Outcome.bind_ok]
  rw [empty _ _ h1, empty _ _ h2]
  rfl

section Example

/-- event 1 with four neighbours at two stations, one of which has only a failure -/
def nb : Neighbours := ⟨1, [(2, [("A", "Pg"), ("B", "P")]), (3, [("A", "Pg")]), (4, [("A", "P"), ("A", "X")]), (5, [("A", "P"), ("B", "S")])]⟩

def cache : XCorr.Cache := [(1, [("A", [("Pg", [(2, ⟨true, 9/10, 0⟩), (3, ⟨true, -8/10, 0⟩)]), ("P", [(4, ⟨true, 5/10, 0⟩)])]),
    ("B", [("P", [(2, ⟨false, 0, 0⟩)])])]), (5, [("A", [("P", [(1, ⟨true, 6/10, 0⟩)])])])]

theorem proper : Proper [(1, nb)] := by
  refine ⟨⟨by decide, by decide⟩, by decide, ?_⟩
  intro kv hkv b
  rw [List.mem_singleton] at hkv
  subst hkv
  rcases Nat.lt_or_ge b 6 with h | h
  · interval_cases b <;> decide
  · have : nb.phasesOf b = [] := by
      have h2 : AMap.find? nb.nbs b = none := by
        rw [AMap.find?_eq_none]
        intro hm
        have : ∀ x ∈ AMap.keys nb.nbs, x < 6 := by decide
        have := this b hm
        omega
      unfold Neighbours.phasesOf
      rw [h2]; rfl
    show (nb.phasesOf b).Nodup
    rw [this]; exact List.nodup_nil

/-- four successes at A, three above the threshold 6/10; a failure at B; no S phase, since its correlation was not made -/
example : logXCorrSummary (.sorting _) ["P", "Pg"] ["S"] (fun _ => some (6/10)) cache [(1, nb)] =
    .ok (⟨5, .num 20, 1, 6/10, .num 60, 3, [⟨"A", 4, .num 0, .num 75, ⟨5/10, 9/10, 6/10, 8/10, 9/10⟩⟩,
      ⟨"B", 1, .num 100, .num 0, ⟨0, 0, 0, 0, 0⟩⟩]⟩, ⟨0, .nan, 0, 6/10, .nan, 0, []⟩) := by
  decide +kernel

/-- with three successes at a station -/
example : logXCorrSummary (.sorting _) ["Pg"] ["P"] (fun _ => some (6/10)) cache [(1, nb)] = .ub := by
  decide +kernel

/-- event 1 with neighbour 2, correlated -/
def two : Cluster := [(1, ⟨1, [(2, [("N.A.", "Pg")])]⟩), (2, ⟨2, []⟩)]

example : OneWay two ∧ ∃ t, buildXCorrCache Relocate.Example.xargs Relocate.Example.cat4 two [] [] = .ok t ∧
    XCorr.get t.cache 1 2 "N.A." "Pg" = some ⟨true, 3/4, 1⟩ := by
  refine ⟨by unfold OneWay; decide, ?_⟩
  have h : (match buildXCorrCache Relocate.Example.xargs Relocate.Example.cat4 two [] [] with
    | .ok t => XCorr.get t.cache 1 2 "N.A." "Pg"
    | _ => none) = some ⟨true, 3/4, 1⟩ := by decide +kernel
  split at h
  · rename_i t ht; exact ⟨t, ht, h⟩
  · cases h

end Example

end Verif.XCorrReport
