import Verif.Proofs.PreloadReport
import Verif.Props.Preload
import Verif.Props.Access

/-!
# C112: what is reported after filling the disk cache
-/

set_option linter.unusedSimpArgs false

namespace Verif.Preload
open Verif.Catalog Verif.Waveform Verif.Access Verif.AccessSpec Verif.PreloadSpec

/-- **C112 (counting does no harm).** With the counters, filling the cache succeeds when it does without them, with the same
files and downloads: what C95 says holds for the run that is reported. -/
theorem report_same_run {s : Settings} {cat : Catalog ℝ} {fs : Files} {leftover : Nat} {st : State} :
    (∃ c, catalogC s cat fs leftover = .ok (st, c)) ↔ catalog s cat fs = .ok st := by
  constructor
  · rintro ⟨c, h⟩
    exact (eventsC _ h).1
  · intro h
    exact eventsC_of _ h _

/-- **C112 (downloaded, not available).** The number of waveforms reported as downloaded is the number of those asked of the data
centre that it has, and the number reported as not available is the number of those that it does not have. -/
theorem report_downloads {s : Settings} {cat : Catalog ℝ} {fs : Files} {leftover : Nat} {st : State} {c : Counters}
    {srv : String → TimeWindow → Option (Trace ℝ)} (hsrc : s.source = answers srv)
    (h : catalogC s cat fs leftover = .ok (st, c)) :
    c.downloaded = (st.downloads.flatten.filter fun y => (srv y.1 y.2).isSome).length ∧
    c.noAvail = (st.downloads.flatten.filter fun y => (srv y.1 y.2).isNone).length ∧
    c.downloaded + c.noAvail = st.downloads.flatten.length := by
  obtain ⟨-, -, d, hd, hc⟩ := eventsC _ h
  obtain ⟨h1, h2⟩ := hc srv hsrc
  simp only [List.nil_append, Nat.zero_add] at hd h1 h2
  rw [hd, h1, h2, List.countP_eq_length_filter, List.countP_eq_length_filter]
  refine ⟨rfl, rfl, ?_⟩
  rw [← List.countP_eq_length_filter, ← List.countP_eq_length_filter]
  have := List.length_eq_countP_add_countP (fun y : String × TimeWindow => (srv y.1 y.2).isSome) (l := d.flatten)
  rw [this]
  congr 1
  refine List.countP_congr fun y _ => ?_
  cases srv y.1 y.2 <;> simp

/-- **C112 (loaded from the disk cache).** Whatever the data centre delivers and however writing fails: the list of the files of
the catalog has those of the waveforms of its picks; with what an earlier call left in the counter, the number reported
is at least twice the number of those that could be read at the beginning, and at most twice the length of the list.  When
no file is needed twice, it is exactly twice the number of those that could be read.  The claim would be that it is this
number. -/
theorem report_cached_partial {s : Settings} {cat : Catalog ℝ} {fs : Files} {leftover : Nat} {st : State} {c : Counters}
    (hk : ∀ ev ∈ events cat, Known s cat ev) (h : catalogC s cat fs leftover = .ok (st, c)) :
    (∀ name, name ∈ files s cat ↔ ∃ ev ∈ events cat, ∃ rec w, Wanted s cat ev rec w ∧ name = phaseId w rec) ∧
    leftover + 2 * ((files s cat).filter (readable fs)).length ≤ c.cached ∧
    c.cached ≤ leftover + 2 * (files s cat).length ∧
    ((files s cat).Nodup → c.cached = leftover + 2 * ((files s cat).filter (readable fs)).length) := by
  obtain ⟨hrun, hc, -⟩ := eventsC _ h
  refine ⟨fun name => ?_, ?_, hc.upper, fun hnd => ?_⟩
  · unfold files
    rw [List.mem_flatMap]
    refine exists_congr fun ev => and_congr_right fun hev => ?_
    obtain ⟨sa, sb, he⟩ := events_run (events cat) hrun ev hev
    have he' := he
    unfold event at he'
    rw [bind_eq_ok] at he'
    obtain ⟨ls, hls, he'⟩ := he'
    rw [bind_eq_ok] at he'
    obtain ⟨b, hb, -⟩ := he'
    have hw := asks_windows ls hb
    unfold filesOf
    rw [hls]
    simp only [List.mem_map]
    constructor
    · rintro ⟨x, hx, rfl⟩
      obtain ⟨w, hw⟩ := hw x hx
      exact ⟨x.2, w, wanted_iff.2 ⟨x, (mem_eventLoads (hk ev hev) hls x).1 hx, rfl, hw⟩, fileOf_eq hw⟩
    · rintro ⟨rec, w, hwant, rfl⟩
      obtain ⟨x, hx, rfl, hw⟩ := wanted_iff.1 hwant
      exact ⟨x, (mem_eventLoads (hk ev hev) hls x).2 hx, fileOf_eq hw⟩
  · rw [← List.countP_eq_length_filter]
    exact hc.lower
  · rw [← List.countP_eq_length_filter]
    exact hc.exact hnd

/-- **C112, the claim is false.** When all files of the catalog are in the cache, twice their number is reported, and what an earlier
call left in the counter. -/
theorem report_cached_twice {s : Settings} {cat : Catalog ℝ} {fs : Files} {leftover : Nat} {st : State} {c : Counters}
    (hall : ∀ name ∈ files s cat, readable fs name = true) (h : catalogC s cat fs leftover = .ok (st, c)) :
    c.cached = leftover + 2 * (files s cat).length := by
  obtain ⟨-, hc, -⟩ := eventsC _ h
  refine le_antisymm hc.upper (le_trans (le_of_eq ?_) hc.lower)
  have : (files s cat).countP (readable fs) = (files s cat).length := List.countP_eq_length.2 hall
  show leftover + 2 * (files s cat).length = leftover + 2 * (files s cat).countP (readable fs)
  rw [this]

/-- **C112 (a single event).** Before a single event is relocated the log reports how many of its waveforms were downloaded and how
many were not available: of the waveforms that its cross-correlations need, each taken once, those that the data centre has
and those that it does not have. -/
theorem report_event {o : Options} {stations : AMap String (Station ℝ)} {e : Env} {cat : Catalog ℝ} {nb : Neighbours}
    {refEv : Event ℝ} {b : Batch ℝ} (srv : String → TimeWindow → Option (Trace ℝ))
    (hst : ∀ rp ∈ cat.phasesOf refEv.id, Used o cat nb refEv rp → (stations.find? rp.stationId).isSome = true)
    (h : Access.preload o stations e cat nb refEv = .ok b) :
    ∃ needed : List (String × TimeWindow), needed.Nodup ∧
      (∀ y, y ∈ needed ↔ Needed o e.components e.extra cat nb refEv y.1 y.2) ∧
      (Counters.update ⟨0, 0, 0⟩ (b.load (answers srv)).1) =
        ⟨(needed.filter fun y => (srv y.1 y.2).isSome).length, (needed.filter fun y => (srv y.1 y.2).isNone).length, 0⟩ := by
  obtain ⟨h1, -, h3, h4, h5⟩ := preload_requests hst h
  obtain ⟨h6, h7⟩ := preload_counts h
  obtain ⟨h8, h9⟩ := load_counts (srv := srv) h1 h6 h7
  have hfl : (b.load (answers srv)).2.toList.flatten = b.requests := by
    rw [h5]
    by_cases hr : b.requests = []
    · rw [if_pos hr, hr]
      rfl
    · rw [if_neg hr]
      simp
  refine ⟨b.requests, h3, fun y => h4 y.1 y.2, ?_⟩
  rw [hfl] at h8 h9
  unfold Counters.update
  simp only [h8, h9, Nat.zero_add, List.countP_eq_length_filter]

end Verif.Preload

namespace Verif.Preload.Example
open Verif.Catalog Verif.Waveform Verif.Access Verif.AccessSpec Verif.PreloadSpec
open Verif.Access.Example (bg opt env pick)

theorem files_eq : files settings bg = [phaseId winP recP, phaseId winS (recS "HHN"), phaseId winS (recS "HHE")] := by
  have hP : pickLoads settings (Access.Example.event 1 10000000) (pick 1 15000000 "Pg" .P) =
      .ok [((TimeWindow.mk 14000000 16000000).extend 1000000 1000000, recP)] := by
    unfold pickLoads
    rw [if_neg (by decide)]
    have : longWindow settings.o (Access.Example.event 1 10000000) (pick 1 15000000 "Pg" .P) = .ok ⟨14000000, 16000000⟩ :=
      longWindow_iff.2 ⟨_, rfl, long_P⟩
    rw [this]
    rfl
  have hS : pickLoads settings (Access.Example.event 1 10000000) (pick 1 19000000 "Sg" .S) =
      .ok [((TimeWindow.mk 18000000 20500000).extend 1000000 1000000, recS "HHN"),
        ((TimeWindow.mk 18000000 20500000).extend 1000000 1000000, recS "HHE")] := by
    unfold pickLoads
    rw [if_neg (by decide)]
    have : longWindow settings.o (Access.Example.event 1 10000000) (pick 1 19000000 "Sg" .S) = .ok ⟨18000000, 20500000⟩ :=
      longWindow_iff.2 ⟨_, rfl, long_S⟩
    rw [this]
    rfl
  unfold files
  rw [one_event, List.flatMap_singleton]
  unfold filesOf
  have hp : bg.phasesOf (Access.Example.event 1 10000000).id = [pick 1 15000000 "Pg" .P, pick 1 19000000 "Sg" .S] := picks
  rw [hp]
  simp only [concatM, hP, hS, Outcome.bind_ok]
  simp only [List.append_nil, List.cons_append, List.nil_append, List.map_cons, List.map_nil]
  have fP : fileOf settings ((TimeWindow.mk 14000000 16000000).extend 1000000 1000000, recP) = phaseId winP recP :=
    fileOf_eq (show windowToLoad 2000000 2000000 ((TimeWindow.mk 14000000 16000000).extend 1000000 1000000) 15000000 = .ok winP
      from load_P)
  have fS : ∀ cha, fileOf settings ((TimeWindow.mk 18000000 20500000).extend 1000000 1000000, recS cha) = phaseId winS (recS cha) :=
    fun cha => fileOf_eq (show windowToLoad 2000000 2000000 ((TimeWindow.mk 18000000 20500000).extend 1000000 1000000) 19000000
      = .ok winS from load_S)
  rw [fP, fS, fS]

theorem wantedP : Wanted settings bg (Access.Example.event 1 10000000) recP winP :=
  (wanted (by rw [one_event]; simp) recP winP).2 (Or.inl ⟨rfl, rfl⟩)
theorem wantedN : Wanted settings bg (Access.Example.event 1 10000000) (recS "HHN") winS :=
  (wanted (by rw [one_event]; simp) _ winS).2 (Or.inr ⟨Or.inl rfl, rfl⟩)
theorem wantedE : Wanted settings bg (Access.Example.event 1 10000000) (recS "HHE") winS :=
  (wanted (by rw [one_event]; simp) _ winS).2 (Or.inr ⟨Or.inr rfl, rfl⟩)

theorem event_mem : Access.Example.event 1 10000000 ∈ events bg := by rw [one_event]; simp

theorem files_nodup : (files settings bg).Nodup := by
  rw [files_eq]
  have hne : ∀ {r r' : Phase ℝ} {w w' : TimeWindow}, Wanted settings bg (Access.Example.event 1 10000000) r w →
      Wanted settings bg (Access.Example.event 1 10000000) r' w' → stream r ≠ stream r' → phaseId w r ≠ phaseId w' r' :=
    fun h h' hs he => hs (plain_eq (plain _ event_mem _ _ h) (plain _ event_mem _ _ h') he).2
  have hP : stream recP = "N.A..HHZ" := by decide +kernel
  have hN : stream (recS "HHN") = "N.A..HHN" := by decide +kernel
  have hE : stream (recS "HHE") = "N.A..HHE" := by decide +kernel
  have h1 := hne wantedP wantedN (by rw [hP, hN]; decide)
  have h2 := hne wantedP wantedE (by rw [hP, hE]; decide)
  have h3 := hne wantedN wantedE (by rw [hN, hE]; decide)
  simp [h1, h2, h3]

/-- Three waveforms belong to the catalog, and the data centre has two of them.  Filling an empty cache reports two downloads and
a missing one.  Filling it again should report two from the cache and a missing one, and reports four from the cache. -/
theorem reported : ∃ st st2, catalogC settings bg [] 0 = .ok (st, ⟨2, 1, 0⟩) ∧
    catalogC settings bg st.files 0 = .ok (st2, ⟨0, 1, 4⟩) := by
  obtain ⟨st, h⟩ := finishes []
  obtain ⟨st2, h2⟩ := finishes st.files
  obtain ⟨c, hC⟩ := (report_same_run (leftover := 0)).2 h
  obtain ⟨c2, hC2⟩ := (report_same_run (leftover := 0)).2 h2
  have hP : stream recP = "N.A..HHZ" := by decide +kernel
  have hN : stream (recS "HHN") = "N.A..HHN" := by decide +kernel
  have hE : stream (recS "HHE") = "N.A..HHE" := by decide +kernel
  have sP : srv "N.A..HHZ" winP = some traceP := if_pos ⟨rfl, rfl⟩
  have sN : srv "N.A..HHN" winS = some traceS := by
    unfold srv
    rw [if_neg (by decide), if_pos ⟨rfl, rfl⟩]
  have sE : srv "N.A..HHE" winS = none := by
    unfold srv
    rw [if_neg (by decide), if_neg (by decide)]
  have empty : ∀ w rec, ¬ ∃ t, Cached [] w rec t := fun w rec ⟨t, h⟩ => by
    unfold Cached at h
    cases h
  have hcache := preload_cached known plain rfl (fun _ => List.Perm.refl _) consistent (fun _ _ => rfl) h _ event_mem
  have cP : Cached st.files winP recP traceP := (hcache recP winP wantedP traceP).2 (Or.inr ⟨empty _ _, by rw [hP]; exact sP⟩)
  have cN : Cached st.files winS (recS "HHN") traceS :=
    (hcache _ winS wantedN traceS).2 (Or.inr ⟨empty _ _, by rw [hN]; exact sN⟩)
  have cE : ¬ ∃ t, Cached st.files winS (recS "HHE") t := by
    rintro ⟨t, ht⟩
    rcases (hcache _ winS wantedE t).1 ht with h | ⟨-, h⟩
    · exact empty _ _ ⟨t, h⟩
    · rw [hE, sE] at h
      cases h
  -- the downloads, as a whole
  have down : ∀ {fs : Files} {st' : State}, catalog settings bg fs = .ok st' → ∀ l : List (String × TimeWindow), l ≠ [] → l.Nodup →
      (∀ y, y ∈ l ↔ ∃ rec w, Wanted settings bg (Access.Example.event 1 10000000) rec w ∧ (¬ ∃ t, Cached fs w rec t) ∧
        y = (stream rec, w)) → st'.downloads.flatten.Perm l := by
    intro fs st' hst l hne hnd hl
    obtain ⟨d1, d2, d3⟩ := preload_downloads known plain hst
    rw [one_event] at d1
    have hex : ∀ y ∈ l, ∃ d ∈ st'.downloads, y ∈ d := by
      intro y hy
      obtain ⟨rec, w, hw, hnc, rfl⟩ := (hl y).1 hy
      exact d3 _ event_mem rec w hw hnc
    match hdl : st'.downloads with
    | [] =>
      obtain ⟨y, hy⟩ := List.exists_mem_of_ne_nil _ hne
      obtain ⟨d, hd, -⟩ := hex y hy
      rw [hdl] at hd
      cases hd
    | [d] =>
      rw [hdl] at d2 hex
      obtain ⟨-, hdn, ev, hev, hall⟩ := d2 d (by simp)
      rw [one_event, List.mem_singleton] at hev
      subst hev
      simp only [List.flatten_cons, List.flatten_nil, List.append_nil]
      refine (List.perm_ext_iff_of_nodup hdn hnd).2 fun y => ⟨fun hy => ?_, fun hy => ?_⟩
      · exact (hl y).2 (hall y hy)
      · obtain ⟨d', hd', hy'⟩ := hex y hy
        rw [List.mem_singleton.1 hd'] at hy'
        exact hy'
    | _ :: _ :: _ =>
      rw [hdl] at d1
      simp at d1
  have D1 : st.downloads.flatten.Perm [("N.A..HHZ", winP), ("N.A..HHN", winS), ("N.A..HHE", winS)] := by
    refine down h _ (by simp) (by decide) fun y => ⟨fun hy => ?_, ?_⟩
    · simp only [List.mem_cons, List.not_mem_nil, or_false] at hy
      rcases hy with rfl | rfl | rfl
      · exact ⟨recP, winP, wantedP, empty _ _, by rw [hP]⟩
      · exact ⟨recS "HHN", winS, wantedN, empty _ _, by rw [hN]⟩
      · exact ⟨recS "HHE", winS, wantedE, empty _ _, by rw [hE]⟩
    · rintro ⟨rec, w, hw, -, rfl⟩
      rcases (wanted event_mem rec w).1 hw with ⟨rfl, rfl⟩ | ⟨rfl | rfl, rfl⟩
      · rw [hP]; simp
      · rw [hN]; simp
      · rw [hE]; simp
  have D2 : st2.downloads.flatten.Perm [("N.A..HHE", winS)] := by
    refine down h2 _ (by simp) (by decide) fun y => ⟨fun hy => ?_, ?_⟩
    · rw [List.mem_singleton] at hy
      subst hy
      exact ⟨recS "HHE", winS, wantedE, cE, by rw [hE]⟩
    · rintro ⟨rec, w, hw, hn, rfl⟩
      rcases (wanted event_mem rec w).1 hw with ⟨rfl, rfl⟩ | ⟨rfl | rfl, rfl⟩
      · exact absurd ⟨_, cP⟩ hn
      · exact absurd ⟨_, cN⟩ hn
      · rw [hE]; simp
  obtain ⟨r1, r2, -⟩ := report_downloads rfl hC
  obtain ⟨q1, q2, -⟩ := report_downloads rfl hC2
  rw [(D1.filter _).length_eq] at r1 r2
  rw [(D2.filter _).length_eq] at q1 q2
  simp only [List.filter_cons, List.filter_nil, sP, sN, sE, Option.isSome, Option.isNone, if_true, if_false,
    Bool.false_eq_true, List.length_cons, List.length_nil] at r1 r2 q1 q2
  have r3 := (report_cached_partial known hC).2.2.2 files_nodup
  have q3 := (report_cached_partial known hC2).2.2.2 files_nodup
  have e1 : ∀ p, readable [] p = false := fun _ => rfl
  have yes : ∀ {w rec t}, Cached st.files w rec t → readable st.files (phaseId w rec) = true := by
    intro w rec t hc
    rw [readable_eq, cached_iff.1 hc]
    rfl
  have no : readable st.files (phaseId winS (recS "HHE")) = false := by
    rw [readable_eq, notCached_iff.1 cE]
    rfl
  rw [files_eq] at r3 q3
  simp only [List.filter_cons, List.filter_nil, e1, yes cP, yes cN, no, if_true, if_false,
    Bool.false_eq_true, List.length_cons, List.length_nil] at r3 q3
  refine ⟨st, st2, ?_, ?_⟩
  · rw [hC]
    cases c
    simp only at r1 r2 r3
    rw [r1, r2, r3]
  · rw [hC2]
    cases c2
    simp only at q1 q2 q3
    rw [q1, q2, q3]

/-- with all three in the cache, and five reads not yet reported, eleven are reported -/
example : ∃ st c, catalogC settings bg ((files settings bg).map fun p => (p, .readable traceP)) 5 = .ok (st, c) ∧ c.cached = 11 := by
  have hfind : ∀ (l : List (List Char)), ∀ name ∈ l,
      AMap.find? (l.map fun p => (p, File.readable traceP)) name = some (.readable traceP) := by
    intro l
    induction l with
    | nil => intro name hn; cases hn
    | cons a l ih =>
      intro name hn
      rw [List.map_cons]
      unfold AMap.find?
      by_cases ha : a = name
      · rw [if_pos ha]
      · rw [if_neg ha]
        exact ih name ((List.mem_cons.1 hn).resolve_left (Ne.symm ha))
  obtain ⟨st, h⟩ := finishes ((files settings bg).map fun p => (p, .readable traceP))
  obtain ⟨c, hC⟩ := (report_same_run (leftover := 5)).2 h
  have := report_cached_twice (fun name hn => by
    unfold readable
    rw [hfind _ name hn]) hC
  exact ⟨st, c, hC, by rw [this, files_eq]; rfl⟩

end Verif.Preload.Example

namespace Verif.Access.Example
open Verif.Catalog Verif.Waveform Verif.AccessSpec Verif.Preload

/-- a data centre that has one of the two horizontal components and not the vertical one -/
noncomputable def srvE (s : String) (tw : TimeWindow) : Option (Trace ℝ) :=
  if s = "N.A..HHE" ∧ tw = winS then some ⟨37000000, 2, [0, 1, 2, 3, 4, 5, 6, 7, 8, 9]⟩ else none

/-- one waveform of the event downloaded, two not available -/
example : ∃ b, preload opt bg.stations env cat nb (event 2 30000000) = .ok b ∧
    Counters.update ⟨0, 0, 0⟩ (b.load (answers srvE)).1 = ⟨1, 2, 0⟩ := by
  obtain ⟨b, hb⟩ := collected
  have hst : ∀ rp ∈ cat.phasesOf (event 2 30000000).id, Used opt cat nb (event 2 30000000) rp →
      (bg.stations.find? rp.stationId).isSome = true := by
    intro rp hrp _
    rw [stations_known rp hrp]; decide +kernel
  obtain ⟨l, hn, hm, hc⟩ := report_event srvE hst hb
  have hp : l.Perm [("N.A..HHZ", winP), ("N.A..HHN", winS), ("N.A..HHE", winS)] := by
    refine (List.perm_ext_iff_of_nodup hn (by decide)).2 fun y => ?_
    rw [hm, needed_iff]
    obtain ⟨s, w⟩ := y
    simp only [List.mem_cons, List.not_mem_nil, or_false, Prod.mk.injEq]
    tauto
  refine ⟨b, hb, ?_⟩
  have e1 : srvE "N.A..HHZ" winP = none := if_neg (by decide)
  have e2 : srvE "N.A..HHN" winS = none := if_neg (by decide)
  rw [hc, (hp.filter _).length_eq, (hp.filter _).length_eq]
  have e3 : (srvE "N.A..HHE" winS).isSome = true := by
    unfold srvE
    rw [if_pos ⟨rfl, rfl⟩]
    rfl
  have e4 : (srvE "N.A..HHE" winS).isNone = false := by
    unfold srvE
    rw [if_pos ⟨rfl, rfl⟩]
    rfl
  simp [List.filter_cons, e1, e2, e3, e4]

end Verif.Access.Example
