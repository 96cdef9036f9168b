import Verif.Proofs.WaveformAccess

/-!
# Switching, filling and using the disk cache does not change the waveforms  (C104)
-/

set_option linter.unusedSimpArgs false
set_option linter.unusedSectionVars false

namespace Verif.WfAccess
open Verif.Catalog Verif.Waveform Verif.Access Verif.AccessSpec Verif.PreloadSpec Verif.WfAccessSpec

/-- **C104.** Take any state of the object, after whatever calls, even failed ones, as long as the files found in the cache
directories contain what the data centre has.  Switch the disk cache on or off, and then switch it on, for any directory
and length, or off, fill it, unload waveforms and ask for waveforms in any order.  If these calls can do their work, no call
throws, and every waveform asked for is the one that the data centre gives when it is asked directly. -/
theorem waveforms_unchanged_partial {d : Device} {srv : String → TimeWindow → Option (Trace ℝ)} (hcen : SameCentre d srv)
    (hby : d.e.ByStream) (st : State) (hfiles : ∀ dir, Honest d.e (st.files dir)) {first : Op} {ops : List Op}
    (hfirst : first = .disable ∨ ∃ dir half, first = .enable dir half true)
    (hone : OneProcessing (requests ops)) (hw : ∀ op ∈ ops, Works d srv (lengths (first :: ops)) op)
    {f : Request → Option (Trace ℝ)}
    (hreq : ∀ r ∈ requests ops, process d.e r = .ok (f r) ∧
      ∀ half ∈ lengths (first :: ops), ∀ x ∈ loads d.e r, KeepsLonger d.e half x.1 x.2) :
    ∃ st', run d st (first :: ops) = .ok (st', .done :: ops.map (answer f)) ∧ ∀ dir, Honest d.e (st'.files dir) := by
  have hstep : ∃ st1, step d st first = .ok (st1, .done) ∧ Inv d (requests ops) (lengths (first :: ops)) st1 := by
    rcases hfirst with rfl | ⟨dir, half, rfl⟩
    · exact ⟨_, rfl, inv_init hfiles fun h => by cases h⟩
    · exact ⟨_, rfl, inv_init hfiles fun _ => by simp [lengths]⟩
  obtain ⟨st1, h1, h2⟩ := hstep
  obtain ⟨st2, h3, h4⟩ := run_works hcen hby hone (f := f) h2 hw
    (fun r hr => ⟨hr, hreq r hr⟩)
    (fun n hn => by
      obtain ⟨o, ho, hn⟩ := mem_lengths.1 hn
      exact mem_lengths.2 ⟨o, by simp [ho], hn⟩)
  refine ⟨st2, ?_, h4.files⟩
  simp only [run]
  rw [h1, Outcome.bind_ok]
  simp only
  rw [h3, Outcome.bind_ok]

/-- **C104 (a new object)** is in the state after switching the disk cache off, so all this holds from the start. -/
theorem constructed_off (files : String → Files) (st : State) (hst : st.files = files) (hdir : st.cacheDir = "")
    (hhalf : st.half = 5000000) : construct files = disable st := by
  unfold construct disable initAccess
  subst hst
  rw [hdir, hhalf]

/-- **C104, the claim is false (a directory that cannot be created).** Switching the disk cache on throws, but the object says
that it is on; filling the cache is then undefined: the program uses a cache that does not exist. -/
theorem enable_failed (d : Device) (files : String → Files) (dir : String) (half : Int) (o : Options)
    (effect : Nat → List Char → Written) (fails : Nat → Bool) :
    (∃ st, run d (construct files) [.enable dir half false] = .ok (st, [.exception]) ∧ st.useCache = true ∧ st.cacheDir = dir ∧
      st.chain = .direct .basic) ∧
    run d (construct files) [.enable dir half false, .preload o effect fails] = .ub := by
  refine ⟨⟨_, rfl, rfl, rfl, rfl⟩, ?_⟩
  simp only [run, step, enable, construct, initAccess, preload, replaceLoader, Outcome.bind_ok, Bool.false_eq_true, if_false,
    Bool.not_true]
  split <;> rfl

theorem preload_failed_state (d : Device) (files : String → Files) {dir : String} (hdir : files dir = []) (half : Int) (o : Options)
    (effect : Nat → List Char → Written) {fails : Nat → Bool} {ev : Event ℝ} {evs : List (Event ℝ)} (hev : events d.cat = ev :: evs)
    (hfail : fails ev.id = true) (rs : List (Request × (List Char → Written))) :
    ∃ m, m.traces = [] ∧ (∀ r ∈ rs, r.1.id ∈ m.unloadables) ∧
      run d (construct files) (.enable dir half true :: .preload o effect fails :: rs.map fun r => .request r.1 r.2) =
        .ok (⟨true, dir, half, .cached dir half .waiting, m, files⟩, .done :: .exception :: rs.map fun _ => .waveform none) := by
  have hne : d.cat.eventsSorted ≠ [] := fun h => by simp [events, h] at hev
  have hpre : preload d (enable (construct files) dir half true).1 o effect fails =
      .ok (⟨true, dir, half, .cached dir half .waiting, Mem.init, Function.update files dir []⟩, false) := by
    have hev' : d.cat.eventsSorted.map (·.2) = ev :: evs := hev
    simp only [preload, enable, construct, initAccess, if_true, Bool.not_true, Bool.false_eq_true, if_false, if_neg hne, hev',
      fillEvents, hfail, hdir, Outcome.bind_ok, replaceLoader]
  have hload : ∀ (fs : String → Files), fs dir = [] → ∀ (eff : List Char → Written) (tw : TimeWindow) (ph : Phase ℝ),
      TimeWindow.Built tw → loadChain d.e (.cached dir half .waiting) eff fs tw ph = .ok (none, fs) := by
    intro fs hfs eff tw ph hb
    obtain ⟨w, hw, -⟩ := load_window_contains half half tw hb ph.time
    unfold loadChain
    simp only [hw, Outcome.bind_ok, loadBase, hfs]
    have : diskGet ([] : Files) w ph none (eff (phaseId w ph)) = (none, [], true) := rfl
    rw [this]
    simp only [← hfs, Function.update_eq_self]
  have hlap : ∀ (fs : String → Files), fs dir = [] → ∀ (eff : List Char → Written) (tw : TimeWindow) (ph : Phase ℝ) (c g : String) (q : ℚ),
      loadAndProcessM d.e (loadChain d.e (.cached dir half .waiting) eff) fs tw ph c g q = .ok (none, fs) := by
    intro fs hfs eff tw ph c g q
    unfold loadAndProcessM
    rw [hload fs hfs eff (tw.extend d.e.extra d.e.extra) _ (TimeWindow.Built.ctor _ _), Outcome.bind_ok]
  have hreq : ∀ (m : Mem (Trace ℝ)) (fs : String → Files), m.traces = [] → fs dir = [] → ∀ (r : Request) (eff : List Char → Written),
      ∃ m', m'.traces = [] ∧ (∀ k ∈ m.unloadables, k ∈ m'.unloadables) ∧ r.id ∈ m'.unloadables ∧ request d.e ⟨true, dir, half, .cached dir half .waiting, m, fs⟩ r eff =
        .ok (none, ⟨true, dir, half, .cached dir half .waiting, m', fs⟩) := by
    intro m fs hm hfs r eff
    have hp : processM d.e (loadChain d.e (.cached dir half .waiting) eff) fs r = .ok (none, fs) := by
      unfold processM
      split
      · exact hlap fs hfs ..
      · split
        · rfl
        · split
          · simp only [hlap fs hfs, Outcome.bind_ok]
          · simp only [hlap fs hfs, Outcome.bind_ok]
    unfold request
    have hfind : m.traces.find? r.id = none := by rw [hm]; rfl
    by_cases hu : r.id ∈ m.unloadables
    · refine ⟨m, hm, fun _ h => h, hu, ?_⟩
      simp [Mem.get, hfind, hu]
    · refine ⟨{ m with unloadables := r.id :: m.unloadables }, hm, fun _ h => by simp [h], by simp, ?_⟩
      simp [Mem.get, hfind, hu, hp, Outcome.bind_ok]
  have hrun : ∀ (rs : List (Request × (List Char → Written))) (m : Mem (Trace ℝ)) (fs : String → Files), m.traces = [] → fs dir = [] →
      ∃ m', m'.traces = [] ∧ (∀ k ∈ m.unloadables, k ∈ m'.unloadables) ∧ (∀ r ∈ rs, r.1.id ∈ m'.unloadables) ∧
        run d ⟨true, dir, half, .cached dir half .waiting, m, fs⟩ (rs.map fun r => .request r.1 r.2) =
        .ok (⟨true, dir, half, .cached dir half .waiting, m', fs⟩, rs.map fun _ => .waveform none) := by
    intro rs
    induction rs with
    | nil => exact fun m fs hm _ => ⟨m, hm, fun _ h => h, by simp, rfl⟩
    | cons r rs ih =>
      intro m fs hm hfs
      obtain ⟨m', hm', h1, h2, h⟩ := hreq m fs hm hfs r.1 r.2
      obtain ⟨m'', hm'', h3, h4, hst⟩ := ih m' fs hm' hfs
      refine ⟨m'', hm'', fun k hk => h3 k (h1 k hk), ?_, ?_⟩
      · intro r' hr'
        rcases List.mem_cons.1 hr' with rfl | hr'
        · exact h3 _ h2
        · exact h4 r' hr'
      · simp only [List.map_cons, run, step, h, Outcome.bind_ok, hst]
  obtain ⟨m, hm, -, hu, hst⟩ := hrun rs Mem.init (Function.update files dir []) rfl (by simp)
  refine ⟨m, hm, hu, ?_⟩
  have hfs : Function.update files dir [] = files := by rw [← hdir, Function.update_eq_self]
  rw [hfs] at hst hpre
  have h0 : step d (construct files) (.enable dir half true) = .ok ((enable (construct files) dir half true).1, .done) := rfl
  simp only [run]
  rw [h0, Outcome.bind_ok]
  simp only [step, hpre, Outcome.bind_ok, hst]
  rfl

/-- **C104, the claim is false (the data centre fails while the cache is filled).** Filling an empty cache throws, and from then
on every waveform asked for is said not to exist, although the data centre answers again. -/
theorem preload_failed (d : Device) (files : String → Files) {dir : String} (hdir : files dir = []) (half : Int) (o : Options)
    (effect : Nat → List Char → Written) {fails : Nat → Bool} {ev : Event ℝ} {evs : List (Event ℝ)} (hev : events d.cat = ev :: evs)
    (hfail : fails ev.id = true) (rs : List (Request × (List Char → Written))) :
    ∃ st, run d (construct files) (.enable dir half true :: .preload o effect fails :: rs.map fun r => .request r.1 r.2) =
      .ok (st, .done :: .exception :: rs.map fun _ => .waveform none) := by
  obtain ⟨m, -, -, h⟩ := preload_failed_state d files hdir half o effect hev hfail rs
  exact ⟨_, h⟩

end Verif.WfAccess

namespace Verif.WfAccess.Example
open Verif.Catalog Verif.Waveform Verif.Access Verif.AccessSpec Verif.PreloadSpec Verif.WfAccessSpec
open Verif.Access.Example (bg opt env pick)
open Verif.Preload.Example (winP winS traceP traceS recP recS one_event picks long_P long_S wanted known plain)

/-- a shorter window of the vertical component, and what the data centre has for it -/
def winQ : TimeWindow := ⟨13500000, 16500000⟩
noncomputable def traceQ : Trace ℝ := ⟨13500000, 2, [1, 2, 3, 4, 5, 6, 7]⟩

/-- a data centre that has the vertical and one of the horizontal components -/
noncomputable def srv (s : String) (w : TimeWindow) : Option (Trace ℝ) :=
  if s = "N.A..HHZ" ∧ w = winQ then some traceQ else Preload.Example.srv s w

noncomputable def d : Device := ⟨{ env with load := fun w rec => srv (stream rec) w }, answers srv, id, bg⟩

/-- one second of the vertical component, around the P pick -/
noncomputable def r : Request := ⟨⟨14500000, 15500000⟩, recP, Access.Example.event 1 10000000, Access.Example.sta, "", 0, .none⟩

theorem centre : SameCentre d srv := ⟨rfl, fun _ => List.Perm.refl _, fun _ _ => rfl⟩

theorem srv_window {s : String} {w : TimeWindow} {t : Trace ℝ} (h : srv s w = some t) : t.timeWindow = w := by
  unfold srv at h
  by_cases h1 : s = "N.A..HHZ" ∧ w = winQ
  · rw [if_pos h1] at h
    cases h
    rw [h1.2]
    decide +kernel
  · rw [if_neg h1] at h
    exact Preload.Example.srv_window h

theorem byStream : d.e.ByStream := by
  refine ⟨fun tw p q h => ?_, fun _ _ _ _ _ _ => rfl⟩
  obtain ⟨h1, h2, h3, h4⟩ := h
  show srv (stream p) tw = srv (stream q) tw
  unfold stream
  rw [h1, h2, h3, h4]

theorem works_preload : Works d srv [2000000] (.preload opt (fun _ _ => .complete) fun _ => false) := by
  refine ⟨fun _ => rfl, fun _ _ => trivial, ?_⟩
  intro half hh ev hev
  rw [List.mem_singleton] at hh
  subst hh
  have conv : ∀ {rec w}, Wanted (settings d opt (fun _ _ => .complete) 2000000) d.cat ev rec w →
      Wanted Preload.Example.settings bg ev rec w := fun h => ⟨h.wanted⟩
  refine ⟨known ev hev, ?_, fun rec w h => plain ev hev rec w (conv h), ?_⟩
  · intro reqs hall
    have hpre := Preload.Example.consistent ev hev reqs (fun y hy => by
      obtain ⟨rec, w, h1, h2⟩ := hall y hy
      exact ⟨rec, w, conv h1, h2⟩)
    have same : ∀ s w, (s, w) ∈ reqs → srv s w = Preload.Example.srv s w := by
      intro s w hm
      obtain ⟨rec, v, h1, h2⟩ := hall _ hm
      injection h2 with h2 h3
      subst h3
      unfold srv
      rw [if_neg]
      rintro ⟨-, rfl⟩
      rcases (wanted hev _ _).1 (conv h1) with ⟨-, h⟩ | ⟨-, h⟩ <;> exact absurd h (by decide)
    refine ⟨fun s w t hm hs => ?_, fun s w w' t' hm hm' hs hc => ?_⟩
    · exact hpre.1 s w t hm (by rw [← same s w hm]; exact hs)
    · rw [same s w hm]
      exact hpre.2 s w w' t' hm hm' (by rw [← same s w' hm']; exact hs) hc
  · have hev' := hev
    rw [show events d.cat = _ from one_event, List.mem_singleton] at hev'
    subst hev'
    intro p hp _
    have hp' : p ∈ bg.phasesOf 1 := hp
    rw [picks] at hp'
    simp only [List.mem_cons, List.not_mem_nil, or_false] at hp'
    rcases hp' with rfl | rfl
    · exact ⟨_, _, rfl, long_P⟩
    · exact ⟨_, _, rfl, long_S⟩

theorem load_short : d.e.load winQ recP = some traceQ := by
  show srv (stream recP) winQ = some traceQ
  exact if_pos ⟨by decide +kernel, rfl⟩

theorem load_long : d.e.load winP recP = some traceP := by
  show srv (stream recP) winP = some traceP
  unfold srv
  rw [if_neg (by decide), Preload.Example.srv, if_pos ⟨by decide +kernel, rfl⟩]

theorem keeps : ∀ x ∈ loads d.e r, KeepsLonger d.e 2000000 x.1 x.2 := by
  intro x hx
  have : x = (winQ, recP) := by
    have h : loads d.e r = [(winQ, recP)] := rfl
    rw [h] at hx
    simpa using hx
  subst this
  intro w hw
  have h : windowToLoad 2000000 2000000 winQ recP.time = .ok winP := by
    show windowToLoad 2000000 2000000 winQ 15000000 = .ok winP
    decide +kernel
  have hw' : Outcome.ok w = Outcome.ok winP := hw.symm.trans h
  cases hw'
  have hev : Access.Example.event 1 10000000 ∈ events bg := by rw [one_event]; simp
  refine ⟨plain _ hev recP winP ((wanted hev _ _).2 (Or.inl ⟨rfl, rfl⟩)), ?_⟩
  simp only
  rw [load_long, load_short]
  simp only
  rw [if_neg (by decide)]
  have h1 : traceP.timeWindow ≠ winQ := by decide +kernel
  have h2 : traceP.timeWindow.contains winQ = true := by decide +kernel
  have h3 : ⌊traceP.index winQ.startTime⌋ = 1 := by decide +kernel
  have h4 : ⌈traceP.index winQ.endTime⌉ = 7 := by decide +kernel
  have h5 : traceP.data.length = 9 := by decide +kernel
  have h6 : traceP.stime + Trace.secToDur (((1 : ℤ) : ℚ) / traceP.freq) = 13500000 := by decide +kernel
  simp only [sliced, Trace.slice, if_neg h1, h2, h3, h4, h5, h6]
  rfl

theorem processed : ∃ t, process d.e r = .ok (some t) := by
  have h0 : process d.e r = (match d.e.load winQ recP with
    | none => .ok none
    | some t => sliced (demean t) r.tw) := rfl
  rw [h0, load_short]
  simp only
  have h1 : (demean traceQ).timeWindow ≠ r.tw := by decide +kernel
  have h2 : (demean traceQ).timeWindow.contains r.tw = true := by decide +kernel
  have h3 : ⌊(demean traceQ).index r.tw.startTime⌋ = 2 := by decide +kernel
  have h4 : ⌈(demean traceQ).index r.tw.endTime⌉ = 4 := by decide +kernel
  have h5 : (demean traceQ).data.length = 7 := by decide +kernel
  simp [sliced, Trace.slice, h1, h2, h3, h4, h5]

theorem one {rs : List Request} (h : ∀ x ∈ rs, x = r) : OneProcessing rs := by
  refine ⟨fun x hx => ?_, fun x hx y hy _ => ?_⟩
  · rw [h x hx]
    refine ⟨?_, ?_, fun _ c hc root hroot he => ?_⟩
    · show '.' ∉ "N".toList ∧ '.' ∉ "A".toList ∧ '.' ∉ "".toList ∧ '.' ∉ "HHZ".toList
      decide
    · show PlainWindow ⟨14500000, 15500000⟩
      unfold PlainWindow PlainTime
      decide +kernel
    · have he := congrArg List.reverse he
      change "HHZ".toList.reverse = _ at he
      simp at he hc
      rcases hc with rfl | rfl | rfl <;> simp_all
  · rw [h x hx, h y hy]
    exact ⟨rfl, rfl, fun h => by rcases h with h | h <;> cases h⟩

theorem empty_honest : ∀ dir, Honest d.e ((fun _ => [] : String → Files) dir) := fun _ _ _ _ _ h => by
  unfold Cached at h
  cases h

/-- The cache is switched on after the data centre failed while another one was filled; it is used, filled, used, dropped from
memory, used, switched off: the waveform, which exists, is always delivered. -/
example : ∃ (t : Trace ℝ) (st st' : State), process d.e r = .ok (some t) ∧
    run d (construct fun _ => []) [.enable "old" 1000000 true, .preload opt (fun _ _ => .complete) fun _ => true,
      .request r fun _ => .complete] = .ok (st, [.done, .exception, .waveform none]) ∧
    run d st [.enable "new" 2000000 true, .request r fun _ => .garbage, .preload opt (fun _ _ => .complete) fun _ => false,
      .request r fun _ => .complete, .unload, .request r fun _ => .complete, .disable, .request r fun _ => .complete] =
      .ok (st', [.done, .waveform (some t), .done, .waveform (some t), .done, .waveform (some t), .done, .waveform (some t)]) := by
  obtain ⟨t, ht⟩ := processed
  obtain ⟨m, -, -, hst⟩ := preload_failed_state d (fun _ => []) (dir := "old") rfl 1000000 opt (fun _ _ => .complete)
    (fails := fun _ => true) one_event rfl [(r, fun _ => .complete)]
  obtain ⟨st', h, -⟩ := waveforms_unchanged_partial centre byStream
    ⟨true, "old", 1000000, .cached "old" 1000000 .waiting, m, fun _ => []⟩ empty_honest (first := .enable "new" 2000000 true)
    (ops := [.request r fun _ => .garbage, .preload opt (fun _ _ => .complete) fun _ => false,
      .request r fun _ => .complete, .unload, .request r fun _ => .complete, .disable, .request r fun _ => .complete])
    (f := fun _ => some t) (Or.inr ⟨_, _, rfl⟩) (one (by simp [requests]))
    (by
      intro op hop
      have hl : lengths [Op.enable "new" 2000000 true, .request r fun _ => .garbage,
        .preload opt (fun _ _ => .complete) fun _ => false, .request r fun _ => .complete, .unload,
        .request r fun _ => .complete, .disable, .request r fun _ => .complete] = [2000000] := rfl
      rw [hl]
      simp only [List.mem_cons, List.not_mem_nil, or_false] at hop
      rcases hop with rfl | rfl | rfl | rfl | rfl | rfl | rfl
      · exact fun _ => trivial
      · exact works_preload
      · exact fun _ => trivial
      · exact trivial
      · exact fun _ => trivial
      · exact trivial
      · exact fun _ => trivial)
    (by
      intro x hx
      have : x = r := by simpa [requests] using hx
      subst this
      refine ⟨ht, fun half hh => ?_⟩
      have : half = 2000000 := by simpa [lengths] using hh
      subst this
      exact keeps)
  exact ⟨t, _, st', ht, hst, h⟩

/-- **C104, the claim is false (it is not repaired by filling the cache again).** The data centre fails while the cache is filled;
a waveform is asked for; the cache is filled again, without errors; the waveform, which is now in the cache, is still said
not to exist. -/
theorem preload_not_repaired : ∃ (t : Trace ℝ) (st : State), process d.e r = .ok (some t) ∧
    run d (construct fun _ => []) [.enable "c" 2000000 true, .preload opt (fun _ _ => .complete) fun _ => true,
      .request r fun _ => .complete, .preload opt (fun _ _ => .complete) fun _ => false, .request r fun _ => .complete] =
      .ok (st, [.done, .exception, .waveform none, .done, .waveform none]) := by
  obtain ⟨t, ht⟩ := processed
  obtain ⟨m, hm, hu, hst⟩ := preload_failed_state d (fun _ => []) (dir := "c") rfl 2000000 opt (fun _ _ => .complete)
    (fails := fun _ => true) one_event rfl [(r, fun _ => .complete)]
  obtain ⟨h1, h2, h3⟩ := works_preload
  have hm0 : (2000000 : Int) ∈ [(2000000 : Int)] := by simp
  obtain ⟨fs', hfill, -⟩ := fillEvents_honest centre h1 h2 (events d.cat) (fs := []) (o := opt) (half := 2000000)
    (fun ev hev => ⟨(h3 _ hm0 ev hev).1, (h3 _ hm0 ev hev).2.1, (h3 _ hm0 ev hev).2.2.1, fun s =>
      Preload.event_finishes (h3 _ hm0 ev hev).1 centre.1 centre.2.1 (h3 _ hm0 ev hev).2.1
        (fun p hp hn => (h3 _ hm0 ev hev).2.2.2 p hp hn) s⟩) (empty_honest "c")
  have hne : d.cat.eventsSorted ≠ [] := fun h => by
    have : events d.cat = [] := by simp [events, h]
    rw [show events d.cat = _ from one_event] at this
    cases this
  have hpre : preload d ⟨true, "c", 2000000, .cached "c" 2000000 .waiting, m, fun _ => []⟩ opt (fun _ _ => .complete)
      (fun _ => false) = .ok (⟨true, "c", 2000000, .cached "c" 2000000 .basic, m, Function.update (fun _ => []) "c" fs'⟩, true) := by
    have hfill' : fillEvents ⟨opt, d.cat.stations, d.e, 2000000, 2000000, d.order, d.source, fun _ _ => .complete⟩ d.cat
        (fun _ => false) (d.cat.eventsSorted.map (·.2)) [] = .ok (fs', true) := hfill
    simp only [preload, Bool.not_true, Bool.false_eq_true, if_false, if_neg hne, hfill', Outcome.bind_ok, if_true, replaceLoader]
  have hlast : request d.e ⟨true, "c", 2000000, .cached "c" 2000000 .basic, m, Function.update (fun _ => []) "c" fs'⟩ r
      (fun _ => .complete) = .ok (none, ⟨true, "c", 2000000, .cached "c" 2000000 .basic, m, Function.update (fun _ => []) "c" fs'⟩) := by
    have hfind : m.traces.find? r.id = none := by rw [hm]; rfl
    have hin : r.id ∈ m.unloadables := hu (r, fun _ => .complete) (by simp)
    simp [request, Mem.get, hfind, hin]
  refine ⟨t, ⟨true, "c", 2000000, .cached "c" 2000000 .basic, m, Function.update (fun _ => []) "c" fs'⟩, ht, ?_⟩
  have happ : ∀ (a b : List Op) (s s1 s2 : State) (ra rb : List Reply), run d s a = .ok (s1, ra) → run d s1 b = .ok (s2, rb) →
      run d s (a ++ b) = .ok (s2, ra ++ rb) := by
    intro a
    induction a with
    | nil =>
      intro b s s1 s2 ra rb h1 h2
      cases h1
      exact h2
    | cons o a ih =>
      intro b s s1 s2 ra rb h1 h2
      simp only [run, bind_eq_ok] at h1
      obtain ⟨⟨sx, rx⟩, h3, ⟨sy, ry⟩, h4, h5⟩ := h1
      simp only at h4 h5
      cases h5
      simp only [List.cons_append, run, h3, Outcome.bind_ok, ih b sx _ s2 _ rb h4 h2]
  refine happ [_, _, _] [_, _] _ _ _ [_, _, _] [_, _] hst ?_
  simp only [run, step, hpre, Outcome.bind_ok, hlast, if_true]

end Verif.WfAccess.Example
