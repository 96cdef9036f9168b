import Verif.Proofs.Preload
import Verif.Props.WaveformWindow
import Verif.Props.Access

/-!
# C95: filling the disk cache with the waveforms of the catalog

`Wanted` says which waveforms belong to the catalog; `Cached` is the readable content of a cache file; `srv` is the data
centre.
-/

set_option linter.unusedSimpArgs false
set_option linter.unusedSectionVars false

namespace Verif.Preload
open Verif.Catalog Verif.Waveform Verif.Access Verif.AccessSpec Verif.PreloadSpec

/-- **C95 (what is downloaded).** Whatever the data centre delivers and however writing fails: there is at most one
download per event; none is empty or asks twice for the same waveform; each asks only for waveforms of one event
that were not in the cache at the beginning; and every waveform of the catalog that was not is asked for. -/
theorem preload_downloads {s : Settings} {cat : Catalog ℝ} {fs : Files} {st : State}
    (hk : ∀ ev ∈ events cat, Known s cat ev) (hplain : ∀ ev ∈ events cat, ∀ rec w, Wanted s cat ev rec w → Plain rec w)
    (h : catalog s cat fs = .ok st) :
    st.downloads.length ≤ (events cat).length ∧
    (∀ d ∈ st.downloads, d ≠ [] ∧ d.Nodup ∧ ∃ ev ∈ events cat, ∀ y ∈ d, ∃ rec w, Wanted s cat ev rec w ∧
      (¬ ∃ t, Cached fs w rec t) ∧ y = (stream rec, w)) ∧
    ∀ ev ∈ events cat, ∀ rec w, Wanted s cat ev rec w → (¬ ∃ t, Cached fs w rec t) → ∃ d ∈ st.downloads, (stream rec, w) ∈ d := by
  obtain ⟨ds, hd⟩ := run_downloads (events cat) hk hplain h
  have he : st.downloads = ds := by
    rw [hd.eq]
    rfl
  rw [he]
  exact ⟨hd.count, hd.each, fun ev hev rec w hw hn => hd.all ev hev rec w hw (hplain ev hev rec w hw) hn⟩

/-- **C95 (what is kept).** Whatever the data centre delivers and however writing fails: a file that could be read keeps
its content, and only files of waveforms of the catalog are written. -/
theorem preload_keeps {s : Settings} {cat : Catalog ℝ} {fs : Files} {st : State} (hk : ∀ ev ∈ events cat, Known s cat ev)
    (h : catalog s cat fs = .ok st) :
    (∀ rec w t, Cached fs w rec t → Cached st.files w rec t) ∧
    ∀ name, (∀ ev ∈ events cat, ∀ rec w, Wanted s cat ev rec w → name ≠ phaseId w rec) →
      st.files.find? name = fs.find? name := by
  have hg := run_grows (events cat) hk h
  refine ⟨fun rec w t ht => cached_iff.2 (hg.readable _ _ (cached_iff.1 ht)), fun name hn => hg.other name ?_⟩
  rintro ⟨ev, hev, rec, w, hw, he⟩
  exact hn ev hev rec w hw he

/-- **C95 (what is in the cache afterwards).** With a consistent data centre and a disk that can be written, the cache holds
for each waveform of the catalog what it held before or, if that was nothing readable, what the data centre has. -/
theorem preload_cached {s : Settings} {cat : Catalog ℝ} {fs : Files} {st : State} {srv : String → TimeWindow → Option (Trace ℝ)}
    (hk : ∀ ev ∈ events cat, Known s cat ev) (hplain : ∀ ev ∈ events cat, ∀ rec w, Wanted s cat ev rec w → Plain rec w)
    (hsrc : s.source = answers srv) (horder : ∀ l, (s.order l).Perm l) (hc : ∀ ev ∈ events cat, ConsistentFor srv s cat ev)
    (hwrite : ∀ n p, s.effect n p = .complete) (h : catalog s cat fs = .ok st) :
    ∀ ev ∈ events cat, ∀ rec w, Wanted s cat ev rec w → ∀ t,
      Cached st.files w rec t ↔ Cached fs w rec t ∨ ((¬ ∃ t', Cached fs w rec t') ∧ srv (stream rec) w = some t) := by
  intro ev hev rec w hw t
  have := (run_cached (events cat) hk hsrc horder hc hplain hwrite h).2 ev hev rec w hw
  rw [cached_iff, cached_iff, notCached_iff, this]
  show (Option.or (fromCache fs (phaseId w rec)) _) = _ ↔ _
  cases fromCache fs (phaseId w rec) <;> simp

/-- **C95 (correlating afterwards).** A waveform that the correlation of a pick of the catalog then loads through the cache
is read from the disk, without asking the data centre, if it was cached before or the data centre had it. -/
theorem preload_then_correlate {s : Settings} {cat : Catalog ℝ} {fs : Files} {st : State}
    {srv : String → TimeWindow → Option (Trace ℝ)}
    (hk : ∀ ev ∈ events cat, Known s cat ev) (hplain : ∀ ev ∈ events cat, ∀ rec w, Wanted s cat ev rec w → Plain rec w)
    (hsrc : s.source = answers srv) (horder : ∀ l, (s.order l).Perm l) (hc : ∀ ev ∈ events cat, ConsistentFor srv s cat ev)
    (hwrite : ∀ n p, s.effect n p = .complete) (h : catalog s cat fs = .ok st)
    {ev : Event ℝ} (hev : ev ∈ events cat) {pick : Phase ℝ} (hp : pick ∈ cat.phasesOf ev.id) (hno : pick.procType ≠ .NO)
    {tw : TimeWindow} (htw : longWindow s.o ev pick = .ok tw) {cs : List String} (hcs : components s.o pick = .ok cs)
    {c : String} (hcm : c ∈ cs) {r : Request} (hr : waveformRequest s.o s.stations tw ev pick c = .ok (some r))
    {x : TimeWindow × Phase ℝ} (hx : x ∈ loads s.e r) {w : TimeWindow}
    (hw : windowToLoad s.before s.after x.1 x.2.time = .ok w)
    (hav : (∃ t, Cached fs w x.2 t) ∨ ∃ t, srv (stream x.2) w = some t) (answer : Option (Trace ℝ)) (effect : Written) :
    ∃ t, diskGet st.files w x.2 answer effect = (some t, st.files, false) ∧
      (Cached fs w x.2 t ∨ srv (stream x.2) w = some t) := by
  obtain ⟨cha, hcha, rfl⟩ := (loads_mem (hk ev hev pick hp)).1 ⟨r, hr, hx⟩
  have hwant : Wanted s cat ev { pick with channelCode := cha } w := by
    refine wanted_iff.2 ⟨_, ⟨pick, hp, hno, c, components_iff.1 ⟨cs, hcs, hcm⟩, cha, hcha, tw, htw, rfl⟩, rfl, hw⟩
  have key := preload_cached hk hplain hsrc horder hc hwrite h ev hev _ w hwant
  have : ∃ t, Cached st.files w { pick with channelCode := cha } t := by
    by_cases hn : ∃ t, Cached fs w { pick with channelCode := cha } t
    · obtain ⟨t, ht⟩ := hn
      exact ⟨t, (key t).2 (Or.inl ht)⟩
    · rcases hav with hav | ⟨t, ht⟩
      · exact absurd hav hn
      · exact ⟨t, (key t).2 (Or.inr ⟨hn, ht⟩)⟩
  obtain ⟨t, ht⟩ := this
  refine ⟨t, ?_, ?_⟩
  · unfold diskGet
    rw [cached_iff.1 ht]
  · rcases (key t).1 ht with h | ⟨-, h⟩
    · exact Or.inl h
    · exact Or.inr h

/-- **C95 (again).** Filling the cache again asks only for what the data centre does not have. -/
theorem preload_again {s : Settings} {cat : Catalog ℝ} {fs : Files} {st st2 : State} {srv : String → TimeWindow → Option (Trace ℝ)}
    (hk : ∀ ev ∈ events cat, Known s cat ev) (hplain : ∀ ev ∈ events cat, ∀ rec w, Wanted s cat ev rec w → Plain rec w)
    (hsrc : s.source = answers srv) (horder : ∀ l, (s.order l).Perm l) (hc : ∀ ev ∈ events cat, ConsistentFor srv s cat ev)
    (hwrite : ∀ n p, s.effect n p = .complete) (h : catalog s cat fs = .ok st) (h2 : catalog s cat st.files = .ok st2) :
    ∀ d ∈ st2.downloads, ∀ y ∈ d, srv y.1 y.2 = none := by
  intro d hd y hy
  obtain ⟨-, -, ev, hev, hall⟩ := (preload_downloads hk hplain h2).2.1 d hd
  obtain ⟨rec, w, hw, hn, rfl⟩ := hall y hy
  have key := preload_cached hk hplain hsrc horder hc hwrite h ev hev rec w hw
  cases hs : srv (stream rec) w with
  | none => rfl
  | some t =>
    exfalso
    apply hn
    by_cases hcd : ∃ t', Cached fs w rec t'
    · obtain ⟨t', ht'⟩ := hcd
      exact ⟨t', (key t').2 (Or.inl ht')⟩
    · exact ⟨t, (key t).2 (Or.inr ⟨hcd, hs⟩)⟩

/-- filling the cache with the waveforms of one event finishes -/
theorem event_finishes {s : Settings} {cat : Catalog ℝ} {ev : Event ℝ} {srv : String → TimeWindow → Option (Trace ℝ)}
    (hk : Known s cat ev) (hsrc : s.source = answers srv) (horder : ∀ l, (s.order l).Perm l) (hc : ConsistentFor srv s cat ev)
    (hwin : ∀ pick ∈ cat.phasesOf ev.id, pick.procType ≠ .NO →
      ∃ cfg w, s.o.phase pick.procType = some cfg ∧ XCorr.windowLong cfg.win ev.time pick.time = some w) (st : State) :
    ∃ st', event s cat st ev = .ok st' := by
  have hls : ∃ ls, concatM (pickLoads s ev) (cat.phasesOf ev.id) = .ok ls := by
    refine concatM_ok fun pick hp => ?_
    unfold pickLoads
    by_cases hno : pick.procType = .NO
    · rw [if_pos hno]
      exact ⟨_, rfl⟩
    rw [if_neg hno]
    obtain ⟨cfg, w, h1, h2⟩ := hwin pick hp hno
    rw [longWindow_iff.2 ⟨cfg, h1, h2⟩, Outcome.bind_ok]
    have hcs : ∃ cs, components s.o pick = .ok cs := by
      unfold components
      rw [h1]
      exact ⟨_, rfl⟩
    obtain ⟨cs, hcs⟩ := hcs
    rw [hcs, Outcome.bind_ok]
    refine concatM_ok fun c _ => ?_
    obtain ⟨sta, hsta⟩ := Option.isSome_iff_exists.1 (hk pick hp)
    unfold componentLoads waveformRequest
    rw [hsta]
    simp only
    cases channelOf pick c with
    | none => exact ⟨_, rfl⟩
    | some kc => exact ⟨_, rfl⟩
  obtain ⟨ls, hls⟩ := hls
  have hmem := mem_eventLoads hk hls
  have hw : ∀ x ∈ ls, ∃ w, windowToLoad s.before s.after x.1 x.2.time = .ok w := by
    intro x hx
    obtain ⟨pick, -, -, -, -, cha, -, w0, -, rfl⟩ := (hmem x).1 hx
    obtain ⟨w, hw, -⟩ := load_window_contains s.before s.after (w0.extend s.e.extra s.e.extra) (TimeWindow.Built.ctor _ _) pick.time
    exact ⟨w, hw⟩
  have hb : ∃ b, ls.foldlM (ask s st.files) Batch.init = .ok b := by
    suffices hstep : ∀ x ∈ ls, ∀ b : Batch ℝ, b.loaded = false → ∃ b', ask s st.files b x = .ok b' ∧ b'.loaded = false by
      obtain ⟨b, hb, -⟩ := foldlM_ok hstep (s := Batch.init) rfl
      exact ⟨b, hb⟩
    intro x hx b hb
    obtain ⟨w, hw⟩ := hw x hx
    unfold ask Batch.request
    rw [hw, Outcome.bind_ok]
    by_cases hd : (diskGet st.files w x.2 none .complete).2.2 = true
    · rw [if_pos hd, if_neg (by rw [hb]; decide)]
      by_cases hm : (streamId x.2, w) ∈ b.requests
      · rw [if_pos hm]; exact ⟨b, rfl, hb⟩
      · rw [if_neg hm]; exact ⟨_, rfl, hb⟩
    · rw [if_neg hd]
      exact ⟨b, rfl, hb⟩
  obtain ⟨b, hb⟩ := hb
  have ha := adds_asks hk hls hb
  have hcb : Consistent srv b.requests := by
    refine hc _ fun y hy => ?_
    rcases (ha.mem y).1 hy with h | ⟨rec, w, h1, -, h3⟩
    · cases h
    · exact ⟨rec, w, h1, h3⟩
  have hkp : ∃ f, ls.foldlM (keep s ev.id (b.load s.source).1) st.files = .ok f := by
    suffices hstep : ∀ x ∈ ls, ∀ f : Files, (∀ p t, fromCache st.files p = some t → fromCache f p = some t) →
        ∃ f', keep s ev.id (b.load s.source).1 f x = .ok f' ∧ ∀ p t, fromCache st.files p = some t → fromCache f' p = some t by
      obtain ⟨f, hf, -⟩ := foldlM_ok hstep (s := st.files) (fun _ _ h => h)
      exact ⟨f, hf⟩
    intro x hx f hf
    have hk' : ∃ f', keep s ev.id (b.load s.source).1 f x = .ok f' := by
      obtain ⟨w, hw⟩ := hw x hx
      unfold keep
      rw [hw, Outcome.bind_ok]
      cases hcf : fromCache f (phaseId w x.2) with
      | some t => exact ⟨_, rfl⟩
      | none =>
        have h0 : fromCache st.files (phaseId w x.2) = none := by
          cases h0 : fromCache st.files (phaseId w x.2) with
          | none => rfl
          | some t => rw [hf _ _ h0] at hcf; cases hcf
        have hm : (streamId x.2, w) ∈ b.requests :=
          (ha.mem _).2 (Or.inr ⟨x.2, w, wanted_iff.2 ⟨x, (hmem x).1 hx, rfl, hw⟩, notCached_iff.2 h0, rfl⟩)
        simp only
        rw [hsrc, batchGet_eq horder (ha.loaded rfl) ha.traces hcb hm]
        exact ⟨_, rfl⟩
    obtain ⟨f', hf'⟩ := hk'
    exact ⟨f', hf', fun p t hp => (grows_keep hf').readable p t (hf p t hp)⟩
  obtain ⟨f, hf⟩ := hkp
  refine ⟨⟨f, st.downloads ++ (b.load s.source).2.toList⟩, ?_⟩
  unfold event
  rw [hls, Outcome.bind_ok, hb, Outcome.bind_ok, hf, Outcome.bind_ok]

/-- **C95 (it does finish).** If there are settings for the P and S picks and their windows can be computed, filling the
cache succeeds, whatever the disk does: picks of other phases and waveforms the data centre does not have do no harm. -/
theorem preload_finishes {s : Settings} {cat : Catalog ℝ} {srv : String → TimeWindow → Option (Trace ℝ)}
    (hk : ∀ ev ∈ events cat, Known s cat ev)
    (hsrc : s.source = answers srv) (horder : ∀ l, (s.order l).Perm l) (hc : ∀ ev ∈ events cat, ConsistentFor srv s cat ev)
    (hwin : ∀ ev ∈ events cat, ∀ pick ∈ cat.phasesOf ev.id, pick.procType ≠ .NO →
      ∃ cfg w, s.o.phase pick.procType = some cfg ∧ XCorr.windowLong cfg.win ev.time pick.time = some w) (fs : Files) :
    ∃ st, catalog s cat fs = .ok st := by
  suffices hstep : ∀ ev ∈ events cat, ∀ st : State, ∃ st', event s cat st ev = .ok st' by
    obtain ⟨r, hr, -⟩ := foldlM_ok (P := fun _ : State => True) (f := event s cat) (l := events cat) (s := ⟨fs, []⟩)
      (fun ev hev st _ => by
        obtain ⟨st', h⟩ := hstep ev hev st
        exact ⟨st', h, trivial⟩) trivial
    exact ⟨r, hr⟩
  exact fun ev hev st => event_finishes (hk ev hev) hsrc horder (hc ev hev) (hwin ev hev) st

end Verif.Preload

namespace Verif.Preload.Example
open Verif.Catalog Verif.Waveform Verif.Access Verif.AccessSpec Verif.PreloadSpec
open Verif.Access.Example (bg opt env pick)

def winP : TimeWindow := ⟨13000000, 17000000⟩
def winS : TimeWindow := ⟨17000000, 22000000⟩

noncomputable def traceP : Trace ℝ := ⟨13000000, 2, [0, 1, 2, 3, 4, 5, 6, 7, 8]⟩
noncomputable def traceS : Trace ℝ := ⟨17000000, 2, [0, 1, 2, 3, 4, 5, 6, 7, 8, 9, 10]⟩

/-- a data centre that has the vertical and one of the horizontal components -/
noncomputable def srv (s : String) (w : TimeWindow) : Option (Trace ℝ) :=
  if s = "N.A..HHZ" ∧ w = winP then some traceP else if s = "N.A..HHN" ∧ w = winS then some traceS else none

/-- at least two seconds before and after the pick are cached -/
noncomputable def settings : Settings :=
  ⟨opt, bg.stations, env, 2000000, 2000000, id, answers srv, fun _ _ => .complete⟩

theorem one_event : events bg = [Access.Example.event 1 10000000] := rfl

theorem picks : bg.phasesOf 1 = [pick 1 15000000 "Pg" .P, pick 1 19000000 "Sg" .S] := rfl

theorem long_P : XCorr.windowLong ⟨-1/2, 1/2, 0, 1/2⟩ 10000000 15000000 = some ⟨14000000, 16000000⟩ := by decide +kernel
theorem long_S : XCorr.windowLong ⟨-1/2, 1, 0, 1/2⟩ 10000000 19000000 = some ⟨18000000, 20500000⟩ := by decide +kernel

theorem load_P : windowToLoad 2000000 2000000 ((TimeWindow.mk 14000000 16000000).extend 1000000 1000000) 15000000 = .ok winP := by
  decide +kernel
theorem load_S : windowToLoad 2000000 2000000 ((TimeWindow.mk 18000000 20500000).extend 1000000 1000000) 19000000 = .ok winS := by
  decide +kernel

/-- the pick on a channel -/
noncomputable def recP : Phase ℝ := { pick 1 15000000 "Pg" .P with channelCode := "HHZ" }
noncomputable def recS (cha : String) : Phase ℝ := { pick 1 19000000 "Sg" .S with channelCode := cha }

/-- three waveforms belong to the catalog -/
theorem wanted {ev : Event ℝ} (hev : ev ∈ events bg) (rec : Phase ℝ) (w : TimeWindow) : Wanted settings bg ev rec w ↔
    (rec = recP ∧ w = winP) ∨ ((rec = recS "HHN" ∨ rec = recS "HHE") ∧ w = winS) := by
  rw [one_event, List.mem_singleton] at hev
  subst hev
  constructor
  · rintro ⟨p, hp, -, c, ⟨cfg, hcfg, hc⟩, cha, hcha, hrec, cfg', w0, hcfg', hw0, hw⟩
    have hp' : p ∈ bg.phasesOf 1 := hp
    rw [picks] at hp'
    simp only [List.mem_cons, List.not_mem_nil, or_false] at hp'
    rcases hp' with rfl | rfl
    · cases hcfg
      cases hcfg'
      have hw' : some w0 = some ⟨14000000, 16000000⟩ := hw0.symm.trans long_P
      cases hw'
      have hc' : c = "Z" := by simpa using hc
      subst hc'
      have : cha = "HHZ" := by simpa [Channel, pick] using hcha
      subst this
      have hw' : Outcome.ok w = Outcome.ok winP := hw.symm.trans load_P
      cases hw'
      exact Or.inl ⟨hrec, rfl⟩
    · cases hcfg
      cases hcfg'
      have hw' : some w0 = some ⟨18000000, 20500000⟩ := hw0.symm.trans long_S
      cases hw'
      have hc' : c = "L2" := by simpa using hc
      subst hc'
      have : cha = "HHN" ∨ cha = "HHE" := by simpa [Channel, env, settings] using hcha
      have hw' : Outcome.ok w = Outcome.ok winS := hw.symm.trans load_S
      cases hw'
      refine Or.inr ⟨?_, rfl⟩
      rcases this with rfl | rfl
      · exact Or.inl hrec
      · exact Or.inr hrec
  · rintro (⟨rfl, rfl⟩ | ⟨h, rfl⟩)
    · refine ⟨pick 1 15000000 "Pg" .P, ?_, by decide, "Z", ⟨_, rfl, Or.inl ⟨by simp, by simp, by simp⟩⟩, "HHZ", ?_, rfl,
        _, _, rfl, long_P, load_P⟩
      · show _ ∈ bg.phasesOf 1
        rw [picks]; simp
      · exact Or.inr (Or.inr ⟨by decide, by decide, by decide, by decide, by decide +kernel⟩)
    · rcases h with rfl | rfl
      · refine ⟨pick 1 19000000 "Sg" .S, ?_, by decide, "L2", ⟨_, rfl, Or.inl ⟨by simp, by simp, by simp⟩⟩, "HHN", ?_, rfl,
          _, _, rfl, long_S, load_S⟩
        · show _ ∈ bg.phasesOf 1
          rw [picks]; simp
        · exact Or.inr (Or.inl ⟨rfl, _, _, rfl, Or.inl rfl⟩)
      · refine ⟨pick 1 19000000 "Sg" .S, ?_, by decide, "L2", ⟨_, rfl, Or.inl ⟨by simp, by simp, by simp⟩⟩, "HHE", ?_, rfl,
          _, _, rfl, long_S, load_S⟩
        · show _ ∈ bg.phasesOf 1
          rw [picks]; simp
        · exact Or.inr (Or.inl ⟨rfl, _, _, rfl, Or.inr rfl⟩)

theorem known : ∀ ev ∈ events bg, Known settings bg ev := by
  intro ev hev
  rw [one_event, List.mem_singleton] at hev
  subst hev
  intro p hp
  have hp' : p ∈ bg.phasesOf 1 := hp
  rw [picks] at hp'
  simp only [List.mem_cons, List.not_mem_nil, or_false] at hp'
  rcases hp' with rfl | rfl
  · show (bg.stations.find? "N.A.").isSome = true
    decide +kernel
  · show (bg.stations.find? "N.A.").isSome = true
    decide +kernel

theorem plainP : PlainWindow winP := by
  unfold PlainWindow PlainTime
  decide +kernel
theorem plainS : PlainWindow winS := by
  unfold PlainWindow PlainTime
  decide +kernel

theorem plain : ∀ ev ∈ events bg, ∀ rec w, Wanted settings bg ev rec w → Plain rec w := by
  intro ev hev rec w hw
  rcases (wanted hev rec w).1 hw with ⟨rfl, rfl⟩ | ⟨rfl | rfl, rfl⟩
  · refine ⟨?_, plainP⟩
    show '.' ∉ "N".toList ∧ '.' ∉ "A".toList ∧ '.' ∉ "".toList ∧ '.' ∉ "HHZ".toList
    decide
  · refine ⟨?_, plainS⟩
    show '.' ∉ "N".toList ∧ '.' ∉ "A".toList ∧ '.' ∉ "".toList ∧ '.' ∉ "HHN".toList
    decide
  · refine ⟨?_, plainS⟩
    show '.' ∉ "N".toList ∧ '.' ∉ "A".toList ∧ '.' ∉ "".toList ∧ '.' ∉ "HHE".toList
    decide

theorem srv_window {s : String} {w : TimeWindow} {t : Trace ℝ} (h : srv s w = some t) : t.timeWindow = w := by
  unfold srv at h
  by_cases h1 : s = "N.A..HHZ" ∧ w = winP
  · rw [if_pos h1] at h
    cases h
    rw [h1.2]
    decide +kernel
  · rw [if_neg h1] at h
    by_cases h2 : s = "N.A..HHN" ∧ w = winS
    · rw [if_pos h2] at h
      cases h
      rw [h2.2]
      decide +kernel
    · rw [if_neg h2] at h
      cases h

theorem consistent : ∀ ev ∈ events bg, ConsistentFor srv settings bg ev := by
  intro ev hev reqs hall
  have same : ∀ s w w', (s, w) ∈ reqs → (s, w') ∈ reqs → w' = w := by
    intro s w w' hm hm'
    obtain ⟨rec, v, h1, h2⟩ := hall _ hm
    obtain ⟨rec', v', h1', h2'⟩ := hall _ hm'
    injection h2 with hs hv
    injection h2' with hs' hv'
    subst hv hv'
    have hP : stream recP = "N.A..HHZ" := by decide +kernel
    have hN : stream (recS "HHN") = "N.A..HHN" := by decide +kernel
    have hE : stream (recS "HHE") = "N.A..HHE" := by decide +kernel
    rcases (wanted hev _ _).1 h1 with ⟨rfl, rfl⟩ | ⟨rfl | rfl, rfl⟩ <;>
      rcases (wanted hev _ _).1 h1' with ⟨rfl, rfl⟩ | ⟨rfl | rfl, rfl⟩ <;>
      first
        | rfl
        | (rw [hs] at hs'; simp only [hP, hN, hE] at hs'; exact absurd hs' (by decide))
  refine ⟨fun s w t hm hs => ?_, fun s w w' t' hm hm' hs _ => ?_⟩
  · rw [srv_window hs]
    simp [TimeWindow.contains]
  · have := same s w w' hm hm'
    subst this
    rw [if_pos (srv_window hs), hs]

theorem finishes (fs : Files) : ∃ st, catalog settings bg fs = .ok st := by
  refine preload_finishes known rfl (fun _ => List.Perm.refl _) consistent (fun ev hev p hp _ => ?_) fs
  rw [one_event, List.mem_singleton] at hev
  subst hev
  have hp' : p ∈ bg.phasesOf 1 := hp
  rw [picks] at hp'
  simp only [List.mem_cons, List.not_mem_nil, or_false] at hp'
  rcases hp' with rfl | rfl
  · exact ⟨_, _, rfl, long_P⟩
  · exact ⟨_, _, rfl, long_S⟩

/-- starting with an empty cache: the hypotheses of the theorems hold, two waveforms are cached, and filling the cache again
asks for the third one only -/
example : ∃ st st2, catalog settings bg [] = .ok st ∧ catalog settings bg st.files = .ok st2 ∧
    (∃ d ∈ st.downloads, ("N.A..HHZ", winP) ∈ d) ∧ (∃ d ∈ st.downloads, ("N.A..HHE", winS) ∈ d) ∧
    Cached st.files winP recP traceP ∧ Cached st.files winS (recS "HHN") traceS ∧
    (¬ ∃ t, Cached st.files winS (recS "HHE") t) ∧ ∀ d ∈ st2.downloads, ∀ y ∈ d, y = ("N.A..HHE", winS) := by
  obtain ⟨st, h⟩ := finishes []
  obtain ⟨st2, h2⟩ := finishes st.files
  have hP : stream recP = "N.A..HHZ" := by decide +kernel
  have hN : stream (recS "HHN") = "N.A..HHN" := by decide +kernel
  have hE : stream (recS "HHE") = "N.A..HHE" := by decide +kernel
  have sP : srv "N.A..HHZ" winP = some traceP := if_pos ⟨rfl, rfl⟩
  have sN : srv "N.A..HHN" winS = some traceS := by
    unfold srv
    rw [if_neg (by decide), if_pos ⟨rfl, rfl⟩]
  have sE : srv "N.A..HHE" winS = none := by
    unfold srv
    rw [if_neg (by decide), if_neg (by decide)]
  have hev : Access.Example.event 1 10000000 ∈ events bg := by rw [one_event]; simp
  have empty : ∀ w rec t, ¬ Cached [] w rec t := fun w rec t h => by
    unfold Cached at h
    cases h
  have hc := preload_cached known plain rfl (fun _ => List.Perm.refl _) consistent (fun _ _ => rfl) h _ hev
  have hd := (preload_downloads known plain h).2.2 _ hev
  have wP := (wanted hev recP winP).2 (Or.inl ⟨rfl, rfl⟩)
  have wN := (wanted hev (recS "HHN") winS).2 (Or.inr ⟨Or.inl rfl, rfl⟩)
  have wE := (wanted hev (recS "HHE") winS).2 (Or.inr ⟨Or.inr rfl, rfl⟩)
  refine ⟨st, st2, h, h2, ?_, ?_, ?_, ?_, ?_, ?_⟩
  · have := hd recP winP wP (fun ⟨t, ht⟩ => empty _ _ t ht)
    rwa [hP] at this
  · have := hd (recS "HHE") winS wE (fun ⟨t, ht⟩ => empty _ _ t ht)
    rwa [hE] at this
  · exact (hc recP winP wP traceP).2 (Or.inr ⟨fun ⟨t, ht⟩ => empty _ _ t ht, by rw [hP]; exact sP⟩)
  · exact (hc _ winS wN traceS).2 (Or.inr ⟨fun ⟨t, ht⟩ => empty _ _ t ht, by rw [hN]; exact sN⟩)
  · rintro ⟨t, ht⟩
    rcases (hc _ winS wE t).1 ht with h | ⟨-, h⟩
    · exact empty _ _ _ h
    · rw [hE, sE] at h
      cases h
  · intro d hd y hy
    have hnone := preload_again known plain rfl (fun _ => List.Perm.refl _) consistent (fun _ _ => rfl) h h2 d hd y hy
    obtain ⟨-, -, ev, hev', hall⟩ := (preload_downloads known plain h2).2.1 d hd
    obtain ⟨rec, w, hw, -, rfl⟩ := hall y hy
    rcases (wanted hev' rec w).1 hw with ⟨rfl, rfl⟩ | ⟨rfl | rfl, rfl⟩
    · simp only [hP, sP] at hnone
      cases hnone
    · simp only [hN, sN] at hnone
      cases hnone
    · rw [hE]

end Verif.Preload.Example
