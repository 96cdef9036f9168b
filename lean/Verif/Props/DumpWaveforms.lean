import Verif.Proofs.DumpWaveforms
import Verif.Props.WaveformAccess

/-!
# C106: dumped waveforms
-/

set_option linter.unusedSimpArgs false

namespace Verif.Dump
open Verif.Catalog Verif.Waveform Verif.Access Verif.AccessSpec Verif.PreloadSpec Verif.WfAccess Verif.WfAccessSpec
open Verif.DumpSpec

/-- **C106.** After the calls of C104, dump the waveforms of the catalog to a directory with any files in it.  If the settings
are made for every pick, every waveform can be processed and no two different waveforms have the same file, this ends
normally.  Each file that could be written has the waveform of its pick and component as the data centre has it, in the
correlation window; every other file is as it was, and the files of the disk cache still contain what the data centre has. -/
theorem waveforms_dumped_partial {d : Device} {srv : String → TimeWindow → Option (Trace ℝ)} (hcen : SameCentre d srv)
    (hby : d.e.ByStream) (st : WfAccess.State) (hfiles : ∀ dir, Honest d.e (st.files dir)) {first : Op} {ops : List Op}
    (hfirst : first = .disable ∨ ∃ dir half, first = .enable dir half true)
    (hone : OneProcessing (requests ops)) (hw : ∀ op ∈ ops, Works d srv (lengths (first :: ops)) op)
    {f : Request → Option (Trace ℝ)}
    (hreq : ∀ r ∈ requests ops, process d.e r = .ok (f r) ∧
      ∀ half ∈ lengths (first :: ops), ∀ x ∈ loads d.e r, KeepsLonger d.e half x.1 x.2)
    {o : Options} (hready : Ready d o) (hclash : NoClash d o)
    (hlonger : ∀ ev pick c r, Selected d o ev pick c → ShortRequest d o ev pick c r →
      ∀ half ∈ lengths (first :: ops), ∀ x ∈ loads d.e r, KeepsLonger d.e half x.1 x.2)
    {effect : List Char → Written} (heffect : ∀ p, NotCut (effect p)) (written : String → Bool)
    (found : AMap String (Trace ℝ)) :
    ∃ st' out, run d st (first :: ops) = .ok (st', .done :: ops.map (answer f)) ∧
      dumpWaveforms d o st' effect written found = .ok out ∧
      (∀ ev pick c t, Selected d o ev pick c → Shows d o ev pick c t → written (file ev pick c) = true →
        out.dumped.find? (file ev pick c) = some t) ∧
      (∀ name, (∀ ev pick c t, Selected d o ev pick c → Shows d o ev pick c t → written name = true → name ≠ file ev pick c) →
        out.dumped.find? name = found.find? name) ∧
      ∀ dir, Honest d.e (out.files dir) := by
  have hinv : ∃ st1, step d st first = .ok (st1, .done) ∧ Inv d (requests ops) (lengths (first :: ops)) st1 := by
    rcases hfirst with rfl | ⟨dir, half, rfl⟩
    · exact ⟨_, rfl, inv_init hfiles fun h => by cases h⟩
    · exact ⟨_, rfl, inv_init hfiles fun _ => by simp [lengths]⟩
  obtain ⟨st1, h1, hinv⟩ := hinv
  obtain ⟨st', h2, h3⟩ := run_works hcen hby hone (f := f) hinv hw (fun r hr => ⟨hr, hreq r hr⟩)
    (fun n hn => mem_lengths.2 (by
      obtain ⟨op, hop, hn⟩ := mem_lengths.1 hn
      exact ⟨op, by simp [hop], hn⟩))
  obtain ⟨out, h4, h5⟩ := dump_good (written := written) (found := found) (st := st')
    ⟨hcen, h3.sound, heffect, hready, hclash, hlonger⟩ rfl h3.files
  refine ⟨st', out, ?_, h4, h5.new, h5.old, h5.honest⟩
  simp only [run]
  rw [h1, Outcome.bind_ok]
  simp only
  rw [h2]
  rfl

/-- **C106 (file names).** If no code has a dot, files with the same name are of the same event, station, channel and
phase. -/
theorem file_names {ev ev' : Event ℝ} {pick pick' : Phase ℝ} {c c' : String} (h : Codes pick c) (h' : Codes pick' c') :
    file ev pick c = file ev' pick' c' ↔ ev.id = ev'.id ∧ pick.networkCode = pick'.networkCode ∧
      pick.stationCode = pick'.stationCode ∧ pick.locationCode = pick'.locationCode ∧
      firstTwo pick.channelCode ++ c = firstTwo pick'.channelCode ++ c' ∧ pick.type = pick'.type := by
  constructor
  · exact file_inj h h'
  · rintro ⟨h1, h2, h3, h4, h5, h6⟩
    unfold file
    rw [h1, h2, h3, h4, h5, h6]

/-- **C106 (no clash).** If no code has a dot, no two events have the same number, and no event has two picks of the same type
for the same codes, no two different waveforms have the same file. -/
theorem no_clash {d : Device} {o : Options} (hcodes : ∀ ev pick c, Selected d o ev pick c → Codes pick c)
    (hev : ∀ ev ∈ events d.cat, ∀ ev' ∈ events d.cat, ev.id = ev'.id → ev = ev')
    (hpick : ∀ ev ∈ events d.cat, ∀ pick ∈ d.cat.phasesOf ev.id, ∀ pick' ∈ d.cat.phasesOf ev.id,
      pick.networkCode = pick'.networkCode → pick.stationCode = pick'.stationCode → pick.locationCode = pick'.locationCode →
      pick.type = pick'.type → pick = pick') : NoClash d o := by
  intro ev pick c t ev' pick' c' t' hs ht hs' ht' he
  obtain ⟨h1, h2, h3, h4, h5, h6⟩ := (file_names (hcodes _ _ _ hs) (hcodes _ _ _ hs')).1 he
  obtain rfl := hev ev hs.1 ev' hs'.1 h1
  obtain rfl := hpick ev hs.1 pick hs.2.1 pick' hs'.2.1 h2 h3 h4 h6
  have : c = c' := by simpa using h5
  subst this
  exact shows_unique ht ht'

end Verif.Dump

namespace Verif.Dump.Example
open Verif.Catalog Verif.Waveform Verif.Access Verif.AccessSpec Verif.PreloadSpec Verif.WfAccess Verif.WfAccessSpec
open Verif.DumpSpec
open Verif.Access.Example (bg opt env pick event sta)
open Verif.Preload.Example (recP recS one_event picks)
open Verif.WfAccess.Example (d srv r)

theorem short_P : XCorr.windowShort ⟨-1/2, 1/2, 0, 1/2⟩ 10000000 15000000 = some ⟨14500000, 15500000⟩ := by decide +kernel
theorem short_S : XCorr.windowShort ⟨-1/2, 1, 0, 1/2⟩ 10000000 19000000 = some ⟨18500000, 20000000⟩ := by decide +kernel

/-- what is asked for the horizontal components, around the S pick -/
noncomputable def rS : Request := ⟨⟨18500000, 20000000⟩, recS "HHZ", event 1 10000000, sta, "", 0, .l2⟩

theorem only {ev : Event ℝ} {p : Phase ℝ} {c : String} (h : Selected d opt ev p c) :
    ev = event 1 10000000 ∧ ((p = pick 1 15000000 "Pg" .P ∧ c = "Z") ∨ (p = pick 1 19000000 "Sg" .S ∧ c = "L2")) := by
  obtain ⟨h1, h2, -, cfg, hcfg, hc⟩ := h
  rw [show events d.cat = _ from one_event, List.mem_singleton] at h1
  subst h1
  refine ⟨rfl, ?_⟩
  have h2' : p ∈ bg.phasesOf 1 := h2
  rw [picks] at h2'
  simp only [List.mem_cons, List.not_mem_nil, or_false] at h2'
  rcases h2' with rfl | rfl
  · cases hcfg
    exact Or.inl ⟨rfl, by simpa using hc⟩
  · cases hcfg
    exact Or.inr ⟨rfl, by simpa using hc⟩

theorem asks {ev : Event ℝ} {p : Phase ℝ} {c : String} {q : Request} (h : Selected d opt ev p c) (ha : ShortRequest d opt ev p c q) :
    q = r ∨ q = rS := by
  obtain ⟨rfl, hpc⟩ := only h
  obtain ⟨cfg, w, st, kind, cha, h1, h2, h3, h4, rfl⟩ := ha
  rcases hpc with ⟨rfl, rfl⟩ | ⟨rfl, rfl⟩
  · cases h1
    have h2' : some w = some ⟨14500000, 15500000⟩ := h2.symm.trans short_P
    cases h2'
    have h3' : some st = some sta := h3.symm.trans (show bg.stations.find? "N.A." = some sta from rfl)
    cases h3'
    have h4' : some (kind, cha) = some (.none, "HHZ") := (channelOf_iff.2 h4).symm.trans
      (show channelOf (pick 1 15000000 "Pg" .P) "Z" = _ by decide +kernel)
    cases h4'
    exact Or.inl rfl
  · cases h1
    have h2' : some w = some ⟨18500000, 20000000⟩ := h2.symm.trans short_S
    cases h2'
    have h3' : some st = some sta := h3.symm.trans (show bg.stations.find? "N.A." = some sta from rfl)
    cases h3'
    have h4' : some (kind, cha) = some (.l2, "HHZ") := (channelOf_iff.2 h4).symm.trans
      (show channelOf (pick 1 19000000 "Sg" .S) "L2" = _ by decide +kernel)
    cases h4'
    exact Or.inr rfl

theorem asked_P : Selected d opt (event 1 10000000) (pick 1 15000000 "Pg" .P) "Z" ∧
    ShortRequest d opt (event 1 10000000) (pick 1 15000000 "Pg" .P) "Z" r := by
  refine ⟨⟨?_, ?_, by decide, _, rfl, Or.inl ⟨by simp, by simp, by simp⟩⟩, _, _, sta, .none, "HHZ", rfl, short_P, rfl, ?_, rfl⟩
  · show _ ∈ events bg
    rw [one_event]
    simp
  · show _ ∈ bg.phasesOf 1
    rw [picks]
    simp
  · exact channelOf_iff.1 (show channelOf (pick 1 15000000 "Pg" .P) "Z" = _ by decide +kernel)

/-- the horizontal components are not there -/
theorem processed_S : process d.e rS = .ok none := by
  have h : ∀ cha, d.e.load ⟨17500000, 21000000⟩ (recS cha) = none := by
    intro cha
    show srv (stream (recS cha)) ⟨17500000, 21000000⟩ = none
    unfold srv
    rw [if_neg (by rintro ⟨-, h⟩; exact absurd h (by decide)), Preload.Example.srv,
      if_neg (by rintro ⟨-, h⟩; exact absurd h (by decide)), if_neg (by rintro ⟨-, h⟩; exact absurd h (by decide))]
  have h1 : loadAndProcess d.e rS.tw rS.ph "HHN" "" 0 = .ok none := by
    unfold loadAndProcess
    rw [show d.e.load (rS.tw.extend d.e.extra d.e.extra) { rS.ph with channelCode := "HHN" } = none from h "HHN"]
  have h2 : loadAndProcess d.e rS.tw rS.ph "HHE" "" 0 = .ok none := by
    unfold loadAndProcess
    rw [show d.e.load (rS.tw.extend d.e.extra d.e.extra) { rS.ph with channelCode := "HHE" } = none from h "HHE"]
  have h0 : process d.e rS = (do
      let h1 ← loadAndProcess d.e rS.tw rS.ph "HHN" "" 0
      let h2 ← loadAndProcess d.e rS.tw rS.ph "HHE" "" 0
      match h1, h2 with
      | some h1, some h2 => transformL2 h1 h2
      | _, _ => .ok none) := rfl
  rw [h0, h1, h2]
  rfl

theorem keeps_S : ∀ x ∈ loads d.e rS, KeepsLonger d.e 2000000 x.1 x.2 := by
  intro x hx
  have hx' : x ∈ [(TimeWindow.mk 17500000 21000000, recS "HHN"), (TimeWindow.mk 17500000 21000000, recS "HHE")] := hx
  have none_of : ∀ cha w, w ≠ WfAccess.Example.winQ → w ≠ Preload.Example.winP → w ≠ Preload.Example.winS →
      d.e.load w (recS cha) = none := by
    intro cha w h1 h2 h3
    show srv (stream (recS cha)) w = none
    unfold srv
    rw [if_neg (fun h => h1 h.2), Preload.Example.srv, if_neg (fun h => h2 h.2), if_neg (fun h => h3 h.2)]
  have key : ∀ cha, ('.' ∉ cha.toList) → KeepsLonger d.e 2000000 ⟨17500000, 21000000⟩ (recS cha) := by
    intro cha hd w hw
    have h : windowToLoad 2000000 2000000 ⟨17500000, 21000000⟩ (recS cha).time = .ok ⟨17000000, 21000000⟩ := by
      show windowToLoad 2000000 2000000 ⟨17500000, 21000000⟩ 19000000 = .ok ⟨17000000, 21000000⟩
      decide +kernel
    have hw' : Outcome.ok w = Outcome.ok (TimeWindow.mk 17000000 21000000) := hw.symm.trans h
    cases hw'
    refine ⟨⟨⟨show '.' ∉ "N".toList by decide, show '.' ∉ "A".toList by decide, show '.' ∉ "".toList by decide, hd⟩, ?_⟩, ?_⟩
    · unfold PlainWindow PlainTime
      decide +kernel
    · rw [none_of cha ⟨17000000, 21000000⟩ (by decide) (by decide) (by decide)]
      exact none_of cha ⟨17500000, 21000000⟩ (by decide) (by decide) (by decide)
  simp only [List.mem_cons, List.not_mem_nil, or_false] at hx'
  rcases hx' with rfl | rfl
  · exact key "HHN" (by decide)
  · exact key "HHE" (by decide)

theorem ready : Ready d opt := by
  refine ⟨?_, ?_, ?_⟩
  · intro ev hev p hp
    rw [show events d.cat = _ from one_event, List.mem_singleton] at hev
    subst hev
    have hp' : p ∈ bg.phasesOf 1 := hp
    rw [picks] at hp'
    simp only [List.mem_cons, List.not_mem_nil, or_false] at hp'
    rcases hp' with rfl | rfl <;> rfl
  · intro ev hev p hp _
    rw [show events d.cat = _ from one_event, List.mem_singleton] at hev
    subst hev
    have hp' : p ∈ bg.phasesOf 1 := hp
    rw [picks] at hp'
    simp only [List.mem_cons, List.not_mem_nil, or_false] at hp'
    rcases hp' with rfl | rfl
    · exact ⟨_, _, rfl, short_P⟩
    · exact ⟨_, _, rfl, short_S⟩
  · intro ev p c q hs ha
    rcases asks hs ha with rfl | rfl
    · obtain ⟨t, ht⟩ := WfAccess.Example.processed
      exact ⟨_, ht⟩
    · exact ⟨_, processed_S⟩

theorem clash_free : NoClash d opt := by
  refine no_clash ?_ ?_ ?_
  · intro ev p c hs
    obtain ⟨rfl, ⟨rfl, rfl⟩ | ⟨rfl, rfl⟩⟩ := only hs
    · exact ⟨by decide +kernel, by decide +kernel, by decide +kernel, by decide +kernel, by decide +kernel, by decide +kernel⟩
    · exact ⟨by decide +kernel, by decide +kernel, by decide +kernel, by decide +kernel, by decide +kernel, by decide +kernel⟩
  · intro ev hev ev' hev' _
    rw [show events d.cat = _ from one_event, List.mem_singleton] at hev hev'
    rw [hev, hev']
  · intro ev hev p hp p' hp' _ _ _ ht
    rw [show events d.cat = _ from one_event, List.mem_singleton] at hev
    subst hev
    have h1 : p ∈ bg.phasesOf 1 := hp
    have h2 : p' ∈ bg.phasesOf 1 := hp'
    rw [picks] at h1 h2
    simp only [List.mem_cons, List.not_mem_nil, or_false] at h1 h2
    rcases h1 with rfl | rfl <;> rcases h2 with rfl | rfl
    · rfl
    · exact absurd ht (by decide +kernel)
    · exact absurd ht (by decide +kernel)
    · rfl

/-- With a disk cache that is switched on and filled, the waveform of the P pick is dumped, and another file is left alone. -/
example (old : Trace ℝ) : ∃ (t : Trace ℝ) (st' : WfAccess.State) (out : State), process d.e r = .ok (some t) ∧
    run d (construct fun _ => []) [.enable "new" 2000000 true, .preload opt (fun _ _ => .complete) fun _ => false] =
      .ok (st', [.done, .done]) ∧
    dumpWaveforms d opt st' (fun _ => .complete) (fun _ => true) [("old", old)] = .ok out ∧
    out.dumped.find? "ev1.N.A..HHZ.Pg.mseed" = some t ∧ out.dumped.find? "old" = some old := by
  obtain ⟨t, ht⟩ := WfAccess.Example.processed
  obtain ⟨st', out, h1, h2, h3, h4, -⟩ := waveforms_dumped_partial WfAccess.Example.centre WfAccess.Example.byStream
    (construct fun _ => []) WfAccess.Example.empty_honest (first := .enable "new" 2000000 true)
    (ops := [.preload opt (fun _ _ => .complete) fun _ => false]) (f := fun _ => none) (Or.inr ⟨_, _, rfl⟩)
    (WfAccess.Example.one (by simp [requests]))
    (by
      intro op hop
      simp only [List.mem_cons, List.not_mem_nil, or_false] at hop
      subst hop
      exact WfAccess.Example.works_preload)
    (by simp [requests]) ready clash_free
    (by
      intro ev p c q hs ha half hh
      have : half = 2000000 := by simpa [lengths] using hh
      subst this
      rcases asks hs ha with rfl | rfl
      · exact WfAccess.Example.keeps
      · exact keeps_S)
    (effect := fun _ => .complete) (fun _ => trivial) (fun _ => true) [("old", old)]
  refine ⟨t, st', out, ht, h1, h2, ?_, ?_⟩
  · have hf : file (event 1 10000000) (pick 1 15000000 "Pg" .P) "Z" = "ev1.N.A..HHZ.Pg.mseed" := by decide +kernel
    rw [← hf]
    exact h3 _ _ _ _ asked_P.1 ⟨r, asked_P.2, ht⟩ rfl
  · rw [h4 "old" ?_]
    · rfl
    · intro ev p c t' hs _ _
      obtain ⟨rfl, ⟨rfl, rfl⟩ | ⟨rfl, rfl⟩⟩ := only hs <;> decide +kernel

/-! ## two picks of the same type -/

noncomputable def bg2 : Catalog ℝ := bg.addPhase (pick 1 16000000 "Pg" .P)

noncomputable def first : Trace ℝ := ⟨14500000, 2, [0, 0, 0]⟩
noncomputable def second : Trace ℝ := ⟨15500000, 2, [0, 0, 0]⟩

/-- a data centre that has the waveforms of both picks -/
noncomputable def d2 : Device := ⟨{ env with
  extra := 0
  load := fun w _ => if w = ⟨14500000, 15500000⟩ then some first else if w = ⟨15500000, 16500000⟩ then some second else none },
  fun _ => [], id, bg2⟩

theorem shown (t : Int) (w : TimeWindow) (tr : Trace ℝ) (hm : pick 1 t "Pg" .P ∈ bg2.phasesOf 1)
    (hw : XCorr.windowShort ⟨-1/2, 1/2, 0, 1/2⟩ 10000000 t = some w) (hl : ∀ rec, d2.e.load (w.extend 0 0) rec = some tr)
    (ht : (demean tr).timeWindow = w) : Selected d2 opt (event 1 10000000) (pick 1 t "Pg" .P) "Z" ∧
      Shows d2 opt (event 1 10000000) (pick 1 t "Pg" .P) "Z" (demean tr) := by
  refine ⟨⟨?_, hm, show PhaseType.P ≠ .NO by decide, _, rfl, Or.inl ⟨by simp, by simp, by simp⟩⟩, _,
    ⟨_, _, sta, .none, "HHZ", rfl, hw, rfl, channelOf_iff.1 ?_, rfl⟩, ?_⟩
  · show _ ∈ events bg
    rw [one_event]
    simp
  · have : (pick 1 t "Pg" .P).channelCode = "HHZ" := rfl
    unfold channelOf
    rw [this]
    decide +kernel
  · unfold process loadAndProcess
    have : d2.e.extra = 0 := rfl
    simp only [this, hl]
    unfold filter
    rw [if_neg (by decide)]
    show sliced (demean tr) w = _
    unfold sliced Trace.slice
    rw [if_pos ht]

/-- **C106, the claim is false (two picks of the same type).** An event has two P picks at a station.  Their waveforms are
different and belong in the same file, so that one of them is lost. -/
theorem two_picks_one_file : ∃ t t' : Trace ℝ,
    Selected d2 opt (event 1 10000000) (pick 1 15000000 "Pg" .P) "Z" ∧
    Shows d2 opt (event 1 10000000) (pick 1 15000000 "Pg" .P) "Z" t ∧
    Selected d2 opt (event 1 10000000) (pick 1 16000000 "Pg" .P) "Z" ∧
    Shows d2 opt (event 1 10000000) (pick 1 16000000 "Pg" .P) "Z" t' ∧ t ≠ t' ∧
    ∀ out : State, ¬ (out.dumped.find? (file (event 1 10000000) (pick 1 15000000 "Pg" .P) "Z") = some t ∧
      out.dumped.find? (file (event 1 10000000) (pick 1 16000000 "Pg" .P) "Z") = some t') := by
  have hp : bg2.phasesOf 1 = [pick 1 15000000 "Pg" .P, pick 1 19000000 "Sg" .S, pick 1 16000000 "Pg" .P] := rfl
  obtain ⟨h1, h2⟩ := shown 15000000 ⟨14500000, 15500000⟩ first (by rw [hp]; simp) (by decide +kernel) (fun _ => rfl) (by decide +kernel)
  obtain ⟨h3, h4⟩ := shown 16000000 ⟨15500000, 16500000⟩ second (by rw [hp]; simp) (by decide +kernel)
    (fun _ => by
      show (if TimeWindow.mk 15500000 16500000 = ⟨14500000, 15500000⟩ then some first
        else if TimeWindow.mk 15500000 16500000 = ⟨15500000, 16500000⟩ then some second else none) = some second
      rw [if_neg (by decide), if_pos rfl]) (by decide +kernel)
  have hne : demean first ≠ demean second := fun h => absurd (congrArg Trace.stime h) (by decide +kernel)
  refine ⟨_, _, h1, h2, h3, h4, hne, ?_⟩
  rintro out ⟨h5, h6⟩
  have hf : file (event 1 10000000) (pick 1 15000000 "Pg" .P) "Z" = file (event 1 10000000) (pick 1 16000000 "Pg" .P) "Z" := rfl
  rw [← hf, h5] at h6
  injection h6 with h6
  exact hne h6

end Verif.Dump.Example
