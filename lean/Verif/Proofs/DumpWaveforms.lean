import Verif.Spec.DumpWaveforms
import Verif.Proofs.WaveformAccess
import Verif.Props.Correlation

/-!
# Lemmas on dumping waveforms (C106)
-/

set_option linter.unusedSimpArgs false
set_option linter.unusedSectionVars false

namespace Verif.Dump
open Verif.Catalog Verif.Waveform Verif.Access Verif.AccessSpec Verif.PreloadSpec Verif.WfAccess Verif.WfAccessSpec
open Verif.CorrelationSpec Verif.DumpSpec

theorem fileName_eq (ev : Event ℝ) (ph : Phase ℝ) (c : String) :
    fileName ev ph (String.ofList (bandAndInstrument ph.channelCode.toList) ++ c) = file ev ph c := by
  unfold fileName file bandAndInstrument firstTwo
  by_cases h : 2 ≤ ph.channelCode.toList.length
  · rw [if_pos h, if_pos h]
  · rw [if_neg h, if_neg h]

/-- what is written so far: an old file where nothing was written, the waveform where something was -/
structure Good (d : Device) (o : Options) (written : String → Bool) (found : AMap String (Trace ℝ))
    (done : Event ℝ → Phase ℝ → String → Prop) (s : State) : Prop where
  honest : AllHonest d.e s.files
  selected : ∀ ev pick c, done ev pick c → Selected d o ev pick c
  new : ∀ ev pick c t, done ev pick c → Shows d o ev pick c t → written (file ev pick c) = true →
    s.dumped.find? (file ev pick c) = some t
  old : ∀ name, (∀ ev pick c t, done ev pick c → Shows d o ev pick c t → written name = true → name ≠ file ev pick c) →
    s.dumped.find? name = found.find? name

theorem Good.congr {d : Device} {o : Options} {written : String → Bool} {found : AMap String (Trace ℝ)}
    {done done' : Event ℝ → Phase ℝ → String → Prop} {s : State} (h : Good d o written found done s)
    (hd : ∀ ev pick c, done ev pick c ↔ done' ev pick c) : Good d o written found done' s := by
  have : done = done' := by
    funext ev pick c
    exact propext (hd ev pick c)
  rwa [this] at h

theorem shows_unique {d : Device} {o : Options} {ev : Event ℝ} {pick : Phase ℝ} {c : String} {t t' : Trace ℝ}
    (h : Shows d o ev pick c t) (h' : Shows d o ev pick c t') : t = t' := by
  obtain ⟨r, ⟨cfg, w, sta, kind, cha, h1, h2, h3, h4, rfl⟩, hp⟩ := h
  obtain ⟨r', ⟨cfg', w', sta', kind', cha', h1', h2', h3', h4', rfl⟩, hp'⟩ := h'
  rw [h1] at h1'
  cases h1'
  rw [h2] at h2'
  cases h2'
  rw [h3] at h3'
  cases h3'
  have := (channelOf_iff.2 h4).symm.trans (channelOf_iff.2 h4')
  simp only [Option.some.injEq, Prod.mk.injEq] at this
  obtain ⟨rfl, rfl⟩ := this
  rw [hp] at hp'
  cases hp'
  rfl

section
variable {d : Device} {srv : String → TimeWindow → Option (Trace ℝ)} {o : Options} {chain : Chain} {halves : List Int}
  {effect : List Char → Written} {written : String → Bool} {found : AMap String (Trace ℝ)}
  {done : Event ℝ → Phase ℝ → String → Prop} {s : State}

/-- what is needed of the surroundings -/
structure World (d : Device) (srv : String → TimeWindow → Option (Trace ℝ)) (o : Options) (chain : Chain) (halves : List Int)
    (effect : List Char → Written) : Prop where
  centre : SameCentre d srv
  sound : chain.Sound halves
  writes : ∀ p, NotCut (effect p)
  ready : Ready d o
  clash : NoClash d o
  longer : ∀ ev pick c r, Selected d o ev pick c → ShortRequest d o ev pick c r →
    ∀ half ∈ halves, ∀ x ∈ loads d.e r, KeepsLonger d.e half x.1 x.2

theorem component_good (hw : World d srv o chain halves effect) (hg : Good d o written found done s) {ev : Event ℝ}
    {pick : Phase ℝ} {c : String} (hs : Selected d o ev pick c) {tw : TimeWindow} (ht : shortWindow o ev pick = .ok tw) :
    ∃ s', component d o chain effect written tw ev pick s c = .ok s' ∧
      Good d o written found (fun ev' pick' c' => done ev' pick' c' ∨ (ev' = ev ∧ pick' = pick ∧ c' = c)) s' := by
  have hsel : ∀ ev' pick' c', done ev' pick' c' ∨ (ev' = ev ∧ pick' = pick ∧ c' = c) → Selected d o ev' pick' c' := by
    rintro ev' pick' c' (h | ⟨rfl, rfl, rfl⟩)
    · exact hg.selected _ _ _ h
    · exact hs
  obtain ⟨cfg, hcfg, hwin⟩ : ∃ cfg, o.phase pick.procType = some cfg ∧ XCorr.windowShort cfg.win ev.time pick.time = some tw := by
    unfold shortWindow at ht
    cases h1 : o.phase pick.procType with
    | none => rw [h1] at ht; cases ht
    | some cfg =>
      rw [h1] at ht
      simp only at ht
      cases h2 : XCorr.windowShort cfg.win ev.time pick.time with
      | none => rw [h2] at ht; cases ht
      | some w =>
        rw [h2] at ht
        cases ht
        exact ⟨cfg, rfl, h2⟩
  obtain ⟨sta, hsta⟩ := Option.isSome_iff_exists.1 (hw.ready.stations ev hs.1 pick hs.2.1)
  -- nothing new is shown
  have nothing : (∀ t, ¬ Shows d o ev pick c t) → ∀ fs, AllHonest d.e fs →
      Good d o written found (fun ev' pick' c' => done ev' pick' c' ∨ (ev' = ev ∧ pick' = pick ∧ c' = c)) { s with files := fs } := by
    intro hno fs hfs
    refine ⟨hfs, hsel, ?_, ?_⟩
    · rintro ev' pick' c' t (h | ⟨rfl, rfl, rfl⟩) h2 h3
      · exact hg.new _ _ _ _ h h2 h3
      · exact absurd h2 (hno t)
    · intro name h
      exact hg.old name fun ev' pick' c' t h1 => h ev' pick' c' t (Or.inl h1)
  have asked : ∀ r, ShortRequest d o ev pick c r → ∀ kind cha, channelOf pick c = some (kind, cha) →
      r = ⟨tw, { pick with channelCode := cha }, ev, sta, o.filterStr, o.resampleFreq, kind⟩ := by
    rintro r ⟨cfg', w, sta', kind', cha', h1, h2, h3, h4, rfl⟩ kind cha hk
    rw [hcfg] at h1
    cases h1
    rw [hwin] at h2
    cases h2
    rw [hsta] at h3
    cases h3
    have := hk.symm.trans (channelOf_iff.2 h4)
    simp only [Option.some.injEq, Prod.mk.injEq] at this
    obtain ⟨rfl, rfl⟩ := this
    rfl
  unfold component waveformRequest
  rw [hsta]
  simp only
  cases hk : channelOf pick c with
  | none =>
    simp only [Outcome.bind_ok]
    refine ⟨s, rfl, nothing ?_ s.files hg.honest⟩
    rintro t ⟨r, ⟨cfg', w, sta', kind', cha', h1, h2, h3, h4, rfl⟩, hp⟩
    rw [channelOf_iff.2 h4] at hk
    cases hk
  | some kc =>
    obtain ⟨kind, cha⟩ := kc
    simp only [Outcome.bind_ok]
    have ha : ShortRequest d o ev pick c ⟨tw, { pick with channelCode := cha }, ev, sta, o.filterStr, o.resampleFreq, kind⟩ :=
      ⟨cfg, tw, sta, kind, cha, hcfg, hwin, hsta, channelOf_iff.1 hk, rfl⟩
    obtain ⟨t, hp⟩ := hw.ready.process _ _ _ _ hs ha
    obtain ⟨fs', hpr, hfs⟩ := processM_eq (I := AllHonest d.e) (load := loadChain d.e chain effect) (e := d.e)
      (fun x hx fs hf => loadChain_eq hw.centre hw.sound hw.writes (by rw [loads_window hx]; exact TimeWindow.Built.ctor _ _)
        (fun half hh => hw.longer _ _ _ _ hs ha half hh x hx) hf) hg.honest hp
    rw [hpr]
    simp only [Outcome.bind_ok]
    cases t with
    | none =>
      refine ⟨_, rfl, nothing ?_ fs' hfs⟩
      rintro t ⟨r, hr, hp'⟩
      rw [asked r hr kind cha hk, hp] at hp'
      cases hp'
    | some t =>
      refine ⟨_, rfl, ?_⟩
      have hshow : Shows d o ev pick c t := ⟨_, ha, hp⟩
      rw [fileName_eq]
      refine ⟨hfs, hsel, ?_, ?_⟩
      · intro ev' pick' c' t' h1 h2 h3
        by_cases hn : file ev' pick' c' = file ev pick c
        · have := hw.clash _ _ _ _ _ _ _ _ (hsel _ _ _ h1) h2 hs hshow hn
          rw [hn] at h3
          simp only [h3, if_true, hn, AMap.find?_set, this]
        · rcases h1 with h1 | ⟨rfl, rfl, rfl⟩
          · have := hg.new _ _ _ _ h1 h2 h3
            cases hwr : written (file ev pick c) with
            | false => simpa using this
            | true =>
              simp only [if_true, AMap.find?_set, if_neg hn]
              exact this
          · exact absurd rfl hn
      · intro name h
        have hold := hg.old name fun ev' pick' c' t h1 => h ev' pick' c' t (Or.inl h1)
        cases hwr : written (file ev pick c) with
        | false => simpa using hold
        | true =>
          have hn : name ≠ file ev pick c := by
            rintro rfl
            exact h ev pick c t (Or.inr ⟨rfl, rfl, rfl⟩) hshow hwr rfl
          simp only [if_true, AMap.find?_set, if_neg hn]
          exact hold

theorem components_good (hw : World d srv o chain halves effect) {ev : Event ℝ} {pick : Phase ℝ} {tw : TimeWindow}
    (ht : shortWindow o ev pick = .ok tw) (cs : List String) (hs : ∀ c ∈ cs, Selected d o ev pick c)
    (hg : Good d o written found done s) :
    ∃ s', cs.foldlM (component d o chain effect written tw ev pick) s = .ok s' ∧
      Good d o written found (fun ev' pick' c' => done ev' pick' c' ∨ (ev' = ev ∧ pick' = pick ∧ c' ∈ cs)) s' := by
  induction cs generalizing s done with
  | nil => exact ⟨s, rfl, hg.congr (by simp)⟩
  | cons c cs ih =>
    obtain ⟨s1, h1, g1⟩ := component_good hw hg (hs c (by simp)) ht
    obtain ⟨s2, h2, g2⟩ := ih (fun x hx => hs x (by simp [hx])) g1
    refine ⟨s2, ?_, g2.congr ?_⟩
    · rw [List.foldlM_cons, h1]
      exact h2
    · intro ev' pick' c'
      simp only [List.mem_cons]
      tauto

theorem pick_good (hw : World d srv o chain halves effect) {ev : Event ℝ} (hev : ev ∈ events d.cat) {ph : Phase ℝ}
    (hph : ph ∈ d.cat.phasesOf ev.id) (hg : Good d o written found done s) :
    ∃ s', dumpPick d o chain effect written ev s ph = .ok s' ∧
      Good d o written found (fun ev' pick' c' => done ev' pick' c' ∨ (ev' = ev ∧ pick' = ph ∧ Selected d o ev' pick' c')) s' := by
  unfold dumpPick
  by_cases hno : ph.procType = .NO
  · rw [if_pos hno]
    refine ⟨s, rfl, hg.congr ?_⟩
    intro ev' pick' c'
    constructor
    · exact Or.inl
    · rintro (h | ⟨rfl, rfl, h⟩)
      · exact h
      · exact absurd hno h.2.2.1
  · rw [if_neg hno]
    obtain ⟨cfg, w, h1, h2⟩ := hw.ready.windows ev hev ph hph hno
    have ht : shortWindow o ev ph = .ok w := by
      unfold shortWindow
      rw [h1]
      simp only
      rw [h2]
    have hcs : ∃ cs, components o ph = .ok cs := by
      unfold components
      rw [h1]
      exact ⟨_, rfl⟩
    obtain ⟨cs, hcs⟩ := hcs
    have hiff : ∀ c, Component o ph c ↔ c ∈ cs := by
      intro c
      rw [← components_iff]
      constructor
      · rintro ⟨cs', h, hc⟩
        rw [hcs] at h
        cases h
        exact hc
      · intro h
        exact ⟨cs, hcs, h⟩
    obtain ⟨s', h3, g3⟩ := components_good hw ht cs (fun c hc => ⟨hev, hph, hno, (hiff c).2 hc⟩) hg
    refine ⟨s', ?_, g3.congr ?_⟩
    · rw [ht, hcs]
      exact h3
    · intro ev' pick' c'
      constructor
      · rintro (h | ⟨rfl, rfl, h⟩)
        · exact Or.inl h
        · exact Or.inr ⟨rfl, rfl, hev, hph, hno, (hiff _).2 h⟩
      · rintro (h | ⟨rfl, rfl, h⟩)
        · exact Or.inl h
        · exact Or.inr ⟨rfl, rfl, (hiff _).1 h.2.2.2⟩

theorem picks_good (hw : World d srv o chain halves effect) {ev : Event ℝ} (hev : ev ∈ events d.cat) (phs : List (Phase ℝ))
    (hph : ∀ ph ∈ phs, ph ∈ d.cat.phasesOf ev.id) (hg : Good d o written found done s) :
    ∃ s', phs.foldlM (dumpPick d o chain effect written ev) s = .ok s' ∧
      Good d o written found (fun ev' pick' c' => done ev' pick' c' ∨ (ev' = ev ∧ pick' ∈ phs ∧ Selected d o ev' pick' c')) s' := by
  induction phs generalizing s done with
  | nil => exact ⟨s, rfl, hg.congr (by simp)⟩
  | cons ph phs ih =>
    obtain ⟨s1, h1, g1⟩ := pick_good hw hev (hph ph (by simp)) hg
    obtain ⟨s2, h2, g2⟩ := ih (fun x hx => hph x (by simp [hx])) g1
    refine ⟨s2, ?_, g2.congr ?_⟩
    · rw [List.foldlM_cons, h1]
      exact h2
    · intro ev' pick' c'
      simp only [List.mem_cons]
      tauto

theorem events_good (hw : World d srv o chain halves effect) (evs : List (Event ℝ)) (hev : ∀ ev ∈ evs, ev ∈ events d.cat)
    (hg : Good d o written found done s) :
    ∃ s', evs.foldlM (fun s ev => (d.cat.phasesOf ev.id).foldlM (dumpPick d o chain effect written ev) s) s = .ok s' ∧
      Good d o written found (fun ev' pick' c' => done ev' pick' c' ∨ (ev' ∈ evs ∧ Selected d o ev' pick' c')) s' := by
  induction evs generalizing s done with
  | nil => exact ⟨s, rfl, hg.congr (by simp)⟩
  | cons ev evs ih =>
    obtain ⟨s1, h1, g1⟩ := picks_good hw (hev ev (by simp)) (d.cat.phasesOf ev.id) (fun _ h => h) hg
    obtain ⟨s2, h2, g2⟩ := ih (fun x hx => hev x (by simp [hx])) g1
    refine ⟨s2, ?_, g2.congr ?_⟩
    · rw [List.foldlM_cons, h1]
      exact h2
    · intro ev' pick' c'
      simp only [List.mem_cons]
      constructor
      · rintro ((h | ⟨rfl, -, h⟩) | ⟨h1, h2⟩)
        · exact Or.inl h
        · exact Or.inr ⟨Or.inl rfl, h⟩
        · exact Or.inr ⟨Or.inr h1, h2⟩
      · rintro (h | ⟨rfl | h1, h2⟩)
        · exact Or.inl (Or.inl h)
        · exact Or.inl (Or.inr ⟨rfl, h2.2.1, h2⟩)
        · exact Or.inr ⟨h1, h2⟩

theorem dump_good (hw : World d srv o chain halves effect) {st : WfAccess.State} (hst : st.chain = chain)
    (hf : AllHonest d.e st.files) :
    ∃ s', dumpWaveforms d o st effect written found = .ok s' ∧ Good d o written found (Selected d o) s' := by
  obtain ⟨s', h1, h2⟩ := events_good (written := written) (found := found) (done := fun _ _ _ => False) (s := ⟨st.files, found⟩) hw
    (events d.cat) (fun _ h => h) ⟨hf, fun _ _ _ h => h.elim, fun _ _ _ _ h => h.elim, fun _ _ => rfl⟩
  refine ⟨s', ?_, h2.congr ?_⟩
  · unfold dumpWaveforms
    rw [hst]
    exact h1
  · intro ev pick c
    constructor
    · rintro (h | h)
      · exact h.elim
      · exact h.2
    · exact fun h => Or.inr ⟨h.1, h⟩

end

/-! ## names -/

theorem dot_split {a b c d : List Char} (ha : '.' ∉ a) (hc : '.' ∉ c) (h : a ++ '.' :: b = c ++ '.' :: d) : a = c ∧ b = d := by
  induction a generalizing c with
  | nil =>
    cases c with
    | nil => simpa using h
    | cons x c =>
      simp only [List.nil_append, List.cons_append, List.cons.injEq] at h
      simp at hc
      exact absurd h.1 hc.1
  | cons y a ih =>
    cases c with
    | nil =>
      simp only [List.nil_append, List.cons_append, List.cons.injEq] at h
      simp at ha
      exact absurd h.1.symm ha.1
    | cons x c =>
      simp only [List.cons_append, List.cons.injEq] at h
      simp only [List.mem_cons, not_or] at ha hc
      obtain ⟨h1, h2⟩ := ih ha.2 hc.2 h.2
      exact ⟨by rw [h.1, h1], h2⟩

theorem firstTwo_dot {ch : String} (h : '.' ∉ ch.toList) : '.' ∉ (firstTwo ch).toList := by
  unfold firstTwo
  split
  · rw [String.toList_ofList]
    exact fun hm => h (List.mem_of_mem_take hm)
  · simp

theorem toString_nat (n : Nat) : (toString n).toList = decimal n := by
  have : toString n = n.repr := rfl
  rw [this, Nat.repr, String.toList_ofList, decimal]

theorem file_inj {ev ev' : Event ℝ} {pick pick' : Phase ℝ} {c c' : String} (h : Codes pick c) (h' : Codes pick' c')
    (he : file ev pick c = file ev' pick' c') : ev.id = ev'.id ∧ pick.networkCode = pick'.networkCode ∧
      pick.stationCode = pick'.stationCode ∧ pick.locationCode = pick'.locationCode ∧
      firstTwo pick.channelCode ++ c = firstTwo pick'.channelCode ++ c' ∧ pick.type = pick'.type := by
  have hl := congrArg String.toList he
  have d1 : (".": String).toList = ['.'] := rfl
  have d2 : (".mseed": String).toList = '.' :: ['m', 's', 'e', 'e', 'd'] := rfl
  have d3 : ("ev": String).toList = ['e', 'v'] := rfl
  simp only [file, String.toList_append, d1, d2, d3, toString_nat, List.append_assoc, List.cons_append, List.nil_append,
    List.cons.injEq, true_and] at hl
  obtain ⟨i1, i2, i3, i4, i5, i6⟩ := h
  obtain ⟨j1, j2, j3, j4, j5, j6⟩ := h'
  obtain ⟨e1, hl⟩ := dot_split (notMem_decimal (by decide)) (notMem_decimal (by decide)) hl
  obtain ⟨e2, hl⟩ := dot_split i1 j1 hl
  obtain ⟨e3, hl⟩ := dot_split i2 j2 hl
  obtain ⟨e4, hl⟩ := dot_split i3 j3 hl
  rw [← List.append_assoc, ← List.append_assoc (firstTwo pick'.channelCode).toList] at hl
  obtain ⟨e5, hl⟩ := dot_split (by simp [firstTwo_dot i4, i6]) (by simp [firstTwo_dot j4, j6]) hl
  obtain ⟨e6, -⟩ := dot_split i5 j5 hl
  rw [← String.toList_append, ← String.toList_append] at e5
  exact ⟨decimal_inj e1, String.toList_inj.1 e2, String.toList_inj.1 e3, String.toList_inj.1 e4, String.toList_inj.1 e5,
    String.toList_inj.1 e6⟩

end Verif.Dump
