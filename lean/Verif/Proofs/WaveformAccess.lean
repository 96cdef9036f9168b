import Verif.Spec.WaveformAccess
import Verif.Props.Preload

/-!
# Lemmas on the waveform access of a relocation object (C104)
-/

set_option linter.unusedSimpArgs false
set_option linter.unusedSectionVars false

namespace Verif.WfAccess
open Verif.Catalog Verif.Waveform Verif.Access Verif.AccessSpec Verif.PreloadSpec Verif.WfAccessSpec

/-! ## processing with a loader that has a state -/

theorem loadAndProcessM_eq {σ : Type} {e : Env} {load : σ → TimeWindow → Phase ℝ → Outcome (Option (Trace ℝ) × σ)} {s s' : σ}
    {tw : TimeWindow} {ph : Phase ℝ} {channel filterStr : String} {resampleFreq : ℚ}
    (h : load s (tw.extend e.extra e.extra) { ph with channelCode := channel } =
      .ok (e.load (tw.extend e.extra e.extra) { ph with channelCode := channel }, s')) :
    loadAndProcessM e load s tw ph channel filterStr resampleFreq =
      (loadAndProcess e tw ph channel filterStr resampleFreq).map (·, s') := by
  unfold loadAndProcessM loadAndProcess
  rw [h, Outcome.bind_ok]
  cases e.load (tw.extend e.extra e.extra) { ph with channelCode := channel } with
  | none => rfl
  | some t =>
    simp only
    cases filter e.wf t filterStr resampleFreq with
    | none => rfl
    | some t =>
      simp only
      cases sliced t tw <;> rfl

/-- the answers of the loader to the loads of a request decide what the processor makes of it -/
theorem processM_eq {σ : Type} {e : Env} {load : σ → TimeWindow → Phase ℝ → Outcome (Option (Trace ℝ) × σ)} {I : σ → Prop}
    {r : Request} (h : ∀ x ∈ loads e r, ∀ s, I s → ∃ s', load s x.1 x.2 = .ok (e.load x.1 x.2, s') ∧ I s') {s : σ} (hs : I s)
    {t : Option (Trace ℝ)} (hp : process e r = .ok t) : ∃ s', processM e load s r = .ok (t, s') ∧ I s' := by
  have one : ∀ ch, (r.tw.extend e.extra e.extra, { r.ph with channelCode := ch }) ∈ loads e r → ∀ s, I s →
      ∃ s', I s' ∧ loadAndProcessM e load s r.tw r.ph ch r.filterStr r.resampleFreq =
        (loadAndProcess e r.tw r.ph ch r.filterStr r.resampleFreq).map (·, s') := by
    intro ch hm s hs
    obtain ⟨s', h1, h2⟩ := h _ hm s hs
    exact ⟨s', h2, loadAndProcessM_eq h1⟩
  unfold process at hp
  unfold processM
  unfold loads at one
  cases hk : r.trans with
  | none =>
    rw [hk] at hp one
    simp only at hp ⊢
    obtain ⟨s', h1, h2⟩ := one r.ph.channelCode (by simp) s hs
    rw [h2, hp]
    exact ⟨s', rfl, h1⟩
  | l2 =>
    rw [hk] at hp one
    simp only at hp ⊢
    cases hc : e.components r.ph with
    | none =>
      rw [hc] at hp
      cases hp
      exact ⟨s, rfl, hs⟩
    | some nc =>
      obtain ⟨names, tc⟩ := nc
      rw [hc] at hp one
      simp only at hp ⊢ one
      obtain ⟨s1, i1, e1⟩ := one (names 1) (by simp) s hs
      obtain ⟨s2, i2, e2⟩ := one (names 2) (by simp) s1 i1
      rw [bind_eq_ok] at hp
      obtain ⟨h1, p1, hp⟩ := hp
      rw [bind_eq_ok] at hp
      obtain ⟨h2, p2, hp⟩ := hp
      rw [p1] at e1
      rw [p2] at e2
      rw [e1]
      simp only [Outcome.map, Outcome.bind_ok]
      rw [e2]
      simp only [Outcome.map, Outcome.bind_ok]
      cases h1 with
      | none => cases hp; exact ⟨s2, rfl, i2⟩
      | some h1 =>
        cases h2 with
        | none => cases hp; exact ⟨s2, rfl, i2⟩
        | some h2 =>
          simp only at hp ⊢
          rw [hp]
          exact ⟨s2, rfl, i2⟩
  | transversal =>
    rw [hk] at hp one
    simp only at hp ⊢
    cases hc : e.components r.ph with
    | none =>
      rw [hc] at hp
      cases hp
      exact ⟨s, rfl, hs⟩
    | some nc =>
      obtain ⟨names, tc⟩ := nc
      rw [hc] at hp one
      simp only at hp ⊢ one
      obtain ⟨s0, i0, e0⟩ := one (names 0) (by simp) s hs
      obtain ⟨s1, i1, e1⟩ := one (names 1) (by simp) s0 i0
      obtain ⟨s2, i2, e2⟩ := one (names 2) (by simp) s1 i1
      rw [bind_eq_ok] at hp
      obtain ⟨v, p0, hp⟩ := hp
      rw [bind_eq_ok] at hp
      obtain ⟨h1, p1, hp⟩ := hp
      rw [bind_eq_ok] at hp
      obtain ⟨h2, p2, hp⟩ := hp
      rw [p0] at e0
      rw [p1] at e1
      rw [p2] at e2
      rw [e0]
      simp only [Outcome.map, Outcome.bind_ok]
      rw [e1]
      simp only [Outcome.map, Outcome.bind_ok]
      rw [e2]
      simp only [Outcome.map, Outcome.bind_ok]
      cases v <;> cases h1 <;> cases h2 <;> first
        | (cases hp; exact ⟨s2, rfl, i2⟩)
        | (simp only at hp ⊢; rw [hp]; exact ⟨s2, rfl, i2⟩)
  | radial =>
    rw [hk] at hp one
    simp only at hp ⊢
    cases hc : e.components r.ph with
    | none =>
      rw [hc] at hp
      cases hp
      exact ⟨s, rfl, hs⟩
    | some nc =>
      obtain ⟨names, tc⟩ := nc
      rw [hc] at hp one
      simp only at hp ⊢ one
      obtain ⟨s0, i0, e0⟩ := one (names 0) (by simp) s hs
      obtain ⟨s1, i1, e1⟩ := one (names 1) (by simp) s0 i0
      obtain ⟨s2, i2, e2⟩ := one (names 2) (by simp) s1 i1
      rw [bind_eq_ok] at hp
      obtain ⟨v, p0, hp⟩ := hp
      rw [bind_eq_ok] at hp
      obtain ⟨h1, p1, hp⟩ := hp
      rw [bind_eq_ok] at hp
      obtain ⟨h2, p2, hp⟩ := hp
      rw [p0] at e0
      rw [p1] at e1
      rw [p2] at e2
      rw [e0]
      simp only [Outcome.map, Outcome.bind_ok]
      rw [e1]
      simp only [Outcome.map, Outcome.bind_ok]
      rw [e2]
      simp only [Outcome.map, Outcome.bind_ok]
      cases v <;> cases h1 <;> cases h2 <;> first
        | (cases hp; exact ⟨s2, rfl, i2⟩)
        | (simp only at hp ⊢; rw [hp]; exact ⟨s2, rfl, i2⟩)

theorem loads_window {e : Env} {r : Request} {x : TimeWindow × Phase ℝ} (hx : x ∈ loads e r) :
    x.1 = r.tw.extend e.extra e.extra := by
  unfold loads at hx
  cases hk : r.trans <;> rw [hk] at hx <;> simp only at hx
  · simp at hx; rw [hx]
  all_goals
    cases hc : e.components r.ph with
    | none => rw [hc] at hx; cases hx
    | some nc =>
      obtain ⟨names, tc⟩ := nc
      rw [hc] at hx
      simp at hx
      rcases hx with rfl | rfl | rfl <;> rfl

/-! ## loading through the chain -/

/-- the files in all directories -/
def AllHonest (e : Env) (fs : String → Files) : Prop := ∀ dir, Honest e (fs dir)

theorem sameStream_load {d : Device} {srv : String → TimeWindow → Option (Trace ℝ)} (hc : SameCentre d srv) {p q : Phase ℝ}
    {w v : TimeWindow} (hp : Plain p w) (hq : Plain q v) (h : phaseId w p = phaseId v q) : d.e.load w p = d.e.load v q := by
  obtain ⟨rfl, hs⟩ := Preload.plain_eq hp hq h
  rw [hc.2.2, hc.2.2, hs]

theorem honest_diskGet {d : Device} {srv : String → TimeWindow → Option (Trace ℝ)} (hc : SameCentre d srv) {fs : Files}
    (hf : Honest d.e fs) {w : TimeWindow} {ph : Phase ℝ} (hp : Plain ph w) {eff : Written} (he : NotCut eff) :
    (diskGet fs w ph (d.e.load w ph) eff).1 = d.e.load w ph ∧ Honest d.e (diskGet fs w ph (d.e.load w ph) eff).2.1 := by
  unfold diskGet
  cases hcache : fromCache fs (phaseId w ph) with
  | some t =>
    exact ⟨(hf w ph t hp (Preload.cached_iff.2 hcache)).symm, hf⟩
  | none =>
    cases hl : d.e.load w ph with
    | none => exact ⟨rfl, hf⟩
    | some t =>
      refine ⟨rfl, ?_⟩
      intro v q t' hq hcq
      rw [Preload.cached_iff] at hcq
      by_cases hid : phaseId v q = phaseId w ph
      · have hsame := sameStream_load hc hq hp hid
        rw [hid] at hcq
        cases eff with
        | complete =>
          simp only [store, fromCache, AMap.find?_set, if_true] at hcq
          injection hcq with hcq
          rw [hsame, hl, hcq]
        | nothing =>
          simp only [store] at hcq
          rw [hcache] at hcq
          cases hcq
        | garbage =>
          simp only [store, fromCache, AMap.find?_set, if_true] at hcq
          cases hcq
        | truncated n => exact he.elim
      · rw [Preload.fromCache_congr (Preload.store_other hid _)] at hcq
        exact hf v q t' hq (Preload.cached_iff.2 hcq)

/-- the chain as it should be -/
def Chain.Sound (c : Chain) (halves : List Int) : Prop :=
  c = .direct .basic ∨ ∃ dir half, half ∈ halves ∧ c = .cached dir half .basic

theorem loadChain_eq {d : Device} {srv : String → TimeWindow → Option (Trace ℝ)} (hc : SameCentre d srv) {c : Chain}
    {halves : List Int} (hs : c.Sound halves) {effect : List Char → Written} (he : ∀ p, NotCut (effect p))
    {tw : TimeWindow} {ph : Phase ℝ} (hb : TimeWindow.Built tw) (hk : ∀ half ∈ halves, KeepsLonger d.e half tw ph)
    {fs : String → Files} (hf : AllHonest d.e fs) :
    ∃ fs', loadChain d.e c effect fs tw ph = .ok (d.e.load tw ph, fs') ∧ AllHonest d.e fs' := by
  rcases hs with rfl | ⟨dir, half, hm, rfl⟩
  · exact ⟨fs, rfl, hf⟩
  · obtain ⟨w, hw, -⟩ := load_window_contains half half tw hb ph.time
    obtain ⟨hp, hk⟩ := hk half hm w hw
    obtain ⟨h1, h2⟩ := honest_diskGet hc (hf dir) hp (he (phaseId w ph))
    unfold loadChain
    simp only [hw, Outcome.bind_ok, loadBase, h1]
    refine ⟨Function.update fs dir (diskGet (fs dir) w ph (d.e.load w ph) (effect (phaseId w ph))).2.1, ?_, ?_⟩
    · cases hl : d.e.load w ph with
      | none =>
        rw [hl] at hk
        simp only at hk
        simp only [hk]
      | some t =>
        rw [hl] at hk
        simp only at hk ⊢
        by_cases hwt : w = tw
        · rw [if_pos hwt] at hk
          rw [if_neg (by simpa using hwt)]
          injection hk with hk
          rw [← hk]
        · rw [if_neg hwt] at hk
          rw [if_pos (by simpa using hwt), hk]
          rfl
    · intro dir'
      by_cases hd : dir' = dir
      · subst hd
        rw [Function.update_self]
        exact h2
      · rw [Function.update_of_ne hd]
        exact hf dir'

/-! ## filling the disk cache -/

/-- the second pass keeps the files honest -/
theorem keeps_honest {d : Device} {srv : String → TimeWindow → Option (Trace ℝ)} (hcen : SameCentre d srv)
    {s : Preload.Settings} {n : Nat} {b : Batch ℝ}
    (l : List (TimeWindow × Phase ℝ)) {fs0 fs fs' : Files}
    (hplain : ∀ x ∈ l, ∀ w, windowToLoad s.before s.after x.1 x.2.time = .ok w → Plain x.2 w)
    (hwrite : ∀ p, NotCut (s.effect n p))
    (hget : ∀ x ∈ l, ∀ w, windowToLoad s.before s.after x.1 x.2.time = .ok w → fromCache fs0 (phaseId w x.2) = none →
      ∀ r, b.get s.order w (streamId x.2) = .ok r → r.1 = srv (stream x.2) w)
    (hgrow : ∀ p t, fromCache fs0 p = some t → fromCache fs p = some t)
    (hh : Honest d.e fs)
    (h : l.foldlM (Preload.keep s n b) fs = .ok fs') : Honest d.e fs' := by
  induction l generalizing fs with
  | nil =>
    cases h
    exact hh
  | cons x l ih =>
    rw [List.foldlM_cons, bind_eq_ok] at h
    obtain ⟨f1, h1, h2⟩ := h
    have hg1 := Preload.grows_keep h1
    refine ih (fun y hy => hplain y (by simp [hy])) (fun y hy => hget y (by simp [hy]))
      (fun p t hp => hg1.readable p t (hgrow p t hp)) ?_ h2
    obtain ⟨w, hw, ⟨t, ht, rfl⟩ | ⟨hn, r, hr, hf⟩⟩ := Preload.keep_spec h1
    · exact hh
    · have h0 : fromCache fs0 (phaseId w x.2) = none := by
        cases hc : fromCache fs0 (phaseId w x.2) with
        | none => rfl
        | some t => rw [hgrow _ _ hc] at hn; cases hn
      have hval := hget x (by simp) w hw h0 r hr
      have hp := hplain x (by simp) w hw
      have key := (honest_diskGet hcen hh hp (hwrite (phaseId w x.2))).2
      unfold diskGet at key
      rw [hn] at key
      rw [hcen.2.2, ← hval] at key
      rw [hf]
      cases hr1 : r.1 with
      | none => exact hh
      | some t =>
        rw [hr1] at key
        exact key

theorem event_honest {d : Device} {srv : String → TimeWindow → Option (Trace ℝ)} (hcen : SameCentre d srv)
    {o : Options} {effect : Nat → List Char → Written} {half : Int} {ev : Event ℝ} {st st' : Preload.State}
    (hk : Known (settings d o effect half) d.cat ev) (hc : ConsistentFor srv (settings d o effect half) d.cat ev)
    (hplain : ∀ rec w, Wanted (settings d o effect half) d.cat ev rec w → Plain rec w)
    (hwrite : ∀ n p, NotCut (effect n p)) (hh : Honest d.e st.files)
    (h : Preload.event (settings d o effect half) d.cat st ev = .ok st') : Honest d.e st'.files := by
  obtain ⟨r⟩ := Preload.event_run hk h
  have hcb : Consistent srv r.batch.requests := by
    refine hc _ fun y hy => ?_
    rcases (r.hbatch.mem y).1 hy with h | ⟨rec, w, h1, -, h3⟩
    · cases h
    · exact ⟨rec, w, h1, h3⟩
  refine keeps_honest (fs0 := st.files) hcen r.loads
    (fun x hx w hw => hplain x.2 w (Preload.wanted_iff.2 ⟨x, (r.hloads x).1 hx, rfl, hw⟩)) (hwrite ev.id) ?_
    (fun _ _ h => h) hh r.hkeep
  intro x hx w hw hn q hq
  have hm : (streamId x.2, w) ∈ r.batch.requests :=
    (r.hbatch.mem _).2 (Or.inr ⟨x.2, w, Preload.wanted_iff.2 ⟨x, (r.hloads x).1 hx, rfl, hw⟩, Preload.notCached_iff.2 hn, rfl⟩)
  have := batchLoad_eq hcen.2.1 (r.hbatch.loaded rfl) r.hbatch.traces hcb hm
  unfold batchLoad at this
  have hsrc : (settings d o effect half).source = answers srv := hcen.1
  rw [hsrc] at hq
  have hord : (settings d o effect half).order = d.order := rfl
  rw [hord] at hq
  rw [hq] at this
  exact this

theorem fillEvents_honest {d : Device} {srv : String → TimeWindow → Option (Trace ℝ)} (hcen : SameCentre d srv)
    {o : Options} {effect : Nat → List Char → Written} {half : Int} {fails : Nat → Bool} (hfails : ∀ n, fails n = false)
    (hwrite : ∀ n p, NotCut (effect n p)) (evs : List (Event ℝ)) {fs : Files}
    (hev : ∀ ev ∈ evs, Known (settings d o effect half) d.cat ev ∧ ConsistentFor srv (settings d o effect half) d.cat ev ∧
      (∀ rec w, Wanted (settings d o effect half) d.cat ev rec w → Plain rec w) ∧
      ∀ st, ∃ st', Preload.event (settings d o effect half) d.cat st ev = .ok st')
    (hh : Honest d.e fs) : ∃ fs', fillEvents (settings d o effect half) d.cat fails evs fs = .ok (fs', true) ∧ Honest d.e fs' := by
  induction evs generalizing fs with
  | nil => exact ⟨fs, rfl, hh⟩
  | cons ev evs ih =>
    obtain ⟨h1, h2, h3, h4⟩ := hev ev (by simp)
    obtain ⟨st', hst⟩ := h4 ⟨fs, []⟩
    have := event_honest hcen h1 h2 h3 hwrite (st := ⟨fs, []⟩) hh hst
    unfold fillEvents
    rw [hfails, if_neg (by decide), hst]
    exact ih (fun e he => hev e (by simp [he])) this

/-! ## calls -/

/-- the object is as its settings say, the files are honest, and the memory cache knows answers to requests of `rs` -/
structure Inv (d : Device) (rs : List Request) (halves : List Int) (st : State) : Prop where
  chain : st.chain = if st.useCache then .cached st.cacheDir st.half .basic else .direct .basic
  half : st.useCache = true → st.half ∈ halves
  files : AllHonest d.e st.files
  mem : ∀ k a, st.mem.known k = some a → ∃ r ∈ rs, r.id = k ∧ process d.e r = .ok a

theorem Inv.sound {d : Device} {rs : List Request} {halves : List Int} {st : State} (h : Inv d rs halves st) :
    st.chain.Sound halves := by
  rw [h.chain]
  cases hu : st.useCache with
  | true => exact Or.inr ⟨_, _, h.half hu, rfl⟩
  | false => exact Or.inl rfl

theorem inv_init {d : Device} {rs : List Request} {halves : List Int} {st : State} (hf : AllHonest d.e st.files)
    (hh : st.useCache = true → st.half ∈ halves) : Inv d rs halves (initAccess st) :=
  ⟨rfl, hh, hf, fun k a h => by simp [initAccess, Mem.known, Mem.init] at h⟩

theorem step_works {d : Device} {srv : String → TimeWindow → Option (Trace ℝ)} (hcen : SameCentre d srv) (hby : d.e.ByStream)
    {rs : List Request} (hrs : OneProcessing rs) {halves : List Int} {st : State} (hinv : Inv d rs halves st)
    {f : Request → Option (Trace ℝ)} {op : Op} (hw : Works d srv halves op)
    (hreq : ∀ r ∈ requests [op], r ∈ rs ∧ process d.e r = .ok (f r) ∧
      ∀ half ∈ halves, ∀ x ∈ loads d.e r, KeepsLonger d.e half x.1 x.2)
    (hlen : ∀ half ∈ lengths [op], half ∈ halves) :
    ∃ st', step d st op = .ok (st', match op with | .request r _ => .waveform (f r) | _ => .done) ∧ Inv d rs halves st' := by
  cases op with
  | enable dir half available =>
    have ha : available = true := hw
    subst ha
    exact ⟨_, rfl, inv_init hinv.files fun _ => hlen half (by simp [lengths])⟩
  | disable => exact ⟨_, rfl, inv_init hinv.files fun h => by cases h⟩
  | unload => exact ⟨_, rfl, inv_init hinv.files hinv.half⟩
  | preload o effect fails =>
    obtain ⟨h1, h2, h3⟩ := hw
    simp only [step, preload]
    cases hu : st.useCache with
    | false => exact ⟨st, rfl, hinv⟩
    | true =>
      have hch : st.chain = .cached st.cacheDir st.half .basic := by rw [hinv.chain, hu]; rfl
      simp only [Bool.not_true, Bool.false_eq_true, if_false]
      by_cases he : d.cat.eventsSorted = []
      · rw [if_pos he]
        unfold replaceLoader
        rw [hu, hch]
        refine ⟨_, rfl, ?_⟩
        refine ⟨?_, fun _ => hinv.half hu, hinv.files, hinv.mem⟩
        simp [hu]
      · rw [if_neg he, hch]
        simp only
        have hm := hinv.half hu
        have hstep : ∀ ev ∈ events d.cat, ∀ s, ∃ s', Preload.event (settings d o effect st.half) d.cat s ev = .ok s' := by
          intro ev hev s
          exact Preload.event_finishes (h3 st.half hm ev hev).1 hcen.1 hcen.2.1 (h3 st.half hm ev hev).2.1
            (fun p hp hn => (h3 st.half hm ev hev).2.2.2 p hp hn) s
        obtain ⟨fs', hfill, hhon⟩ := fillEvents_honest hcen h1 h2 (events d.cat) (fs := st.files st.cacheDir)
          (o := o) (half := st.half)
          (fun ev hev => ⟨(h3 st.half hm ev hev).1, (h3 st.half hm ev hev).2.1, (h3 st.half hm ev hev).2.2.1, hstep ev hev⟩)
          (hinv.files st.cacheDir)
        have hfill' : fillEvents ⟨o, d.cat.stations, d.e, st.half, st.half, d.order, d.source, effect⟩ d.cat fails
            (d.cat.eventsSorted.map (·.2)) (st.files st.cacheDir) = .ok (fs', true) := hfill
        rw [hfill', Outcome.bind_ok]
        simp only [if_true]
        unfold replaceLoader
        simp only [hu, hch, if_true, Outcome.bind_ok]
        refine ⟨_, rfl, ?_, fun _ => hinv.half hu, ?_, hinv.mem⟩
        · simp [hu]
        · intro dir'
          by_cases hd : dir' = st.cacheDir
          · subst hd
            simp only [Function.update_self]
            exact hhon
          · simp only [Function.update_of_ne hd]
            exact hinv.files dir'
  | request r effect =>
    obtain ⟨hr, hp, hkl⟩ := hreq r (by simp [requests])
    simp only [step, request]
    have hg := st.mem.get_known r.id none
    by_cases hk : (st.mem.get r.id none).2.2 = true
    · rw [if_pos hk]
      have hnone : st.mem.known r.id = none := by
        have := congrArg Prod.snd hg.1
        cases hkn : st.mem.known r.id with
        | none => rfl
        | some x =>
          rw [hkn] at this
          rw [hk] at this
          cases this
      obtain ⟨fs', hpr, hfs⟩ := processM_eq (I := AllHonest d.e) (load := loadChain d.e st.chain effect) (r := r) (e := d.e)
        (fun x hx fs hf => loadChain_eq hcen hinv.sound hw (by rw [loads_window hx]; exact TimeWindow.Built.ctor _ _)
          (fun half hh => hkl half hh x hx) hf) hinv.files hp
      rw [hpr]
      have hg' := st.mem.get_known r.id (f r)
      have ha : (st.mem.get r.id (f r)).1 = f r := by
        have := congrArg Prod.fst hg'.1
        rw [hnone] at this
        exact this
      simp only [Outcome.bind_ok, ha]
      refine ⟨_, rfl, hinv.chain, hinv.half, hfs, ?_⟩
      intro k a hka
      rw [hg'.2] at hka
      cases hkn : st.mem.known k with
      | some x =>
        rw [hkn] at hka
        injection hka with hka
        rw [← hka]
        exact hinv.mem k x hkn
      | none =>
        rw [hkn] at hka
        simp only at hka
        split at hka
        · rename_i hkid
          injection hka with hka
          exact ⟨r, hr, hkid.symm, by rw [← hka]; exact hp⟩
        · cases hka
    · rw [if_neg hk]
      have hsome : ∃ x, st.mem.known r.id = some x ∧ (st.mem.get r.id none).1 = x := by
        have h1 := congrArg Prod.snd hg.1
        have h2 := congrArg Prod.fst hg.1
        cases hkn : st.mem.known r.id with
        | none =>
          rw [hkn] at h1
          exact absurd h1 hk
        | some x =>
          rw [hkn] at h2
          exact ⟨x, rfl, h2⟩
      obtain ⟨x, hx, hx1⟩ := hsome
      obtain ⟨r', hr', hid, hp'⟩ := hinv.mem _ _ hx
      have hw' := (request_id_injective (hrs.1 r' hr') (hrs.1 r hr)).1 hid
      have := process_congr hby hw' (hrs.2 r' hr' r hr hw')
      rw [hp, hp'] at this
      injection this with this
      rw [hx1, this]
      exact ⟨st, rfl, hinv⟩

theorem mem_requests {r : Request} {os : List Op} : r ∈ requests os ↔ ∃ op ∈ os, r ∈ requests [op] := by
  induction os with
  | nil => simp [requests]
  | cons o os ih => cases o <;> simp [requests, ih]

theorem mem_lengths {n : Int} {os : List Op} : n ∈ lengths os ↔ ∃ op ∈ os, n ∈ lengths [op] := by
  induction os with
  | nil => simp [lengths]
  | cons o os ih => cases o <;> simp [lengths, ih]

theorem run_works {d : Device} {srv : String → TimeWindow → Option (Trace ℝ)} (hcen : SameCentre d srv) (hby : d.e.ByStream)
    {rs : List Request} (hrs : OneProcessing rs) {halves : List Int} {f : Request → Option (Trace ℝ)} {ops : List Op} {st : State}
    (hinv : Inv d rs halves st) (hw : ∀ op ∈ ops, Works d srv halves op)
    (hreq : ∀ r ∈ requests ops, r ∈ rs ∧ process d.e r = .ok (f r) ∧
      ∀ half ∈ halves, ∀ x ∈ loads d.e r, KeepsLonger d.e half x.1 x.2)
    (hlen : ∀ half ∈ lengths ops, half ∈ halves) :
    ∃ st', run d st ops = .ok (st', ops.map (answer f)) ∧ Inv d rs halves st' := by
  induction ops generalizing st with
  | nil => exact ⟨st, rfl, hinv⟩
  | cons op ops ih =>
    obtain ⟨st', h1, h2⟩ := step_works hcen hby hrs hinv (f := f) (hw op (by simp))
      (fun r hr => hreq r (mem_requests.2 ⟨op, by simp, hr⟩)) (fun n hn => hlen n (mem_lengths.2 ⟨op, by simp, hn⟩))
    obtain ⟨st'', h3, h4⟩ := ih h2 (fun o ho => hw o (by simp [ho]))
      (fun r hr => by
        obtain ⟨o, ho, hr⟩ := mem_requests.1 hr
        exact hreq r (mem_requests.2 ⟨o, by simp [ho], hr⟩))
      (fun n hn => by
        obtain ⟨o, ho, hn⟩ := mem_lengths.1 hn
        exact hlen n (mem_lengths.2 ⟨o, by simp [ho], hn⟩))
    refine ⟨st'', ?_, h4⟩
    simp only [run]
    rw [h1, Outcome.bind_ok]
    simp only
    rw [h3, Outcome.bind_ok]
    cases op <;> rfl

end Verif.WfAccess
