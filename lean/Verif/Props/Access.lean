import Verif.Proofs.Access
import Verif.Props.SingleEvent

/-!
# C88: the waveforms of the event relocated in single-event mode

`Needed` says which waveforms the cross-correlations of an event need; `srv` is the data centre.
-/

set_option linter.unusedSimpArgs false
set_option linter.unusedSectionVars false

namespace Verif.Access
open Verif.Catalog Verif.Waveform Verif.AccessSpec

/-- **C88 (what is asked for).** When the requests have been collected nothing has been downloaded yet; every waveform the
cross-correlations of the event need is asked for, no other, and each once; they are passed to the data source in a
single call, and if none is needed it is not called. -/
theorem preload_requests {o : Options} {stations : AMap String (Station ℝ)} {e : Env} {cat : Catalog ℝ} {nb : Neighbours}
    {refEv : Event ℝ} {b : Batch ℝ}
    (hst : ∀ rp ∈ cat.phasesOf refEv.id, Used o cat nb refEv rp → (stations.find? rp.stationId).isSome = true)
    (h : preload o stations e cat nb refEv = .ok b) :
    b.loaded = false ∧ b.traces = [] ∧ b.requests.Nodup ∧
    (∀ stream tw, (stream, tw) ∈ b.requests ↔ Needed o e.components e.extra cat nb refEv stream tw) ∧
    ∀ source, (b.load source).2 = if b.requests = [] then none else some b.requests := by
  have ha := adds_preload h
  have hl : b.loaded = false := ha.loaded rfl
  refine ⟨hl, ha.traces, ha.nodup List.nodup_nil, fun stream tw => ?_, fun source => ?_⟩
  · rw [ha.mem]
    simp only [Batch.init, List.not_mem_nil, false_or]
    unfold Needed
    refine exists_congr fun rp => and_congr_right fun hrp => ?_
    rw [used_iff]
    constructor
    · rintro ⟨hr, n, hn, hp, cs, hcs, c, hc, tw0, r, htw, hreq, hload⟩
      have hu : Used o cat nb refEv rp := used_iff.2 ⟨hr, n, hn, hp⟩
      obtain ⟨cha, hcha, hy⟩ := (loads_iff (hst rp hrp hu)).1 ⟨r, hreq, hload⟩
      obtain ⟨cfg, h1, h2⟩ := longWindow_iff.1 htw
      injection hy with hy1 hy2
      exact ⟨⟨hr, n, hn, hp⟩, c, components_iff.1 ⟨cs, hcs, hc⟩, cha, hcha, hy1, cfg, tw0, h1, h2, hy2⟩
    · rintro ⟨⟨hr, n, hn, hp⟩, c, hc, cha, hcha, hs, cfg, tw0, h1, h2, h3⟩
      have hu : Used o cat nb refEv rp := used_iff.2 ⟨hr, n, hn, hp⟩
      obtain ⟨cs, hcs, hcm⟩ := components_iff.2 hc
      have htw : longWindow o refEv rp = .ok tw0 := longWindow_iff.2 ⟨cfg, h1, h2⟩
      obtain ⟨r, hreq, hload⟩ := (loads_iff (o := o) (e := e) (tw := tw0) (ev := refEv) (c := c) (hst rp hrp hu)
        (y := (stream, tw))).2 ⟨cha, hcha, by rw [hs, h3]⟩
      exact ⟨hr, n, hn, hp, cs, hcs, c, hcm, tw0, r, htw, hreq, hload⟩
  · unfold Batch.load
    rw [hl]
    simp only [Bool.false_eq_true, if_false]
    by_cases hr : b.requests = []
    · rw [if_neg (by simp [hr]), if_pos hr]
    · rw [if_pos (List.length_pos_iff.2 hr), if_neg hr]

/-- **C88 (what is found).** With a consistent data centre, and in whichever order the traces of a stream are kept, the
correlations found with the waveforms downloaded together are those found if each waveform were asked of the data centre
when it is needed. -/
theorem preload_transparent {o : Options} {stations : AMap String (Station ℝ)} {num : Fl ℝ → ℚ} {s : Sources} {cat : Catalog ℝ}
    {nb : Neighbours} {refEv : Event ℝ} {b : Batch ℝ} {srv : String → TimeWindow → Option (Trace ℝ)}
    (h : preload o stations s.e cat nb refEv = .ok b) (hsrc : s.source = answers srv) (horder : ∀ l, (s.order l).Perm l)
    (hc : Consistent srv b.requests) (pre : XCorr.Cache) (st : Relocate.BuildState ℝ) :
    buildPairs o stations num s cat pre nb refEv st =
      (cat.phasesOf refEv.id).foldlM (Relocate.refPhaseStep
        (o.args stations num (process { s.e with load := fun tw ph => srv (streamId ph) tw }) s.wf) cat pre nb refEv) st := by
  have ha := adds_preload h
  unfold buildPairs
  rw [h]
  simp only [Outcome.bind_ok]
  refine loop_congr _ (fun rp hrp hr n hn hp cs hcs c hcm tw r htw hreq => ?_) st
  unfold Sources.preloaded
  rw [hsrc]
  refine process_congr fun x hx => ?_
  refine batchLoad_eq horder (ha.loaded rfl) ha.traces hc ?_
  rw [ha.mem]
  exact Or.inr ⟨rp, hrp, hr, n, hn, hp, cs, hcs, c, hcm, tw, r, htw, hreq, x, hx, rfl⟩

/-- **C88 (when the download is made).** If every pick is a P or S pick with settings and the window of every used pick
can be computed, the requests can be collected. -/
theorem preload_succeeds_partial {o : Options} {stations : AMap String (Station ℝ)} {e : Env} {cat : Catalog ℝ} {nb : Neighbours}
    {refEv : Event ℝ}
    (h1 : ∀ n ∈ nb.ids, (cat.events.find? n).isSome = true)
    (h2 : ∀ rp ∈ cat.phasesOf refEv.id, (cat.stations.find? rp.stationId).isSome = true)
    (h3 : ∀ rp ∈ cat.phasesOf refEv.id, (o.phase rp.procType).isSome = true)
    (h4 : ∀ rp ∈ cat.phasesOf refEv.id, Used o cat nb refEv rp → (stations.find? rp.stationId).isSome = true ∧
      ∃ cfg w, o.phase rp.procType = some cfg ∧ XCorr.windowLong cfg.win refEv.time rp.time = some w) :
    ∃ b, preload o stations e cat nb refEv = .ok b := by
  obtain ⟨b, hb, -⟩ := preload_ok (o := o) (stations := stations) (e := e) (cat := cat) (nb := nb) (refEv := refEv) h1 h2 h3
    fun rp hrp hu => by
      obtain ⟨g1, cfg, w, g2, g3⟩ := h4 rp hrp hu
      exact ⟨g1, w, longWindow_iff.2 ⟨cfg, g2, g3⟩⟩
  exact ⟨b, hb⟩

/-- **C88 is false for events with picks of other phases**: a pick that is neither one of the configured P phases nor one
of the S phases, and so has no settings, makes the cross-correlation fail, although it is never used. -/
theorem unclassified_pick_fails {o : Options} {stations : AMap String (Station ℝ)} {num : Fl ℝ → ℚ} {s : Sources} {cat : Catalog ℝ}
    {pre : XCorr.Cache} {nb : Neighbours} {refEv : Event ℝ} {rp : Phase ℝ} (hm : rp ∈ cat.phasesOf refEv.id)
    (hno : o.phase rp.procType = none) (st r : Relocate.BuildState ℝ) :
    buildPairs o stations num s cat pre nb refEv st ≠ .ok r := by
  intro h
  unfold buildPairs at h
  rw [bind_eq_ok] at h
  obtain ⟨b, hb, -⟩ := h
  obtain ⟨b1, b2, h1⟩ := foldlM_ok_mem hb rp hm
  unfold preloadPhase at h1
  cases hf : cat.stations.find? rp.stationId with
  | none => rw [hf] at h1; cases h1
  | some sta =>
    have hcs : components o rp = .throws := by
      unfold components
      rw [hno]
    rw [hf] at h1
    simp only [hcs] at h1
    cases h1

/-- **C88, consequence.** With cross-correlation enabled, settings for P and S only (as dd.h:111-113 and the application have
them) and enough neighbours, an event that has a pick of another phase is never relocated by single-event relocation. -/
theorem unclassified_pick_not_relocated {o : Options} {num : Fl ℝ → ℚ} {src : Sources} {s : Relocate.SingleArgs ℝ}
    {bg ev : Catalog ℝ} {evId : Nat} {nb : Neighbours} {source : Source} {vp vs : List String} {w : Phase ℝ → ℝ}
    (hx : s.xcorr = buildCache o bg.stations num src) (hno : o.phase .NO = none)
    (hb : bg.Sound) (he : ev.Sound) (hn : nb.ids.Nodup) (hin : ∀ k ∈ nb.ids, (bg.events.find? k).isSome = true)
    (hroom : uintMod - 1 ∉ nb.ids) (hmin : s.minNumNeigh ≤ nb.ids.length)
    {pick : Phase ℝ} (hp : pick ∈ ev.phasesOf evId) (hP : pick.type ∉ vp) (hS : pick.type ∉ vs)
    (r : Catalog ℝ × List (Relocate.IterLog ℝ)) :
    Relocate.relocateSingleEvent s bg (ev.fillProcessingInfo source vp vs w) evId nb ≠ .ok r := by
  intro h
  have ham : nb.amount = nb.ids.length := by simp [Neighbours.amount, Neighbours.ids, AMap.keys]
  unfold Relocate.relocateSingleEvent at h
  rw [ham, if_neg (by omega), bind_eq_ok] at h
  obtain ⟨⟨cat, newId⟩, hcat, h⟩ := h
  simp only at h
  rw [bind_eq_ok] at h
  obtain ⟨xc, hxc, -⟩ := h
  obtain ⟨e, h1, h2, h3, h4, h5, h6, h7⟩ := Relocate.singleEventCatalog_spec hb (fillProcessingInfo_sound he source vp vs w) hn hin hroom hcat
  rw [hx] at hxc
  unfold buildCache at hxc
  simp only [List.foldlM_cons, List.foldlM_nil] at hxc
  have hfind : cat.events.find? newId = some { e with id := newId } := by rw [h4, if_pos rfl]
  have hbe : ∀ st, buildEvent o bg.stations num src cat [] st (newId, { nb with refId := newId }) =
      buildPairs o bg.stations num src cat [] { nb with refId := newId } { e with id := newId } st := by
    intro st
    unfold buildEvent
    simp only
    rw [hfind]
  rw [hbe] at hxc
  have hev : (ev.events.find? evId).isSome = true := he.phaseEvent _ (Catalog.mem_phasesOf.1 hp)
  have hq : { pick with classWeight := w pick, source := source, procType := Catalog.classify vp vs pick.type, eventId := newId } ∈
      cat.phasesOf ({ e with id := newId } : Event ℝ).id := by
    show _ ∈ cat.phasesOf newId
    rw [h6, (Catalog.fillProcessingInfo_phases he.toWF source vp vs w).2.2 evId, if_pos hev, List.map_map]
    exact List.mem_map.2 ⟨pick, hp, rfl⟩
  have hcl : Catalog.classify vp vs pick.type = .NO := (Catalog.phase_classification vp vs pick.type).2.2.2 ⟨hP, hS⟩
  cases hbp : buildPairs o bg.stations num src cat [] { nb with refId := newId } { e with id := newId } ⟨[], []⟩ with
  | ok r' => exact unclassified_pick_fails hq (by rw [hcl]; exact hno) _ _ hbp
  | throws => rw [hbp] at hxc; cases hxc
  | ub => rw [hbp] at hxc; cases hxc


namespace Example

def sta : Station ℝ := ⟨"N.A.", 1, 2, 0, "N", "A", ""⟩

def event (id : Nat) (t : Int) : Event ℝ := ⟨id, t, 46, 7, 5, 1, false, 0, 0⟩

noncomputable def pick (id : Nat) (t : Int) (type : String) (kind : PhaseType) : Phase ℝ :=
  ⟨id, "N.A.", t, 0, 0, type, "N", "A", "", "HHZ", kind, 1/2, .catalog, false, 0, 0, 0⟩

/-- the background catalog: one event with a P and an S pick -/
noncomputable def bg : Catalog ℝ :=
  (((Catalog.init.addStation sta).addEvent (event 1 10000000) true).1.addPhase (pick 1 15000000 "Pg" .P)).addPhase
    (pick 1 19000000 "Sg" .S)

/-- the catalog of a single-event relocation: event 2 has a P and an S pick too -/
noncomputable def cat : Catalog ℝ :=
  ((bg.addEvent (event 2 30000000) true).1.addPhase (pick 2 35000000 "Pg" .P)).addPhase (pick 2 39000000 "Sg" .S)

def nb : Neighbours := ⟨2, [(1, [("N.A.", "Pg"), ("N.A.", "Sg")])]⟩

/-- the default settings, without window scaling, and all distances 0 -/
noncomputable def opt : Options :=
  ⟨0, -1, -1, fun k => match k with
    | .P => some ⟨⟨-1/2, 1/2, 0, 1/2⟩, ["Z"]⟩
    | .S => some ⟨⟨-1/2, 1, 0, 1/2⟩, ["L2"]⟩
    | .NO => none, "", 0, fun _ _ => 0, fun _ _ => 0⟩

noncomputable def env : Env := ⟨fun _ _ => none, fun _ t => some t,
  fun _ => some (![ "HHZ", "HHN", "HHE" ], ⟨fun _ => 0, fun _ => 0⟩), 1000000⟩

theorem picks : cat.phasesOf 2 = [pick 2 35000000 "Pg" .P, pick 2 39000000 "Sg" .S] := rfl

theorem sound_of {c : Catalog ℝ} (h : c.Reachable) (h1 : ∀ kp ∈ c.phases, (c.events.find? kp.1).isSome = true)
    (h2 : ∀ kp ∈ c.phases, (c.stations.find? kp.2.stationId).isSome = true) : c.Sound := ⟨h.wf, h1, h2⟩

theorem bg_sound : bg.Sound := by
  refine sound_of ?_ (by decide +kernel) (by decide +kernel)
  exact .addPhase _ (.addPhase _ (.addEvent _ _ (by decide) (.addStation _ .init)))

def winP : TimeWindow := ⟨33000000, 37000000⟩
def winS : TimeWindow := ⟨37000000, 41500000⟩

theorem used {type : String} {kind : PhaseType} {t : Int} (h : type = "Pg" ∨ type = "Sg") :
    Used opt cat nb (event 2 30000000) (pick 2 t type kind) := by
  refine ⟨⟨sta, rfl, le_refl _, fun h => le_of_eq ?_⟩, 1, by decide, ⟨event 1 10000000, rfl, fun h => le_of_eq ?_⟩, ?_⟩
  · exact absurd h (by norm_num [opt])
  · exact absurd h (by norm_num [opt])
  · rcases h with rfl | rfl
    · show nb.hasPhase 1 ("N.A.", "Pg") = true
      decide
    · show nb.hasPhase 1 ("N.A.", "Sg") = true
      decide

theorem window_P : XCorr.windowLong ⟨-1/2, 1/2, 0, 1/2⟩ 30000000 35000000 = some ⟨34000000, 36000000⟩ := by decide +kernel
theorem window_S : XCorr.windowLong ⟨-1/2, 1, 0, 1/2⟩ 30000000 39000000 = some ⟨38000000, 40500000⟩ := by decide +kernel

theorem has_window : ∀ rp ∈ cat.phasesOf 2, (opt.phase rp.procType).isSome = true ∧
    ∃ cfg w, opt.phase rp.procType = some cfg ∧ XCorr.windowLong cfg.win (event 2 30000000).time rp.time = some w := by
  rw [picks]
  intro rp hrp
  simp only [List.mem_cons, List.not_mem_nil, or_false] at hrp
  rcases hrp with rfl | rfl
  · exact ⟨rfl, _, _, rfl, window_P⟩
  · exact ⟨rfl, _, _, rfl, window_S⟩

theorem stations_known : ∀ rp ∈ cat.phasesOf 2, rp.stationId = "N.A." := by
  rw [picks]
  intro rp hrp
  simp only [List.mem_cons, List.not_mem_nil, or_false] at hrp
  rcases hrp with rfl | rfl <;> rfl

/-- the requests can be collected: the hypotheses of `preload_succeeds_partial` hold -/
theorem collected : ∃ b, preload opt bg.stations env cat nb (event 2 30000000) = .ok b := by
  refine preload_succeeds_partial ?_ (fun rp hrp => ?_) (fun rp hrp => (has_window rp hrp).1) fun rp hrp _ => ⟨?_, (has_window rp hrp).2⟩
  · intro n hn
    have : n = 1 := by simpa [nb, Neighbours.ids, AMap.keys] using hn
    subst this
    decide +kernel
  · rw [stations_known rp hrp]; decide +kernel
  · rw [stations_known rp hrp]; decide +kernel

/-- exactly three waveforms are needed -/
theorem needed_iff (stream : String) (tw : TimeWindow) :
    Needed opt env.components env.extra cat nb (event 2 30000000) stream tw ↔
      (stream = "N.A..HHZ" ∧ tw = winP) ∨ ((stream = "N.A..HHN" ∨ stream = "N.A..HHE") ∧ tw = winS) := by
  constructor
  · rintro ⟨rp, hrp, -, c, ⟨cfg, hcfg, hc⟩, cha, hcha, hs, cfg', w, hcfg', hw, htw⟩
    have hrp' : rp ∈ cat.phasesOf 2 := hrp
    rw [picks] at hrp'
    simp only [List.mem_cons, List.not_mem_nil, or_false] at hrp'
    rcases hrp' with rfl | rfl
    · cases hcfg
      cases hcfg'
      have hw' : some w = some ⟨34000000, 36000000⟩ := hw.symm.trans window_P
      cases hw'
      have hc' : c = "Z" := by simpa using hc
      subst hc'
      have : cha = "HHZ" := by simpa [Channel, pick] using hcha
      subst this
      exact Or.inl ⟨hs, htw⟩
    · cases hcfg
      cases hcfg'
      have hw' : some w = some ⟨38000000, 40500000⟩ := hw.symm.trans window_S
      cases hw'
      have hc' : c = "L2" := by simpa using hc
      subst hc'
      have : cha = "HHN" ∨ cha = "HHE" := by simpa [Channel, env] using hcha
      refine Or.inr ⟨?_, htw⟩
      rcases this with rfl | rfl
      · exact Or.inl hs
      · exact Or.inr hs
  · rintro (⟨rfl, rfl⟩ | ⟨h, rfl⟩)
    · refine ⟨pick 2 35000000 "Pg" .P, ?_, used (Or.inl rfl), "Z", ⟨_, rfl, Or.inl ⟨by simp, by simp, by simp⟩⟩, "HHZ", ?_, rfl,
        _, _, rfl, window_P, rfl⟩
      · show _ ∈ cat.phasesOf 2
        rw [picks]; simp
      · exact Or.inr (Or.inr ⟨by decide, by decide, by decide, by decide, by decide +kernel⟩)
    · rcases h with rfl | rfl
      · refine ⟨pick 2 39000000 "Sg" .S, ?_, used (Or.inr rfl), "L2", ⟨_, rfl, Or.inl ⟨by simp, by simp, by simp⟩⟩, "HHN", ?_, rfl,
          _, _, rfl, window_S, rfl⟩
        · show _ ∈ cat.phasesOf 2
          rw [picks]; simp
        · exact Or.inr (Or.inl ⟨rfl, _, _, rfl, Or.inl rfl⟩)
      · refine ⟨pick 2 39000000 "Sg" .S, ?_, used (Or.inr rfl), "L2", ⟨_, rfl, Or.inl ⟨by simp, by simp, by simp⟩⟩, "HHE", ?_, rfl,
          _, _, rfl, window_S, rfl⟩
        · show _ ∈ cat.phasesOf 2
          rw [picks]; simp
        · exact Or.inr (Or.inl ⟨rfl, _, _, rfl, Or.inr rfl⟩)

/-- a data centre that has both windows -/
noncomputable def srv (_ : String) (tw : TimeWindow) : Option (Trace ℝ) :=
  if tw = winP then some ⟨33000000, 2, [0, 1, 2, 3, 4, 5, 6, 7, 8]⟩
  else if tw = winS then some ⟨37000000, 2, [0, 1, 2, 3, 4, 5, 6, 7, 8, 9]⟩ else none

theorem srv_window {s : String} {tw : TimeWindow} {t : Trace ℝ} (h : srv s tw = some t) : t.timeWindow = tw := by
  unfold srv at h
  by_cases h1 : tw = winP
  · rw [if_pos h1] at h
    cases h
    rw [h1]
    decide +kernel
  · rw [if_neg h1] at h
    by_cases h2 : tw = winS
    · rw [if_pos h2] at h
      cases h
      rw [h2]
      decide +kernel
    · rw [if_neg h2] at h; cases h

/-- the hypotheses of `preload_requests` and `preload_transparent` hold, and the three waveforms are downloaded -/
example : ∃ b, preload opt bg.stations env cat nb (event 2 30000000) = .ok b ∧ Consistent srv b.requests ∧
    ("N.A..HHZ", winP) ∈ b.requests ∧ ("N.A..HHN", winS) ∈ b.requests ∧ ("N.A..HHE", winS) ∈ b.requests ∧
    ∀ s tw, (s, tw) ∈ b.requests → (srv s tw).isSome = true := by
  obtain ⟨b, hb⟩ := collected
  have hst : ∀ rp ∈ cat.phasesOf (event 2 30000000).id, Used opt cat nb (event 2 30000000) rp →
      (bg.stations.find? rp.stationId).isSome = true := by
    intro rp hrp _
    rw [stations_known rp hrp]; decide +kernel
  have hreq := fun s tw => ((preload_requests hst hb).2.2.2.1 s tw).trans (needed_iff s tw)
  refine ⟨b, hb, ⟨fun s tw t hm hs => ?_, fun s tw tw' t' hm hm' hs hcov => ?_⟩, (hreq _ _).2 (Or.inl ⟨rfl, rfl⟩),
    (hreq _ _).2 (Or.inr ⟨Or.inl rfl, rfl⟩), (hreq _ _).2 (Or.inr ⟨Or.inr rfl, rfl⟩), fun s tw hm => ?_⟩
  · rw [srv_window hs]
    simp [TimeWindow.contains]
  · have : tw' = tw := by
      rcases (hreq _ _).1 hm with ⟨h1, h2⟩ | ⟨h1, h2⟩ <;> rcases (hreq _ _).1 hm' with ⟨h3, h4⟩ | ⟨h3, h4⟩
      · rw [h2, h4]
      · rw [h1] at h3; exact absurd h3 (by decide)
      · rw [h3] at h1; exact absurd h1 (by decide)
      · rw [h2, h4]
    subst this
    rw [if_pos (srv_window hs), hs]
  · rcases (hreq _ _).1 hm with ⟨-, rfl⟩ | ⟨-, rfl⟩
    · rfl
    · rfl

/-- an event with a P pick and a pick of the phase pP, as it comes in -/
noncomputable def incoming : Catalog ℝ :=
  (((Catalog.init.addStation sta).addEvent (event 7 30000000) true).1.addPhase (pick 7 35000000 "Pg" .NO)).addPhase
    (pick 7 37000000 "pP" .NO)

/-- the hypotheses of `unclassified_pick_not_relocated` hold: the pP pick prevents the relocation -/
example (num : Fl ℝ → ℚ) (src : Sources) (s : Relocate.SingleArgs ℝ) (hx : s.xcorr = buildCache opt bg.stations num src)
    (hmin : s.minNumNeigh = 1) (w : Phase ℝ → ℝ) (r : Catalog ℝ × List (Relocate.IterLog ℝ)) :
    Relocate.relocateSingleEvent s bg (incoming.fillProcessingInfo .rtEventManual ["Pg", "P"] ["Sg", "S"] w) 7
      ⟨7, [(1, [("N.A.", "Pg")])]⟩ ≠ .ok r := by
  refine unclassified_pick_not_relocated hx rfl bg_sound ?_ (by decide) ?_ (by decide) (by rw [hmin]; decide)
    (pick := pick 7 37000000 "pP" .NO) (List.mem_cons_of_mem _ (List.mem_singleton.2 rfl)) ?_ ?_ r
  · refine sound_of ?_ (by decide +kernel) (by decide +kernel)
    exact .addPhase _ (.addPhase _ (.addEvent _ _ (by decide) (.addStation _ .init)))
  · intro k hk
    have : k = 1 := by simpa [Neighbours.ids, AMap.keys] using hk
    subst this
    decide +kernel
  · show "pP" ∉ ["Pg", "P"]
    decide
  · show "pP" ∉ ["Sg", "S"]
    decide

end Example

end Verif.Access
