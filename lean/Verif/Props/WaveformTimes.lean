import Verif.Spec.WaveformTimes
import Verif.Props.LagShift
import Verif.Props.Correlation
import Verif.Props.XCorrBuild
import Verif.Props.Observations
import Verif.Props.Residuals
import Verif.Proofs.FittedData

/-!
# C124: a correlated pair of picks enters the inversion with the difference of the times at which its waveforms match
-/

set_option linter.unusedSimpArgs false

namespace Verif.LagSpec
open Verif Verif.Catalog Verif.Relocate Verif.CorrelationSpec Verif.Solver Verif.Access

theorem pearson_symm (X Y : List ℝ) : XCorr.Spec.pearson X Y = XCorr.Spec.pearson Y X := by
  unfold XCorr.Spec.pearson
  rw [mul_comm]
  congr 1
  unfold XCorr.Spec.cov
  rw [List.zipWith_comm]
  congr 2
  funext x y
  ring

theorem Compared.symm {tr1 tr2 : Trace ℝ} {i1 i2 n : ℕ} {k : ℝ} (h : Compared tr1 tr2 i1 i2 n k) : Compared tr2 tr1 i2 i1 n k :=
  ⟨h.some, h.in2, h.in1, by rw [h.coeff, pearson_symm]⟩

/-- what a valid answer of a correlation of two picks of the catalog says -/
theorem answer_measured {o : Access.Options} {stations : AMap String (Station ℝ)} {num : Fl ℝ → ℚ}
    {wf1 wf2 : Waveform.Request → Outcome (Option (Trace ℝ))} {late : ℚ} (hlate : 0 ≤ late) (hw1 : Delivers o late wf1) (hw2 : Delivers o late wf2)
    (hset : ∀ t cfg, o.phase t = some cfg → Settings cfg.win) {cat : Catalog ℝ} (hcat : Picked cat) {i : Nat} {c : XcorrCall ℝ}
    (hc : GoodCall (o.args stations num wf1 wf2) cat i c) (hv : c.result.valid = true) :
    ∃ cfg comp tr1 tr2 i1 i2 n k, o.phase c.refPhase.procType = some cfg ∧ Recorded o stations wf1 c.refEv c.refPhase comp tr1 ∧
      Recorded o stations wf2 c.ev c.phase comp tr2 ∧ Compared tr1 tr2 i1 i2 n k ∧ step tr1 = step tr2 ∧
      |shift tr1 c.refPhase.time i1 tr2 c.phase.time i2 - c.result.lag * 1000000 -
        bias cfg.win (((c.phase.time : ℚ) - c.ev.time) - (c.refPhase.time - c.refEv.time))| ≤ (3 / 2 + late / 2) * step tr1 + 8 := by
  obtain ⟨e1, e2⟩ := pair_entry hc.answer
  obtain ⟨comp, lag, k, hR⟩ := e1.1 hv
  obtain ⟨hl, -⟩ := e2 _ _ _ hR
  obtain ⟨-, -, cs, before, after, -, -, -, cfg, cfg2, tr1, tr2, g1, g2, r1, r2, hf, hm⟩ := hR
  obtain rfl : cfg = cfg2 := by
    have := hcat.kind _ _ _ hc.refPick _ hc.pick.1 hc.pick.2.2.symm
    rw [← this, g1] at g2
    injection g2
  obtain ⟨cfg', w1, sta, kind, cha, f1, f2, -, -, f3⟩ := id r1
  rw [g1] at f1; injection f1 with f1; subst f1
  obtain ⟨cfg', w2, sta2, kind2, cha2, f4, f5, -, -, f6⟩ := id r2
  rw [g2] at f4; injection f4 with f4; subst f4
  obtain ⟨a1, a2, a3, a4⟩ := hw1 _ _ f3
  obtain ⟨b1, b2, b3, -⟩ := hw2 _ _ f6
  have hp : Pair cfg.win late c.refEv c.refPhase c.ev c.phase tr1 tr2 :=
    ⟨hset _ _ g1, hlate, hcat.after _ _ hc.ref _ hc.refPick, hcat.after _ _ hc.ev _ hc.pick.1, hf, a2, a4 _ _ g1, a1, b1,
      ⟨_, f2, a3⟩, ⟨_, f5, b3⟩⟩
  obtain ⟨i1, i2, n, c1, -, c3⟩ := lag_is_shift_and_bias hp hm
  exact ⟨cfg, comp, tr1, tr2, i1, i2, n, k, g1, r1, r2, c1, by unfold step; rw [hf], by rw [hl]; exact c3⟩

/-- **C124.** Every observation given to the solver that uses a correlation made for it (not one known beforehand) is the time from the
present origin of its first event to some part of a waveform recorded for its pick, less the time from the present origin of its
second event to the part of the waveform of the other pick that was compared with it, whichever of the events was correlated with the
other; up to one and a half samples (two for combined components, and eight microseconds) and the bias of C123.  The picks, which this
is computed from, do not matter otherwise. -/
theorem correlated_time_is_measured_partial {o : Access.Options} {stations : AMap String (Station ℝ)} {num : Fl ℝ → ℚ}
    {wf1 wf2 : Waveform.Request → Outcome (Option (Trace ℝ))} {late : ℚ} (hlate : 0 ≤ late) (hw1 : Delivers o late wf1) (hw2 : Delivers o late wf2)
    (hset : ∀ t cfg, o.phase t = some cfg → Settings cfg.win)
    {cat : Catalog ℝ} (hs : cat.Sound) (hcat : Picked cat) {pre : XCorr.Cache} {f : XCorrSpec.View} (hpre : XCorr.History pre f)
    {cluster : Cluster} (hself : NoSelf cluster) {calls : List (XcorrCall ℝ)} {t : BuildState ℝ}
    (hbuild : buildXCorrCache (o.args stations num wf1 wf2) cat cluster pre calls = .ok t)
    {env : Env ℝ} {oo : ObsOptions ℝ} {cur : Catalog ℝ} (hcur : cur.WF) (hsame : SamePicks cat cur) {nb : Neighbours}
    {ops0 ops : List (SolverOp ℝ)} {b : Bool} (hadd : addObservations env oo cur t.cache nb ops0 = .ok (ops, b)) :
    ∃ new, ops = ops0 ++ new ∧ ∀ x ∈ obsOf new, x.xcorrUsed = true → ∃ refEv ev sp,
      cur.events.find? nb.refId = some refEv ∧ cur.events.find? ev.id = some ev ∧ (sp, ev.id) ∈ nb.phases ∧
      x.e1 = refEv.id ∧ x.e2 = ev.id ∧ x.sta = sp.1.toList ∧ x.phase = sp.2.toList ∧
      (XCorr.get pre refEv.id ev.id sp.1 sp.2 = none → MeasuredOn o stations wf1 wf2 late cat refEv ev sp x) := by
  obtain ⟨new, h1, h2⟩ := observations_correct hcur hadd
  refine ⟨new, h1, fun x hx hused => ?_⟩
  obtain ⟨refEv, ev, sp, n, rp, p, thr, q1, q2, q3, q4, q5, -, q7⟩ := h2 x hx
  have hid := (hcur.eventKey _ _ q1).1
  have hid2 := (hcur.eventKey _ _ q3).1
  subst hid2
  refine ⟨refEv, ev, sp, q1, q3, q2, q7.ids.1, q7.ids.2.1, q7.ids.2.2.1, q7.ids.2.2.2, fun hnone => ?_⟩
  have hu : ∃ e, Usable t.cache refEv.id ev.id sp thr e := by
    by_contra hno
    have := (q7.picksOnly (fun e he => hno ⟨e, he⟩)).1
    rw [hused] at this
    cases this
  obtain ⟨e, he⟩ := hu
  obtain ⟨-, -, htime, -⟩ := q7.corrected e he
  obtain ⟨rp0, r1, r2⟩ := hsame _ _ _ q4
  obtain ⟨p0, p1, p2⟩ := hsame _ _ _ q5
  rw [← hid] at r1
  obtain ⟨new', k1, c, k2, k3⟩ := (xcorr_cache_origin hs hpre hself hbuild he.1).2 hnone
  obtain ⟨new'', k4, -, -, -, k5⟩ := xcorr_computed_once hs hpre hself hbuild
  obtain rfl : new' = new'' := by
    rw [k1] at k4
    exact List.append_cancel_left k4
  obtain ⟨j, hj⟩ := List.mem_iff_getElem?.1 k2
  have hgood := k5 j c hj
  have hfin : ∀ {T1 T2 B L : ℚ} {d : ℚ}, e.lag = L →
      |((T2 - p.time) - (T1 - rp.time)) - L * 1000000 - B| ≤ d →
      |x.timeDiff * 1000000 - ((((T1 - refEv.time) - (T2 - ev.time) : ℚ)) : ℝ) - ((B : ℚ) : ℝ)| ≤ (d : ℝ) := by
    intro T1 T2 B L d hL hh
    have : x.timeDiff * 1000000 - ((((T1 - refEv.time) - (T2 - ev.time) : ℚ)) : ℝ) - ((B : ℚ) : ℝ) =
        (((((T2 - p.time) - (T1 - rp.time)) - L * 1000000 - B) : ℚ) : ℝ) := by
      rw [htime, hL]
      unfold travelTime
      push_cast
      ring
    rw [this, ← Rat.cast_abs]
    exact_mod_cast hh
  rcases k3 with ⟨a1, a2, a3, a4⟩ | ⟨a1, a2, a3, a4⟩
  · obtain ⟨cfg, comp, tr1, tr2, i1, i2, m, k, g1, g2, g3, g4, -, g6⟩ := answer_measured hlate hw1 hw2 hset hcat hgood (by rw [a4]; exact he.2.1)
    have f1 : IsPick cat refEv.id sp c.refPhase := ⟨a1 ▸ hgood.refPick, by rw [← a3], by rw [← a3]⟩
    have f2 : IsPick cat ev.id sp c.phase := by have := hgood.pick; rw [a2, a3] at this; exact this
    have t1 : c.refPhase.time = rp.time := by
      rw [← r2]
      exact (hcat.one _ _ f1.1 _ r1.1 (by rw [f1.2.1, r1.2.1]) (by rw [f1.2.2, r1.2.2])).1
    have t2 : c.phase.time = p.time := by
      rw [← p2]
      exact (hcat.one _ _ f2.1 _ p1.1 (by rw [f2.2.1, p1.2.1]) (by rw [f2.2.2, p1.2.2])).1
    refine ⟨c.refEv, c.refPhase, c.ev, c.phase, cfg, tr1, tr2, i1, i2, m, k, a1 ▸ hgood.ref, f1, a2 ▸ hgood.ev, f2, g1,
      ⟨comp, .inl ⟨g2, g3⟩⟩, g4, hfin (L := c.result.lag) (by rw [a4]) ?_⟩
    rw [← t1, ← t2]
    exact g6
  · obtain ⟨cfg, comp, tr1, tr2, i1, i2, m, k, g1, g2, g3, g4, g5, g6⟩ := answer_measured hlate hw1 hw2 hset hcat hgood (by rw [a4]; exact he.2.1)
    have f1 : IsPick cat ev.id sp c.refPhase := ⟨a1 ▸ hgood.refPick, by rw [← a3], by rw [← a3]⟩
    have f2 : IsPick cat refEv.id sp c.phase := by have := hgood.pick; rw [a2, a3] at this; exact this
    have t1 : c.refPhase.time = p.time := by
      rw [← p2]
      exact (hcat.one _ _ f1.1 _ p1.1 (by rw [f1.2.1, p1.2.1]) (by rw [f1.2.2, p1.2.2])).1
    have t2 : c.phase.time = rp.time := by
      rw [← r2]
      exact (hcat.one _ _ f2.1 _ r1.1 (by rw [f2.2.1, r1.2.1]) (by rw [f2.2.2, r1.2.2])).1
    have hk := hcat.kind _ _ _ f2.1 _ f1.1 (by rw [f1.2.2, f2.2.2])
    refine ⟨c.ev, c.phase, c.refEv, c.refPhase, cfg, tr2, tr1, i2, i1, m, k, a2 ▸ hgood.ev, f2, a1 ▸ hgood.ref, f1, hk ▸ g1,
      ⟨comp, .inr ⟨g3, g2⟩⟩, g4.symm, hfin (L := -c.result.lag) (by rw [a4]; simp) ?_⟩
    rw [← t1, ← t2, ← g5, ← abs_neg]
    refine le_of_eq_of_le (congrArg _ ?_) g6
    unfold shift bias
    ring

/-- the picks are as they were, apart from what relocation computes -/
theorem SamePicks.of_pick0 {cat cur : Catalog ℝ} (h : ∀ k, (cur.phasesOf k).map pick0 = (cat.phasesOf k).map pick0) : SamePicks cat cur := by
  rintro k sp p ⟨h1, h2, h3⟩
  have hm : pick0 p ∈ (cat.phasesOf k).map pick0 := by rw [← h k]; exact List.mem_map_of_mem h1
  obtain ⟨p0, g1, g2⟩ := List.mem_map.1 hm
  refine ⟨p0, ⟨g1, ?_, ?_⟩, ?_⟩
  · have := congrArg Phase.stationId g2
    exact Eq.trans this h2
  · have := congrArg Phase.type g2
    exact Eq.trans this h3
  · have := congrArg Phase.time g2
    exact this

/-- **C124 (a whole relocation).** In every iteration of a relocation that uses the correlations made for its cluster, each
observation that uses one of them is the difference of the times from the origins to the matching parts of the waveforms.  The origins
are those with which the iteration starts, or, for events that it puts back, those of the iteration before. -/
theorem relocation_uses_measured_times_partial {o : Access.Options} {stations : AMap String (Station ℝ)} {num : Fl ℝ → ℚ}
    {wf1 wf2 : Waveform.Request → Outcome (Option (Trace ℝ))} {late : ℚ} (hlate : 0 ≤ late) (hw1 : Delivers o late wf1) (hw2 : Delivers o late wf2)
    (hset : ∀ t cfg, o.phase t = some cfg → Settings cfg.win)
    {cat : Catalog ℝ} (hs : cat.Sound) (hn : NoAt cat) (hcat : Picked cat) {pre : XCorr.Cache} {f : XCorrSpec.View}
    (hpre : XCorr.History pre f) {a : Args ℝ} (hg : GoodArgs a) (hself : NoSelf a.cluster) {calls : List (XcorrCall ℝ)} {t : BuildState ℝ}
    (hbuild : buildXCorrCache (o.args stations num wf1 wf2) cat a.cluster pre calls = .ok t) (hxc : a.xc = t.cache)
    {r : Catalog ℝ} {log : List (IterLog ℝ)} (h : relocate a cat = .ok (r, log)) {i : Nat} {x : IterLog ℝ} (hx : log[i]? = some x) :
    ∀ ob ∈ obsOf x.ops, ob.xcorrUsed = true → ∃ refEv ev sp,
      ob.e1 = refEv.id ∧ ob.e2 = ev.id ∧ ob.sta = sp.1.toList ∧ ob.phase = sp.2.toList ∧
      (∀ e, e = refEv ∨ e = ev → x.before.events.find? e.id = some e ∨
        e.id ∈ x.reverted ∧ ∃ w, 0 < i ∧ log[i - 1]? = some w ∧ w.after.events.find? e.id = some e) ∧
      (XCorr.get pre refEv.id ev.id sp.1 sp.2 = none → MeasuredOn o stations wf1 wf2 late cat refEv ev sp ob) := by
  obtain ⟨prev, hok, hrel, hcase⟩ := entry_facts hg hs hn h hx
  obtain ⟨ob', h1, h2, h3, h4⟩ := hok.observe
  have hp : prev = Catalog.init ∨ Relocate.Rel a.cluster cat prev := by
    rcases hcase with ⟨_, h, _⟩ | ⟨w, ans, _, _, h, h', _⟩
    · exact Or.inl h
    · exact Or.inr (h ▸ h')
  obtain ⟨p1, p2, p3⟩ := prev_ok hrel hp
  rw [← h2]
  refine observe_all hrel.sound hrel.noAt p1 p2 p3 hg.cluster hg.fits (fun done t' ht hsub nb ops0 ops b hadd => ?_) h1
  obtain ⟨r1, r2, r3⟩ := FittedData.ObserveInv_rel ht hrel hp
  rw [hxc] at hadd
  obtain ⟨new, k1, k2⟩ := correlated_time_is_measured_partial hlate hw1 hw2 hset hs hcat hpre hself hbuild r1.toWF (.of_pick0 r3) hadd
  intro y hy
  rw [k1, obsOf_append, List.mem_append] at hy
  rcases hy with hy | hy
  · exact .inl hy
  refine .inr fun hused => ?_
  obtain ⟨refEv, ev, sp, g1, g2, g3, g4, g5, g6, g7, g8⟩ := k2 y hy hused
  refine ⟨refEv, ev, sp, g4, g5, g6, g7, ?_, g8⟩
  have key : ∀ e : Event ℝ, t'.cur.events.find? e.id = some e → x.before.events.find? e.id = some e ∨
        e.id ∈ x.reverted ∧ ∃ w, 0 < i ∧ log[i - 1]? = some w ∧ w.after.events.find? e.id = some e := by
    intro e he
    by_cases hk : e.id ∈ t'.reverted
    · right
      obtain ⟨q1, q2, -⟩ := ht.restored _ hk
      refine ⟨h3 ▸ hsub _ hk, ?_⟩
      rcases hcase with ⟨_, h, _⟩ | ⟨w, ans, h0, hw, h, _⟩
      · rw [h] at q2; simp [Catalog.init] at q2
      · exact ⟨w, h0, hw, by rw [← h, ← q1]; exact he⟩
    · left
      rw [← ht.keep.events _ hk]; exact he
  rintro e (rfl | rfl)
  · exact key _ (by rw [(r1.toWF.eventKey _ _ g1).1]; exact g1)
  · exact key _ g2

namespace MeasuredExample
open Access.CorrelationExample

/-- two events with a pick each, 1 s after the origin -/
noncomputable def cat : Catalog ℝ :=
  ((((Catalog.init.addStation sta).addEvent (event 1) true).1.addEvent (event 2) true).1.addPhase (pick 1 .catalog)).addPhase (pick 2 .catalog)

/-- the first event moved by 0.4 s -/
noncomputable def cur : Catalog ℝ :=
  ((((Catalog.init.addStation sta).addEvent { event 1 with time := 400000 } true).1.addEvent (event 2) true).1.addPhase (pick 1 .catalog)).addPhase (pick 2 .catalog)

theorem cat_sound : cat.Sound := by
  refine ⟨Catalog.Reachable.wf ?_, by decide +kernel, by decide +kernel⟩
  exact .addPhase _ (.addPhase _ (.addEvent _ _ (by decide) (.addEvent _ _ (by decide) (.addStation _ .init))))

theorem cur_reachable : cur.Reachable :=
  .addPhase _ (.addPhase _ (.addEvent _ _ (by decide) (.addEvent _ _ (by decide) (.addStation _ .init))))

theorem phases_of {c : Catalog ℝ} (hc : c = cat ∨ c = cur) {k : Nat} {p : Phase ℝ} (h : p ∈ c.phasesOf k) :
    (k = 1 ∧ p = pick 1 .catalog) ∨ (k = 2 ∧ p = pick 2 .catalog) := by
  have := Catalog.mem_phasesOf.1 h
  have hp : c.phases = [(1, pick 1 .catalog), (2, pick 2 .catalog)] := by rcases hc with rfl | rfl <;> rfl
  rw [hp] at this
  simp only [List.mem_cons, Prod.mk.injEq, List.not_mem_nil, or_false] at this
  exact this

theorem picked : Picked cat where
  after := by
    intro k ev hk p hp
    rcases phases_of (.inl rfl) hp with ⟨rfl, rfl⟩ | ⟨rfl, rfl⟩
    · have h : cat.events.find? 1 = some (event 1) := rfl
      rw [h] at hk; cases hk; decide
    · have h : cat.events.find? 2 = some (event 2) := rfl
      rw [h] at hk; cases hk; decide
  one := by
    intro k p hp p' hp' _ _
    rcases phases_of (.inl rfl) hp with ⟨rfl, rfl⟩ | ⟨rfl, rfl⟩ <;> rcases phases_of (.inl rfl) hp' with ⟨h, rfl⟩ | ⟨h, rfl⟩ <;>
      exact ⟨rfl, rfl⟩
  kind := by
    intro k k' p hp p' hp' _
    rcases phases_of (.inl rfl) hp with ⟨rfl, rfl⟩ | ⟨rfl, rfl⟩ <;> rcases phases_of (.inl rfl) hp' with ⟨h, rfl⟩ | ⟨h, rfl⟩ <;> rfl

theorem same : SamePicks cat cur := by
  intro k sp p hp
  rcases phases_of (.inr rfl) hp.1 with ⟨rfl, rfl⟩ | ⟨rfl, rfl⟩
  · exact ⟨_, ⟨Catalog.mem_phasesOf.2 (.head _), hp.2⟩, rfl⟩
  · exact ⟨_, ⟨Catalog.mem_phasesOf.2 (.tail _ (.head _)), hp.2⟩, rfl⟩

/-- the window of the picks is that of the waveform -/
theorem window_long : XCorr.windowLong XCorr.Example.config 0 1000000 = some ⟨0, 3000000⟩ := by decide +kernel

/-- a source of waveforms that has the example for its window only -/
noncomputable def wfs (r : Waveform.Request) : Outcome (Option (Trace ℝ)) := if r.tw = ⟨0, 3000000⟩ then wf r else .ok none

theorem delivers : Delivers opt 0 wfs := by
  intro r tr h
  unfold wfs at h
  split at h
  · rename_i hr
    unfold wf at h
    split at h
    · injection h with h; injection h with h
      subst h
      refine ⟨by simp [XCorr.Example.trace], by norm_num [XCorr.Example.trace], ?_, ?_⟩
      · rw [hr]
        constructor <;> norm_num [XCorr.Example.trace, timeOf, step]
      · intro t cfg hc
        simp only [opt, Option.some.injEq] at hc
        subst hc
        norm_num [XCorr.Example.trace, XCorr.Example.config]
    · cases h
  · cases h

theorem settings (t : PhaseType) (cfg : PhaseOptions) (h : opt.phase t = some cfg) : Settings cfg.win := by
  simp only [opt, Option.some.injEq] at h
  subst h
  exact Example.usual.settings

theorem recorded' (id : Nat) : Recorded opt [("N.A.", sta)] wfs (event id) (pick id .catalog) "Z" XCorr.Example.trace :=
  ⟨_, _, sta, .none, "HHZ", rfl, window_long, rfl,
    .inr (.inr (.inr ⟨by decide, by decide, by decide, by decide, rfl, sensor_channel⟩)), rfl⟩

theorem found' : Result opt [("N.A.", sta)] wfs wfs (event 1) (pick 1 .catalog) (event 2) (pick 2 .catalog) "Z" 1 (-1) := by
  refine ⟨rfl, rfl, ["T", "Z"], ["T"], [], ⟨_, rfl, .inl ⟨by simp [opt], by simp [opt], rfl⟩⟩, rfl, ?_, ?_⟩
  · rintro c' hc' lag' k' ⟨cfg, cfg2, tr1, tr2, -, -, ⟨_, _, _, kind, _, -, -, -, hk, hr⟩, -⟩
    simp at hc'
    subst hc'
    rcases hk with ⟨-, rfl, -⟩ | ⟨h, -⟩ | ⟨h, -⟩ | ⟨h, -⟩
    · unfold wfs at hr
      split at hr <;> cases hr
    · exact absurd h (by decide)
    · exact absurd h (by decide)
    · exact absurd rfl h
  · refine ⟨_, _, _, _, rfl, rfl, recorded' 1, recorded' 2, rfl, .bothSecond Iff.rfl (cut 1 _) (cut 2 _) ?_ XCorr.Example.correlated ?_⟩
    · obtain ⟨lag, coeff, e1, e2⟩ := XCorr.crosscorr_antisymmetric _ _ 1 XCorr.Example.comparable 0
      rw [XCorr.Example.correlated] at e1
      injection e1 with e1
      injection e1 with e1 e1'
      subst e1 e1'
      rw [neg_neg] at e2
      exact e2
    · intro q hq; injection hq with hq; rw [hq]

theorem wfs_usable (req : Waveform.Request) : ∃ t, wfs req = .ok t ∧ ∀ tr, t = some tr → Access.Usable XCorr.Example.config.maxDelay tr := by
  unfold wfs
  split
  · exact wf_usable req
  · exact ⟨none, rfl, by simp⟩

/-- coefficients are stored rounded to one -/
def num : Fl ℝ → ℚ := fun _ => 1

theorem answer (n : Nat) : (opt.args [("N.A.", sta)] num wfs wfs).correlate n (event 1) (pick 1 .catalog) (event 2) (pick 2 .catalog) =
    .ok ⟨true, 1, 1⟩ := by
  obtain ⟨r, hr⟩ := pair_safe (o := opt) (stations := [("N.A.", sta)]) (wf1 := wfs) (wf2 := wfs) (ev1 := event 1)
    (pick1 := pick 1 .catalog) (ev2 := event 2) (pick2 := pick 2 .catalog) rfl rfl (by norm_num [XCorr.Example.config])
    XCorr.Example.len_ne XCorr.Example.len_ne rfl rfl wfs_usable wfs_usable
  rw [(pair_correlation hr "Z" 1 (.num (-1))).2 ⟨_, rfl, found'⟩] at hr
  show (xcorrPhases _ _ _ _ _ _ _ _).bind _ = _
  rw [hr]; rfl

def cluster : Cluster := [(1, ⟨1, [(2, [("N.A.", "Pg")])]⟩)]

theorem built : ∃ t, buildXCorrCache (opt.args [("N.A.", sta)] num wfs wfs) cat cluster [] [] = .ok t ∧
    t.cache = XCorr.add [] 1 2 "N.A." "Pg" ⟨true, 1, 1⟩ := by
  have hev1 : cat.events.find? 1 = some (event 1) := rfl
  have hev2 : cat.events.find? 2 = some (event 2) := rfl
  have hst : cat.stations.find? (pick 1 .catalog).stationId = some sta := rfl
  have hp1 : cat.phasesOf 1 = [pick 1 .catalog] := rfl
  have hs2 : searchPhase cat (event 2).id ((pick 1 .catalog).stationId, (pick 1 .catalog).type) = some (pick 2 .catalog) := rfl
  refine ⟨⟨XCorr.add [] 1 2 "N.A." "Pg" ⟨true, 1, 1⟩, [⟨event 1, pick 1 .catalog, event 2, pick 2 .catalog, ⟨true, 1, 1⟩⟩]⟩, ?_, rfl⟩
  unfold buildXCorrCache
  rw [show (opt.args [("N.A.", sta)] num wfs wfs).enable = true from rfl, if_pos rfl]
  have hreq : request (opt.args [("N.A.", sta)] num wfs wfs) [] (event 1) (pick 1 .catalog) (event 2) (pick 2 .catalog) ⟨[], []⟩ =
      .ok ⟨XCorr.add [] 1 2 "N.A." "Pg" ⟨true, 1, 1⟩, [⟨event 1, pick 1 .catalog, event 2, pick 2 .catalog, ⟨true, 1, 1⟩⟩]⟩ := by
    unfold request
    rw [if_neg (by decide +kernel)]
    show (Outcome.bind _ _) = _
    rw [answer]; rfl
  have hpair : pairStep (opt.args [("N.A.", sta)] num wfs wfs) cat [] ⟨1, [(2, [("N.A.", "Pg")])]⟩ (event 1) (pick 1 .catalog) ⟨[], []⟩ 2 =
      .ok ⟨XCorr.add [] 1 2 "N.A." "Pg" ⟨true, 1, 1⟩, [⟨event 1, pick 1 .catalog, event 2, pick 2 .catalog, ⟨true, 1, 1⟩⟩]⟩ := by
    unfold pairStep
    rw [hev2]
    simp only
    rw [if_neg (by show ¬((-1 : ℝ) < 0 ∧ (0 : ℝ) ≤ -1); norm_num), if_pos (by decide +kernel)]
    rw [hs2]
    simp only
    rw [if_neg (by decide), hreq]
  show Outcome.bind (clusterStep _ _ _ _ _) _ = _
  unfold clusterStep
  simp only [hev1]
  show Outcome.bind (List.foldlM _ _ (cat.phasesOf 1)) _ = _
  rw [hp1, List.foldlM_cons]
  have hr : refPhaseStep (opt.args [("N.A.", sta)] num wfs wfs) cat [] ⟨1, [(2, [("N.A.", "Pg")])]⟩ (event 1) ⟨[], []⟩ (pick 1 .catalog) =
      .ok ⟨XCorr.add [] 1 2 "N.A." "Pg" ⟨true, 1, 1⟩, [⟨event 1, pick 1 .catalog, event 2, pick 2 .catalog, ⟨true, 1, 1⟩⟩]⟩ := by
    unfold refPhaseStep
    rw [hst]
    simp only
    rw [if_neg (by show ¬((0 : ℝ) < 0); norm_num), if_neg (by show ¬((-1 : ℝ) < 0 ∧ (0 : ℝ) ≤ -1); norm_num)]
    show Outcome.bind (pairStep _ _ _ _ _ _ _ _) _ = _
    rw [hpair]; rfl
  rw [hr]; rfl

noncomputable def env : Env ℝ where
  ttt := fun _ _ _ => some ⟨1, 0, 0, 1, 1⟩
  psTableOnly := true
  cosDeg := fun _ => 1
  sinDeg := fun _ => 0
  kmOfDegree := 1
  coords := fun _ _ lat lon _ => (lat, lon)
  secToDur := fun _ => 0
  sqrt := id

noncomputable def oo : ObsOptions ℝ := ⟨false, false, 2, fun _ => some (1 / 2)⟩

/-- the hypotheses hold for two events of which the first one has moved, and the correlation is used, in both directions -/
theorem uses (a b : Nat) (hab : (a = 1 ∧ b = 2) ∨ (a = 2 ∧ b = 1)) :
    ∃ refEv ev x, refEv.id = a ∧ ev.id = b ∧ MeasuredOn opt [("N.A.", sta)] wfs wfs 0 cat refEv ev ("N.A.", "Pg") x := by
  obtain ⟨t, hb, hc⟩ := built
  obtain ⟨ops, flag, hadd⟩ : ∃ ops flag, addObservations env oo cur t.cache ⟨a, [(b, [("N.A.", "Pg")])]⟩ [] = .ok (ops, flag) := by
    rcases hab with ⟨rfl, rfl⟩ | ⟨rfl, rfl⟩ <;> exact ⟨_, _, rfl⟩
  obtain ⟨new, h1, h2⟩ := correlated_time_is_measured_partial le_rfl delivers delivers settings cat_sound picked .new
    (by unfold NoSelf cluster; decide) hb cur_reachable.wf same hadd
  have hnew : ops = new := by simpa using h1
  have hab' : a = 1 ∨ a = 2 := by rcases hab with ⟨h, -⟩ | ⟨h, -⟩ <;> simp [h]
  have hba' : b = 1 ∨ b = 2 := by rcases hab with ⟨-, h⟩ | ⟨-, h⟩ <;> simp [h]
  have hfind : ∀ k, k = 1 ∨ k = 2 → ∃ ev : Event ℝ, cur.events.find? k = some ev ∧ ev.time ≤ 400000 := by
    rintro k (rfl | rfl)
    · exact ⟨_, rfl, by decide⟩
    · exact ⟨_, rfl, by decide⟩
  have hcomp : ∀ k (ev : Event ℝ), ev.time ≤ 400000 → ∀ p, IsPick cur k ("N.A.", "Pg") p → Computable env cur ev p ∧ ev.time ≤ p.time := by
    intro k ev ht p hp
    refine ⟨⟨sta, _, ?_, rfl⟩, ?_⟩
    · rw [hp.2.1]; rfl
    · rcases phases_of (.inr rfl) hp.1 with ⟨-, rfl⟩ | ⟨-, rfl⟩ <;> exact ht.trans (by decide)
  obtain ⟨re, hre, hret⟩ := hfind a hab'
  obtain ⟨ne, hne, hnet⟩ := hfind b hba'
  have hmem : ((("N.A.", "Pg") : StaPhase), b) ∈ (⟨a, [(b, [("N.A.", "Pg")])]⟩ : Neighbours).phases := by
    simp [Neighbours.phases]
  obtain ⟨x, hx, -⟩ := observations_complete cur_reachable hadd hmem hre hne (hcomp a re hret) (hcomp b ne hnet)
  obtain ⟨new', h3, h4⟩ := observations_correct cur_reachable.wf hadd
  have hnew' : ops = new' := by simpa using h3
  obtain ⟨refEv, ev, sp, n, rp, p, thr, q1, q2, q3, -, -, q6, q7⟩ := h4 x (hnew' ▸ hx)
  have hsp : sp = ("N.A.", "Pg") ∧ n = b := by simpa [Neighbours.phases] using q2
  obtain ⟨rfl, rfl⟩ := hsp
  have hi1 := (cur_reachable.wf.eventKey _ _ q1).1
  have hi2 := (cur_reachable.wf.eventKey _ _ q3).1
  obtain ⟨e, he, hev, hec⟩ : ∃ e, XCorr.get t.cache a n "N.A." "Pg" = some e ∧ e.valid = true ∧ e.coeff = 1 := by
    rw [hc]
    rcases hab with ⟨rfl, rfl⟩ | ⟨rfl, rfl⟩
    · exact ⟨⟨true, 1, 1⟩, by decide +kernel, rfl, rfl⟩
    · exact ⟨⟨true, 1, -1⟩, by decide +kernel, rfl, rfl⟩
  have hthr : thr = 1 / 2 := by simpa [oo] using q6.symm
  have hused := (q7.corrected e ⟨by rw [hi1, hi2]; exact he, hev, by rw [hec, hthr]; norm_num⟩).1
  obtain ⟨refEv', ev', sp', g1, g2, g3, -, -, -, -, g8⟩ := h2 x (hnew ▸ hx) hused
  have hsp' : sp' = ("N.A.", "Pg") ∧ ev'.id = n := by simpa [Neighbours.phases] using g3
  obtain ⟨rfl, hn⟩ := hsp'
  exact ⟨refEv', ev', x, (cur_reachable.wf.eventKey _ _ g1).1, hn, g8 rfl⟩

noncomputable def args : Args ℝ where
  env := env
  so := ⟨1, 0, 0, 0, 0, 0, 0⟩
  o := oo
  xc := XCorr.add [] 1 2 "N.A." "Pg" ⟨true, 1, 1⟩
  cluster := cluster
  sol := ⟨fun _ _ _ _ => .ok (), fun _ _ _ => some ⟨fun k => if k = 1 then some ⟨0, 0, 0, 0⟩ else none, fun _ _ _ => false⟩⟩

theorem args_good : GoodArgs args := by
  have h : args.cluster = cluster := rfl
  exact ⟨by rw [h]; exact ⟨by decide, by decide⟩, by rw [h]; decide⟩

/-- an observation of a relocation with two iterations uses the correlation, and is the difference of the times of the waveforms -/
example : ∃ r log x ob refEv ev sp, relocate args cat = .ok (r, log) ∧ log.length = 2 ∧ log[0]? = some x ∧ ob ∈ obsOf x.ops ∧
    ob.xcorrUsed = true ∧ MeasuredOn opt [("N.A.", sta)] wfs wfs 0 cat refEv ev sp ob := by
  obtain ⟨t, hb, hc⟩ := built
  obtain ⟨r, log, h, hl, x, hx, hob⟩ : ∃ r log, relocate args cat = .ok (r, log) ∧ log.length = 2 ∧ ∃ x, log[0]? = some x ∧
      obsOf x.ops = [observation oo (XCorr.add [] 1 2 "N.A." "Pg" ⟨true, 1, 1⟩) (1 / 2) (event 1) (event 2) ("N.A.", "Pg")
        (pick 1 .catalog) (pick 2 .catalog)] := ⟨_, _, rfl, rfl, _, rfl, rfl⟩
  have hused : (observation oo (XCorr.add [] 1 2 "N.A." "Pg" ⟨true, 1, 1⟩) (1 / 2) (event 1) (event 2) ("N.A.", "Pg")
        (pick 1 .catalog) (pick 2 .catalog)).xcorrUsed = true :=
    ((observation_spec oo _ _ _ _ _ _ _ (by decide) (by decide)).corrected ⟨true, 1, 1⟩ ⟨by decide +kernel, rfl, by norm_num⟩).1
  have hmem := List.mem_singleton.2 (rfl : observation oo (XCorr.add [] 1 2 "N.A." "Pg" ⟨true, 1, 1⟩) (1 / 2) (event 1) (event 2)
    ("N.A.", "Pg") (pick 1 .catalog) (pick 2 .catalog) = _)
  rw [← hob] at hmem
  have hno : NoAt cat := by
    intro k p hp
    have : ∀ kp ∈ cat.phases, '@' ∉ kp.2.type.toList := by decide +kernel
    exact this (k, p) (Catalog.mem_phasesOf.1 hp)
  obtain ⟨refEv, ev, sp, -, -, -, -, -, g⟩ := relocation_uses_measured_times_partial le_rfl delivers delivers settings cat_sound hno picked .new
    args_good (by show NoSelf cluster; unfold NoSelf cluster; decide) hb hc.symm h hx _ hmem hused
  exact ⟨r, log, x, _, refEv, ev, sp, h, hl, hx, hmem, hused, g rfl⟩

end MeasuredExample

end Verif.LagSpec
