import Verif.Spec.Correlation
import Verif.Props.Access
import Verif.Props.XCorr

/-!
# C94: what the correlation of two picks is
-/

set_option linter.unusedSimpArgs false

namespace Verif.Access
open Verif.Catalog Verif.Waveform Verif.CorrelationSpec
noncomputable section

theorem channelOf_iff {pick : Phase ℝ} {c : String} {kind : Transform} {cha : String} :
    channelOf pick c = some (kind, cha) ↔ Obtains pick c kind cha := by
  have e : String.ofList (bandAndInstrument pick.channelCode.toList) =
      if 2 ≤ pick.channelCode.toList.length then String.ofList (pick.channelCode.toList.take 2) else "" := by
    unfold bandAndInstrument
    split <;> rfl
  unfold channelOf Obtains
  rw [e]
  by_cases h0 : c = ""
  · subst h0; simp
  by_cases h1 : c = "T"
  · subst h1; simp only [String.reduceEq, if_false, if_true, Option.some.injEq, Prod.mk.injEq, true_and, false_and, or_false, false_or, ne_eq, not_true_eq_false, eq_comm (b := kind), eq_comm (b := cha)]
  by_cases h2 : c = "R"
  · subst h2; simp only [String.reduceEq, if_false, if_true, Option.some.injEq, Prod.mk.injEq, true_and, false_and, or_false, false_or, ne_eq, not_true_eq_false, not_false_eq_true, eq_comm (b := kind), eq_comm (b := cha)]
  by_cases h3 : c = "L2"
  · subst h3; simp only [String.reduceEq, if_false, if_true, Option.some.injEq, Prod.mk.injEq, true_and, false_and, or_false, false_or, ne_eq, not_true_eq_false, not_false_eq_true, eq_comm (b := kind), eq_comm (b := cha)]
  rw [if_neg h0, if_neg h1, if_neg h2, if_neg h3]
  simp only [h0, h1, h2, h3, false_and, false_or, ne_eq, not_false_eq_true, true_and, Option.some.injEq, Prod.mk.injEq]
  rw [eq_comm (a := Transform.none), eq_comm (b := cha)]

theorem recorded_iff {o : Options} {stations : AMap String (Station ℝ)} {wf : Request → Outcome (Option (Trace ℝ))} {ev : Event ℝ}
    {pick : Phase ℝ} {c : String} {tr : Trace ℝ} : Recorded o stations wf ev pick c tr ↔
      ∃ w, longWindow o ev pick = .ok w ∧ getWaveform o stations wf w ev pick c = .ok (some tr) := by
  unfold Recorded getWaveform waveformRequest
  simp only [longWindow_iff]
  constructor
  · rintro ⟨cfg, w, sta, kind, cha, h1, h2, h3, h4, h5⟩
    refine ⟨w, ⟨cfg, h1, h2⟩, ?_⟩
    rw [h3, channelOf_iff.2 h4]
    exact h5
  · rintro ⟨w, ⟨cfg, h1, h2⟩, h⟩
    cases h3 : stations.find? pick.stationId with
    | none => rw [h3] at h; cases h
    | some sta =>
      rw [h3] at h
      cases h4 : channelOf pick c with
      | none => rw [h4] at h; simp at h
      | some kc =>
        rw [h4] at h
        exact ⟨cfg, w, sta, kc.1, kc.2, h1, h2, rfl, channelOf_iff.1 h4, h⟩

/-! ## one component -/

theorem trim_iff {cfg : XCorr.Config} {ev : Event ℝ} {pick : Phase ℝ} {t : Option (Trace ℝ)} {b : Bool} {tr short : Trace ℝ} :
    XCorr.trim cfg ⟨t, ev.time, pick.time, b⟩ tr = .ok (some short) ↔ CutTo cfg ev pick tr short := by
  unfold XCorr.trim CutTo
  cases h : XCorr.windowShort cfg ev.time pick.time with
  | none => simp
  | some w =>
    rcases h2 : tr.slice w with _ | ⟨ok, t'⟩
    · simp [h2]
    · cases ok <;> simp [h2]

theorem first_iff {cfg cfg2 : XCorr.Config} {ev : Event ℝ} {pick : Phase ℝ} {t : Option (Trace ℝ)} {b : Bool} {tr1 tr2 : Trace ℝ}
    {r : ℚ × Fl ℝ} : XCorr.first cfg cfg2 ⟨t, ev.time, pick.time, b⟩ tr1 tr2 true = .ok (some r) ↔
      ∃ short, CutTo cfg2 ev pick tr2 short ∧ XCorr.xcorr tr1 short cfg.maxDelay 0 = .ok r := by
  unfold XCorr.first
  rw [if_pos rfl, bind_eq_ok]
  constructor
  · rintro ⟨s, h1, h2⟩
    cases s with
    | none => simp at h2
    | some short =>
      obtain ⟨x, h3, h4⟩ := bind_eq_ok.1 h2
      injection h4 with h4
      injection h4 with h4
      subst h4
      exact ⟨short, trim_iff.1 h1, h3⟩
  · rintro ⟨short, h1, h2⟩
    exact ⟨some short, trim_iff.2 h1, by simp [h2]⟩

theorem second_iff {cfg : XCorr.Config} {ev : Event ℝ} {pick : Phase ℝ} {t : Option (Trace ℝ)} {b : Bool} {tr1 tr2 : Trace ℝ}
    {r : ℚ × Fl ℝ} : XCorr.second cfg ⟨t, ev.time, pick.time, b⟩ tr1 tr2 true = .ok (some r) ↔
      ∃ short, CutTo cfg ev pick tr1 short ∧ XCorr.xcorr short tr2 cfg.maxDelay 0 = .ok r := by
  unfold XCorr.second
  rw [if_pos rfl, bind_eq_ok]
  constructor
  · rintro ⟨s, h1, h2⟩
    cases s with
    | none => simp at h2
    | some short =>
      obtain ⟨x, h3, h4⟩ := bind_eq_ok.1 h2
      injection h4 with h4
      injection h4 with h4
      subst h4
      exact ⟨short, trim_iff.1 h1, h3⟩
  · rintro ⟨short, h1, h2⟩
    exact ⟨some short, trim_iff.2 h1, by simp [h2]⟩

theorem trusted_iff {pick : Phase ℝ} : trusted pick = true ↔ Reliable pick := by
  unfold trusted Reliable
  simp

/-- the better of the two results -/
def better (r1 r2 : ℚ × Fl ℝ) : Option (ℚ × Fl ℝ) :=
  if !r1.2.isFinite && !r2.2.isFinite then none
  else if r2.2.isFinite then
    if !r1.2.isFinite || XCorr.absGt r2.2 r1.2 then some r2 else some r1
  else some r1

theorem onePhase_eq (cfg cfg2 : XCorr.Config) (s1 s2 : XCorr.Side) (tr1 tr2 : Trace ℝ) (h1 : s1.trace = some tr1)
    (h2 : s2.trace = some tr2) (r : ℚ × Fl ℝ) : XCorr.onePhase cfg cfg2 s1 s2 = .ok (some r) ↔
      tr1.freq = tr2.freq ∧ ∃ r1 r2,
        XCorr.first cfg cfg2 s2 tr1 tr2 ((!s1.trusted && s2.trusted) || (s1.trusted == s2.trusted)) = .ok (some r1) ∧
        XCorr.second cfg s1 tr1 tr2 ((s1.trusted && !s2.trusted) || (s1.trusted == s2.trusted)) = .ok (some r2) ∧
        better r1 r2 = some r := by
  unfold XCorr.onePhase
  rw [h1, h2]
  simp only
  by_cases hf : tr1.freq = tr2.freq
  · rw [if_neg (by simpa using hf), bind_eq_ok]
    simp only [hf, true_and]
    constructor
    · rintro ⟨o1, e1, h⟩
      cases o1 with
      | none => simp at h
      | some r1 =>
        obtain ⟨o2, e2, h⟩ := bind_eq_ok.1 h
        cases o2 with
        | none => simp at h
        | some r2 =>
          refine ⟨r1, r2, e1, e2, ?_⟩
          unfold better
          simp only at h
          split_ifs at h ⊢ <;> simp at h <;> rw [h]
    · rintro ⟨r1, r2, e1, e2, h⟩
      refine ⟨some r1, e1, ?_⟩
      simp only
      rw [bind_eq_ok]
      refine ⟨some r2, e2, ?_⟩
      unfold better at h
      simp only
      split_ifs at h ⊢ <;> simp at h <;> rw [h]
  · rw [if_pos (by simpa using hf)]
    simp [hf]

theorem better_iff {r1 r2 : ℚ × Fl ℝ} {lag : ℚ} {x : Fl ℝ} : better r1 r2 = some (lag, x) ↔
    ∃ k, x = .num k ∧ ((r1 = (lag, .num k) ∧ ∀ q, r2.2 = .num q → |q| ≤ |k|) ∨
      (r2 = (lag, .num k) ∧ ∀ q, r1.2 = .num q → |q| < |k|)) := by
  obtain ⟨l1, x1⟩ := r1
  obtain ⟨l2, x2⟩ := r2
  unfold better
  cases x1 with
  | num a =>
    cases x2 with
    | num b =>
      simp only [Fl.isFinite, Bool.not_true, Bool.and_self, Bool.false_eq_true, if_false, if_true, Bool.false_or, XCorr.absGt,
        decide_eq_true_eq]
      by_cases h : |a| < |b|
      · rw [if_pos h]
        simp only [Option.some.injEq, Prod.mk.injEq, Fl.num.injEq]
        constructor
        · rintro ⟨rfl, rfl⟩
          exact ⟨b, rfl, .inr ⟨⟨rfl, rfl⟩, fun q hq => hq ▸ h⟩⟩
        · rintro ⟨k, rfl, ⟨⟨rfl, rfl⟩, hm⟩ | ⟨⟨rfl, rfl⟩, hm⟩⟩
          · exact absurd h (not_lt.2 (hm b rfl))
          · exact ⟨rfl, rfl⟩
      · rw [if_neg h]
        simp only [Option.some.injEq, Prod.mk.injEq, Fl.num.injEq]
        constructor
        · rintro ⟨rfl, rfl⟩
          exact ⟨a, rfl, .inl ⟨⟨rfl, rfl⟩, fun q hq => hq ▸ not_lt.1 h⟩⟩
        · rintro ⟨k, rfl, ⟨⟨rfl, rfl⟩, hm⟩ | ⟨⟨rfl, rfl⟩, hm⟩⟩
          · exact ⟨rfl, rfl⟩
          · exact absurd (hm a rfl) h
    | inf s => simp [Fl.isFinite]; aesop
    | nan => simp [Fl.isFinite]; aesop
  | inf s => cases x2 <;> simp [Fl.isFinite] <;> aesop
  | nan => cases x2 <;> simp [Fl.isFinite] <;> aesop

theorem matches_iff {cfg cfg2 : XCorr.Config} {ev1 : Event ℝ} {pick1 : Phase ℝ} {ev2 : Event ℝ} {pick2 : Phase ℝ} {tr1 tr2 : Trace ℝ}
    {lag : ℚ} {x : Fl ℝ} :
    XCorr.onePhase cfg cfg2 ⟨some tr1, ev1.time, pick1.time, trusted pick1⟩ ⟨some tr2, ev2.time, pick2.time, trusted pick2⟩ =
      .ok (some (lag, x)) ↔
    ∃ k, x = .num k ∧ tr1.freq = tr2.freq ∧ Matches cfg cfg2 ev1 pick1 ev2 pick2 tr1 tr2 lag k := by
  rw [onePhase_eq _ _ _ _ tr1 tr2 rfl rfl]
  simp only [better_iff]
  cases ht1 : trusted pick1 <;> cases ht2 : trusted pick2
  case true.true =>
    have r1 := trusted_iff.1 ht1
    have r2 := trusted_iff.1 ht2
    simp only [Bool.not_true, Bool.and_true, Bool.and_false, Bool.false_and, beq_self_eq_true, Bool.or_true, first_iff, second_iff]
    constructor
    · rintro ⟨hf, a, b, ⟨s2, c2, x2⟩, ⟨s1, c1, x1⟩, k, rfl, ⟨rfl, hm⟩ | ⟨rfl, hm⟩⟩
      · exact ⟨k, rfl, hf, .bothSecond ⟨fun _ => r2, fun _ => r1⟩ c1 c2 x2 x1 hm⟩
      · exact ⟨k, rfl, hf, .bothFirst ⟨fun _ => r2, fun _ => r1⟩ c1 c2 x2 x1 hm⟩
    · rintro ⟨k, rfl, hf, h⟩
      refine ⟨hf, ?_⟩
      cases h with
      | second h1 _ _ _ => exact absurd r1 h1
      | first _ h2 _ _ => exact absurd r2 h2
      | bothSecond _ c1 c2 x2 x1 hm => exact ⟨_, _, ⟨_, c2, x2⟩, ⟨_, c1, x1⟩, k, rfl, .inl ⟨rfl, hm⟩⟩
      | bothFirst _ c1 c2 x2 x1 hm => exact ⟨_, _, ⟨_, c2, x2⟩, ⟨_, c1, x1⟩, k, rfl, .inr ⟨rfl, hm⟩⟩
  case false.false =>
    have r1 : ¬Reliable pick1 := fun h => by rw [trusted_iff.2 h] at ht1; cases ht1
    have r2 : ¬Reliable pick2 := fun h => by rw [trusted_iff.2 h] at ht2; cases ht2
    simp only [Bool.not_false, Bool.and_true, Bool.and_false, Bool.false_and, beq_self_eq_true, Bool.or_true, first_iff, second_iff]
    constructor
    · rintro ⟨hf, a, b, ⟨s2, c2, x2⟩, ⟨s1, c1, x1⟩, k, rfl, ⟨rfl, hm⟩ | ⟨rfl, hm⟩⟩
      · exact ⟨k, rfl, hf, .bothSecond ⟨fun h => absurd h r1, fun h => absurd h r2⟩ c1 c2 x2 x1 hm⟩
      · exact ⟨k, rfl, hf, .bothFirst ⟨fun h => absurd h r1, fun h => absurd h r2⟩ c1 c2 x2 x1 hm⟩
    · rintro ⟨k, rfl, hf, h⟩
      refine ⟨hf, ?_⟩
      cases h with
      | second _ h2 _ _ => exact absurd h2 r2
      | first h1 _ _ _ => exact absurd h1 r1
      | bothSecond _ c1 c2 x2 x1 hm => exact ⟨_, _, ⟨_, c2, x2⟩, ⟨_, c1, x1⟩, k, rfl, .inl ⟨rfl, hm⟩⟩
      | bothFirst _ c1 c2 x2 x1 hm => exact ⟨_, _, ⟨_, c2, x2⟩, ⟨_, c1, x1⟩, k, rfl, .inr ⟨rfl, hm⟩⟩
  case false.true =>
    have r1 : ¬Reliable pick1 := fun h => by rw [trusted_iff.2 h] at ht1; cases ht1
    have r2 := trusted_iff.1 ht2
    simp only [Bool.not_true, Bool.not_false, Bool.and_true, Bool.and_self, Bool.false_and, Bool.true_or, Bool.false_or, first_iff,
      show (false == true) = false from rfl]
    constructor
    · rintro ⟨hf, a, b, ⟨s2, c2, x2⟩, hb, k, rfl, h⟩
      have hb : b = (0, .nan) := by
        unfold XCorr.second at hb
        simp at hb
        exact hb.symm
      subst hb
      rcases h with ⟨rfl, hm⟩ | ⟨h, hm⟩
      · exact ⟨k, rfl, hf, .second r1 r2 c2 x2⟩
      · simp at h
    · rintro ⟨k, rfl, hf, h⟩
      refine ⟨hf, ?_⟩
      cases h with
      | second _ _ hs hx => exact ⟨_, (0, .nan), ⟨_, hs, hx⟩, by simp [XCorr.second], k, rfl, .inl ⟨rfl, by simp⟩⟩
      | first h1 _ _ _ => exact absurd h1 r1
      | bothSecond h _ _ _ _ _ => exact absurd (h.2 r2) r1
      | bothFirst h _ _ _ _ _ => exact absurd (h.2 r2) r1
  case true.false =>
    have r1 := trusted_iff.1 ht1
    have r2 : ¬Reliable pick2 := fun h => by rw [trusted_iff.2 h] at ht2; cases ht2
    simp only [Bool.not_true, Bool.not_false, Bool.and_true, Bool.and_self, Bool.false_and, Bool.true_or, Bool.false_or, second_iff,
      show (true == false) = false from rfl]
    constructor
    · rintro ⟨hf, a, b, ha, ⟨s1, c1, x1⟩, k, rfl, h⟩
      have ha : a = (0, .nan) := by
        unfold XCorr.first at ha
        simp at ha
        exact ha.symm
      subst ha
      rcases h with ⟨h, hm⟩ | ⟨rfl, hm⟩
      · simp at h
      · exact ⟨k, rfl, hf, .first r1 r2 c1 x1⟩
    · rintro ⟨k, rfl, hf, h⟩
      refine ⟨hf, ?_⟩
      cases h with
      | first _ _ hs hx => exact ⟨(0, .nan), _, by simp [XCorr.first], ⟨_, hs, hx⟩, k, rfl, .inr ⟨rfl, by simp⟩⟩
      | second _ h2 _ _ => exact absurd h2 r2
      | bothSecond h _ _ _ _ _ => exact absurd (h.1 r1) r2
      | bothFirst h _ _ _ _ _ => exact absurd (h.1 r1) r2

/-- on one component there is a result exactly if the picks correlate on it -/
theorem oneComponent_iff {o : Options} {stations : AMap String (Station ℝ)} {wf1 wf2 : Request → Outcome (Option (Trace ℝ))}
    {ev1 : Event ℝ} {pick1 : Phase ℝ} {ev2 : Event ℝ} {pick2 : Phase ℝ} {c : String} {lag : ℚ} {x : Fl ℝ} :
    oneComponent o stations wf1 wf2 ev1 pick1 ev2 pick2 c = .ok (some (lag, x)) ↔
      ∃ k, x = .num k ∧ Correlates o stations wf1 wf2 ev1 pick1 ev2 pick2 c lag k := by
  unfold Correlates
  simp only [recorded_iff]
  constructor
  · intro h
    unfold oneComponent at h
    cases h1 : o.phase pick1.procType with
    | none => rw [h1] at h; cases h
    | some cfg =>
      rw [h1] at h
      obtain ⟨w1, hw1, h⟩ := bind_eq_ok.1 h
      obtain ⟨w2, hw2, h⟩ := bind_eq_ok.1 h
      obtain ⟨t1, ht1, h⟩ := bind_eq_ok.1 h
      cases t1 with
      | none => simp at h
      | some tr1 =>
        obtain ⟨t2, ht2, h⟩ := bind_eq_ok.1 h
        cases h2 : o.phase pick2.procType with
        | none => rw [h2] at h; cases h
        | some cfg2 =>
          rw [h2] at h
          cases t2 with
          | none => simp [XCorr.onePhase] at h
          | some tr2 =>
            obtain ⟨k, hk, hf, hm⟩ := matches_iff.1 h
            exact ⟨k, hk, cfg, cfg2, tr1, tr2, rfl, rfl, ⟨w1, hw1, ht1⟩, ⟨w2, hw2, ht2⟩, hf, hm⟩
  · rintro ⟨k, rfl, cfg, cfg2, tr1, tr2, h1, h2, ⟨w1, hw1, ht1⟩, ⟨w2, hw2, ht2⟩, hf, hm⟩
    unfold oneComponent
    rw [h1]
    simp only [hw1, hw2, ht1, ht2, Outcome.bind_ok, h2]
    exact matches_iff.2 ⟨k, rfl, hf, hm⟩

/-! ## the components -/

theorem tried_iff {o : Options} {pick : Phase ℝ} {cs : List String} : components o pick = .ok cs ↔ Tried o pick cs := by
  have e : String.ofList (orientation pick.channelCode.toList) =
      if pick.channelCode.toList.length = 3 then String.ofList (pick.channelCode.toList.drop 2) else "" := by
    unfold orientation
    split <;> rfl
  unfold components Tried
  rw [e]
  cases o.phase pick.procType with
  | none => simp
  | some cfg =>
    simp only [Option.some.injEq, exists_eq_left']
    by_cases h : cfg.components = [] ∨ cfg.components = [""]
    · rw [if_pos h]
      constructor
      · intro h2; injection h2 with h2; exact .inr ⟨h, h2.symm⟩
      · rintro (⟨h1, h2, -⟩ | ⟨-, rfl⟩)
        · rcases h with h | h
          · exact absurd h h1
          · exact absurd h h2
        · rfl
    · rw [if_neg h]
      push Not at h
      constructor
      · intro h2; injection h2 with h2; exact .inl ⟨h.1, h.2, h2.symm⟩
      · rintro (⟨-, -, rfl⟩ | ⟨h1 | h1, -⟩)
        · rfl
        · exact absurd h1 h.1
        · exact absurd h1 h.2

theorem tryComponents_some {f : String → Outcome (Option (ℚ × Fl ℝ))} {cs : List String} {r : Option (String × ℚ × Fl ℝ)}
    (h : tryComponents f cs = .ok r) (c : String) (y : ℚ × Fl ℝ) :
    r = some (c, y) ↔ ∃ before after, cs = before ++ c :: after ∧ (∀ c' ∈ before, f c' = .ok none) ∧ f c = .ok (some y) := by
  induction cs generalizing r with
  | nil =>
    unfold tryComponents at h
    injection h with h
    subst h
    simp
  | cons d ds ih =>
    unfold tryComponents at h
    obtain ⟨x, hx, h⟩ := bind_eq_ok.1 h
    cases x with
    | some z =>
      simp only at h
      injection h with h
      subst h
      constructor
      · intro h
        injection h with h
        injection h with h1 h2
        subst h1 h2
        exact ⟨[], ds, rfl, by simp, hx⟩
      · rintro ⟨before, after, e, hb, hc⟩
        cases before with
        | nil =>
          simp at e
          rw [← e.1, hx] at hc
          injection hc with hc
          injection hc with hc
          rw [e.1, hc]
        | cons b bs =>
          simp at e
          have := hb b (by simp)
          rw [← e.1, hx] at this
          cases this
    | none =>
      simp only at h
      rw [ih h]
      constructor
      · rintro ⟨before, after, rfl, hb, hc⟩
        refine ⟨d :: before, after, rfl, ?_, hc⟩
        intro c' hc'
        rcases List.mem_cons.1 hc' with rfl | hc'
        · exact hx
        · exact hb c' hc'
      · rintro ⟨before, after, e, hb, hc⟩
        cases before with
        | nil =>
          simp at e
          rw [← e.1, hx] at hc
          cases hc
        | cons b bs =>
          simp at e
          exact ⟨bs, after, e.2, fun c' hc' => hb c' (by simp [hc']), hc⟩

theorem tryComponents_tried {f : String → Outcome (Option (ℚ × Fl ℝ))} {cs : List String} {r : Option (String × ℚ × Fl ℝ)}
    (h : tryComponents f cs = .ok r) {before after : List String} {c : String} (e : cs = before ++ c :: after)
    (hb : ∀ c' ∈ before, ∀ y, f c' ≠ .ok (some y)) : ∀ c' ∈ before, f c' = .ok none := by
  induction before generalizing cs with
  | nil => simp
  | cons b bs ih =>
    subst e
    rw [List.cons_append, tryComponents] at h
    obtain ⟨x, hx, h⟩ := bind_eq_ok.1 h
    cases x with
    | some y => exact absurd hx (hb b (by simp) y)
    | none =>
      intro c' hc'
      rcases List.mem_cons.1 hc' with rfl | hc'
      · exact hx
      · exact ih h rfl (fun c'' hc'' => hb c'' (by simp [hc''])) c' hc'

/-- **C94 (what is found).** Whenever the correlation of two picks ends, it has found a component, a lag and a coefficient
exactly if these are the result for the two picks in the sense of the specification: the picks are of the same phase and
on sensors of the same kind, the component is the first one on which they correlate, and the lag and the coefficient are
those of the window of the reliable pick, or the better of the two if both or none of the picks are reliable. -/
theorem pair_correlation {o : Options} {stations : AMap String (Station ℝ)} {wf1 wf2 : Request → Outcome (Option (Trace ℝ))}
    {ev1 : Event ℝ} {pick1 : Phase ℝ} {ev2 : Event ℝ} {pick2 : Phase ℝ} {r : Option (String × ℚ × Fl ℝ)}
    (h : xcorrPhases o stations wf1 wf2 ev1 pick1 ev2 pick2 = .ok r) (c : String) (lag : ℚ) (x : Fl ℝ) :
    r = some (c, lag, x) ↔ ∃ k, x = .num k ∧ Result o stations wf1 wf2 ev1 pick1 ev2 pick2 c lag k := by
  unfold xcorrPhases at h
  unfold Result
  by_cases ht : pick1.type = pick2.type
  · rw [if_neg (by simpa using ht)] at h
    by_cases hs : bandAndInstrument pick1.channelCode.toList = bandAndInstrument pick2.channelCode.toList
    · rw [if_neg (by simpa using hs)] at h
      obtain ⟨cs, hcs, h⟩ := bind_eq_ok.1 h
      rw [tryComponents_some h]
      constructor
      · rintro ⟨before, after, e, hb, hc⟩
        obtain ⟨k, rfl, hk⟩ := oneComponent_iff.1 hc
        refine ⟨k, rfl, ht, hs, cs, before, after, tried_iff.1 hcs, e, ?_, hk⟩
        intro c' hc' lag' k' hcor
        have := oneComponent_iff.2 ⟨k', rfl, hcor⟩
        rw [hb c' hc'] at this
        cases this
      · rintro ⟨k, rfl, -, -, cs', before, after, htr, e, hb, hk⟩
        have hcs' := tried_iff.2 htr
        rw [hcs] at hcs'
        injection hcs' with hcs'
        subst hcs'
        refine ⟨before, after, e, ?_, oneComponent_iff.2 ⟨k, rfl, hk⟩⟩
        refine tryComponents_tried h e ?_
        rintro c' hc' ⟨l, y⟩ hy
        obtain ⟨k', -, hk'⟩ := oneComponent_iff.1 hy
        exact hb c' hc' l k' hk'
    · rw [if_pos hs] at h
      injection h with h
      subst h
      constructor
      · intro h; cases h
      · rintro ⟨k, -, -, h, -⟩; exact absurd h hs
  · rw [if_pos ht] at h
    injection h with h
    subst h
    constructor
    · intro h; cases h
    · rintro ⟨k, -, h, -⟩; exact absurd h ht

/-- **C94 (what is kept).** The entry kept for the two picks is valid exactly if there is a result, and has its lag and
its coefficient. -/
theorem pair_entry {o : Options} {stations : AMap String (Station ℝ)} {num : Fl ℝ → ℚ}
    {wf1 wf2 : Request → Outcome (Option (Trace ℝ))} {ev1 : Event ℝ} {pick1 : Phase ℝ} {ev2 : Event ℝ} {pick2 : Phase ℝ}
    {n : Nat} {e : XCorr.Entry} (h : (o.args stations num wf1 wf2).correlate n ev1 pick1 ev2 pick2 = .ok e) :
    (e.valid = true ↔ ∃ c lag k, Result o stations wf1 wf2 ev1 pick1 ev2 pick2 c lag k) ∧
    ∀ c lag k, Result o stations wf1 wf2 ev1 pick1 ev2 pick2 c lag k → e.lag = lag ∧ e.coeff = num (.num k) := by
  obtain ⟨r, hr, he⟩ := bind_eq_ok.1 h
  injection he with he
  have key := pair_correlation hr
  have k2 : ∀ c lag k, Result o stations wf1 wf2 ev1 pick1 ev2 pick2 c lag k → r = some (c, lag, .num k) :=
    fun c lag k hR => (key c lag _).2 ⟨k, rfl, hR⟩
  subst he
  refine ⟨⟨?_, ?_⟩, ?_⟩
  · intro hv
    cases r with
    | none => simp [toEntry] at hv
    | some y =>
      obtain ⟨c, lag, x⟩ := y
      obtain ⟨k, -, hk⟩ := (key c lag x).1 rfl
      exact ⟨c, lag, k, hk⟩
  · rintro ⟨c, lag, k, hR⟩
    rw [k2 c lag k hR]; rfl
  · intro c lag k hR
    rw [k2 c lag k hR]; exact ⟨rfl, rfl⟩

/-! ## bounds and safety -/

theorem xcorr_range {tr1 tr2 : Trace ℝ} {d : ℚ} (h : XCorr.Comparable tr1 tr2 d) {lag : ℚ} {k : ℝ}
    (hx : XCorr.xcorr tr1 tr2 d 0 = .ok (lag, .num k)) : |lag| ≤ d ∧ |k| ≤ 1 := by
  have main : ∀ {a b : Trace ℝ} {lag : ℚ}, XCorr.Comparable a b d → a.data.length ≤ b.data.length →
      XCorr.xcorr a b d 0 = .ok (lag, .num k) → |lag| ≤ d ∧ |k| ≤ 1 := by
    intro a b lag h hle hx
    obtain ⟨j, coeff, e, h1, h2, h3, -⟩ := XCorr.xcorr_bounded a b d h hle 0
    rw [hx] at e
    injection e with e
    injection e with e1 e2
    subst e1 e2
    refine ⟨h1, ?_⟩
    rcases h3 with h3 | h3
    · cases h3
    · injection h3 with h3
      rw [h3]
      refine (XCorr.abs_pearson_le_one _ _ ?_).1
      unfold XCorr.Spec.window
      rw [List.length_take, List.length_drop]
      have := abs_le.1 h2
      omega
  rcases Nat.le_total tr1.data.length tr2.data.length with hle | hle
  · exact main h hle hx
  · obtain ⟨l, c, e1, e2⟩ := XCorr.crosscorr_antisymmetric tr1 tr2 d h 0
    rw [hx] at e1
    injection e1 with e1
    injection e1 with e1 e1'
    subst e1 e1'
    have := main h.symm hle e2
    rwa [abs_neg] at this

/-- a waveform that can be correlated: it has samples, a positive sampling rate, and the maximum lag is less than 2^31
samples -/
structure Usable (d : ℚ) (tr : Trace ℝ) : Prop where
  data : tr.data ≠ []
  freq : 0 < tr.freq
  fits : d * tr.freq < 2147483648

theorem CutTo.usable {cfg : XCorr.Config} {ev : Event ℝ} {pick : Phase ℝ} {tr short : Trace ℝ} (h : CutTo cfg ev pick tr short)
    (hd : tr.data ≠ []) (hf : 0 < tr.freq) : short.data ≠ [] ∧ short.freq = tr.freq := by
  have hlen : Trace.secToDur (cfg.endOffset - cfg.startOffset) ≠ 0 := by
    intro h0
    obtain ⟨w, hw, -⟩ := h
    unfold XCorr.windowShort at hw
    simp [h0] at hw
  have ht := (trim_iff (t := none) (b := false)).2 h
  rcases XCorr.trim_spec cfg hlen ⟨none, ev.time, pick.time, false⟩ tr hd hf with h1 | ⟨t, h1, h2, h3⟩
  · rw [h1] at ht; cases ht
  · rw [h1] at ht
    injection ht with ht
    injection ht with ht
    subst ht
    exact ⟨h2, h3⟩

/-- **C94 (bounds).** The coefficient is between -1 and 1 and the lag is not larger than the maximum lag configured for the
type of the first pick. -/
theorem pair_bounds {o : Options} {stations : AMap String (Station ℝ)} {wf1 wf2 : Request → Outcome (Option (Trace ℝ))}
    {ev1 : Event ℝ} {pick1 : Phase ℝ} {ev2 : Event ℝ} {pick2 : Phase ℝ} {c : String} {lag : ℚ} {k : ℝ}
    (h : Result o stations wf1 wf2 ev1 pick1 ev2 pick2 c lag k) {cfg : PhaseOptions}
    (hc : o.phase pick1.procType = some cfg) (hd : 0 ≤ cfg.win.maxDelay)
    (h1 : ∀ req tr, wf1 req = .ok (some tr) → Usable cfg.win.maxDelay tr)
    (h2 : ∀ req tr, wf2 req = .ok (some tr) → Usable cfg.win.maxDelay tr) :
    |k| ≤ 1 ∧ |lag| ≤ cfg.win.maxDelay := by
  obtain ⟨-, -, cs, before, after, -, -, -, cfg', cfg2, tr1, tr2, hc', -, r1, r2, hf, hm⟩ := h
  rw [hc] at hc'
  injection hc' with hc'
  subst hc'
  have u1 : Usable cfg.win.maxDelay tr1 := by
    obtain ⟨_, _, _, _, _, _, _, _, _, hr⟩ := r1
    exact h1 _ _ hr
  have u2 : Usable cfg.win.maxDelay tr2 := by
    obtain ⟨_, _, _, _, _, _, _, _, _, hr⟩ := r2
    exact h2 _ _ hr
  have a2 : ∀ {s lag k}, CutTo cfg2.win ev2 pick2 tr2 s → XCorr.xcorr tr1 s cfg.win.maxDelay 0 = .ok (lag, .num k) →
      |k| ≤ 1 ∧ |lag| ≤ cfg.win.maxDelay := by
    intro s lag k hs hx
    obtain ⟨g1, g2⟩ := CutTo.usable hs u2.data u2.freq
    exact (xcorr_range ⟨u1.data, g1, by rw [g2, hf], u1.freq, hd, u1.fits⟩ hx).symm
  have a1 : ∀ {s lag k}, CutTo cfg.win ev1 pick1 tr1 s → XCorr.xcorr s tr2 cfg.win.maxDelay 0 = .ok (lag, .num k) →
      |k| ≤ 1 ∧ |lag| ≤ cfg.win.maxDelay := by
    intro s lag k hs hx
    obtain ⟨g1, g2⟩ := CutTo.usable hs u1.data u1.freq
    exact (xcorr_range ⟨g1, u2.data, by rw [g2, hf], by rw [g2]; exact u1.freq, hd, by rw [g2]; exact u1.fits⟩ hx).symm
  cases hm with
  | second _ _ hs hx => exact a2 hs hx
  | first _ _ hs hx => exact a1 hs hx
  | bothSecond _ _ hs2 hx2 _ _ => exact a2 hs2 hx2
  | bothFirst _ hs1 _ _ hx1 _ => exact a1 hs1 hx1

/-- **C94 (safety).** If the types of both picks have settings with a window, their stations are known and the waveforms
that arrive can be correlated, the correlation ends, and reads no sample outside a waveform. -/
theorem pair_safe {o : Options} {stations : AMap String (Station ℝ)} {wf1 wf2 : Request → Outcome (Option (Trace ℝ))}
    {ev1 : Event ℝ} {pick1 : Phase ℝ} {ev2 : Event ℝ} {pick2 : Phase ℝ} {cfg cfg2 : PhaseOptions}
    (hc : o.phase pick1.procType = some cfg) (hc2 : o.phase pick2.procType = some cfg2) (hd : 0 ≤ cfg.win.maxDelay)
    (hlen : Trace.secToDur (cfg.win.endOffset - cfg.win.startOffset) ≠ 0)
    (hlen2 : Trace.secToDur (cfg2.win.endOffset - cfg2.win.startOffset) ≠ 0)
    (hst : (stations.find? pick1.stationId).isSome = true) (hst2 : (stations.find? pick2.stationId).isSome = true)
    (h1 : ∀ req, ∃ t, wf1 req = .ok t ∧ ∀ tr, t = some tr → Usable cfg.win.maxDelay tr)
    (h2 : ∀ req, ∃ t, wf2 req = .ok t ∧ ∀ tr, t = some tr → Usable cfg.win.maxDelay tr) :
    ∃ r, xcorrPhases o stations wf1 wf2 ev1 pick1 ev2 pick2 = .ok r := by
  have hwin : ∀ {cfg : PhaseOptions} {ev : Event ℝ} {pick : Phase ℝ}, o.phase pick.procType = some cfg →
      Trace.secToDur (cfg.win.endOffset - cfg.win.startOffset) ≠ 0 → ∃ w, longWindow o ev pick = .ok w := by
    intro cfg ev pick hc hlen
    have : ∃ w, XCorr.windowLong cfg.win ev.time pick.time = some w := by
      unfold XCorr.windowLong XCorr.windowShort
      simp [hlen]
    obtain ⟨w, hw⟩ := this
    exact ⟨w, longWindow_iff.2 ⟨cfg, hc, hw⟩⟩
  have hget : ∀ {wf : Request → Outcome (Option (Trace ℝ))} {pick : Phase ℝ} {ev : Event ℝ},
      (∀ req, ∃ t, wf req = .ok t ∧ ∀ tr, t = some tr → Usable cfg.win.maxDelay tr) →
      (stations.find? pick.stationId).isSome = true → ∀ w c, ∃ t, getWaveform o stations wf w ev pick c = .ok t ∧
        ∀ tr, t = some tr → Usable cfg.win.maxDelay tr := by
    intro wf pick ev hwf hs w c
    unfold getWaveform waveformRequest
    obtain ⟨sta, hsta⟩ := Option.isSome_iff_exists.1 hs
    rw [hsta]
    cases channelOf pick c with
    | none => exact ⟨none, rfl, by simp⟩
    | some kc => exact hwf _
  have hone : ∀ c, ∃ r, oneComponent o stations wf1 wf2 ev1 pick1 ev2 pick2 c = .ok r := by
    intro c
    obtain ⟨w1, hw1⟩ := hwin (ev := ev1) hc hlen
    obtain ⟨w2, hw2⟩ := hwin (ev := ev2) hc2 hlen2
    obtain ⟨t1, ht1, u1⟩ := hget (ev := ev1) h1 hst w1 c
    obtain ⟨t2, ht2, u2⟩ := hget (ev := ev2) h2 hst2 w2 c
    unfold oneComponent
    rw [hc]
    simp only [hw1, hw2, ht1, Outcome.bind_ok]
    cases t1 with
    | none => exact ⟨none, rfl⟩
    | some tr1 =>
      simp only [ht2, Outcome.bind_ok, hc2]
      unfold XCorr.onePhase
      cases t2 with
      | none => exact ⟨none, rfl⟩
      | some tr2 =>
        simp only
        have u1 := u1 tr1 rfl
        have u2 := u2 tr2 rfl
        by_cases hf : tr1.freq = tr2.freq
        · rw [if_neg (by simpa using hf)]
          have e1 : ∀ b, ∃ x, XCorr.first cfg.win cfg2.win ⟨some tr2, ev2.time, pick2.time, trusted pick2⟩ tr1 tr2 b = .ok x := by
            intro b
            unfold XCorr.first
            cases b
            · exact ⟨_, rfl⟩
            · rw [if_pos rfl]
              rcases XCorr.trim_spec cfg2.win hlen2 ⟨some tr2, ev2.time, pick2.time, trusted pick2⟩ tr2 u2.data u2.freq with
                g | ⟨s, g, g1, g2⟩
              · rw [g]; exact ⟨none, rfl⟩
              · rw [g]
                obtain ⟨l, y, e, -⟩ := XCorr.crosscorr_antisymmetric tr1 s cfg.win.maxDelay
                  ⟨u1.data, g1, by rw [g2, hf], u1.freq, hd, u1.fits⟩ 0
                simp only [Outcome.bind_ok, e]
                exact ⟨_, rfl⟩
          have e2 : ∀ b, ∃ x, XCorr.second cfg.win ⟨some tr1, ev1.time, pick1.time, trusted pick1⟩ tr1 tr2 b = .ok x := by
            intro b
            unfold XCorr.second
            cases b
            · exact ⟨_, rfl⟩
            · rw [if_pos rfl]
              rcases XCorr.trim_spec cfg.win hlen ⟨some tr1, ev1.time, pick1.time, trusted pick1⟩ tr1 u1.data u1.freq with
                g | ⟨s, g, g1, g2⟩
              · rw [g]; exact ⟨none, rfl⟩
              · rw [g]
                obtain ⟨l, y, e, -⟩ := XCorr.crosscorr_antisymmetric s tr2 cfg.win.maxDelay
                  ⟨g1, u2.data, by rw [g2, hf], by rw [g2]; exact u1.freq, hd, by rw [g2]; exact u1.fits⟩ 0
                simp only [Outcome.bind_ok, e]
                exact ⟨_, rfl⟩
          obtain ⟨x1, e1⟩ := e1 ((!trusted pick1 && trusted pick2) || (trusted pick1 == trusted pick2))
          obtain ⟨x2, e2⟩ := e2 ((trusted pick1 && !trusted pick2) || (trusted pick1 == trusted pick2))
          rw [e1]
          simp only [Outcome.bind_ok]
          cases x1 with
          | none => exact ⟨none, rfl⟩
          | some r1 =>
            simp only [e2, Outcome.bind_ok]
            cases x2 with
            | none => exact ⟨none, rfl⟩
            | some r2 =>
              simp only
              split_ifs <;> exact ⟨_, rfl⟩
        · rw [if_pos (by simpa using hf)]
          exact ⟨none, rfl⟩
  have htry : ∀ cs, ∃ r, tryComponents (oneComponent o stations wf1 wf2 ev1 pick1 ev2 pick2) cs = .ok r := by
    intro cs
    induction cs with
    | nil => exact ⟨none, rfl⟩
    | cons c cs ih =>
      unfold tryComponents
      obtain ⟨x, hx⟩ := hone c
      rw [hx]
      cases x with
      | none => exact ih
      | some y => exact ⟨_, rfl⟩
  unfold xcorrPhases
  split_ifs
  · exact ⟨none, rfl⟩
  · exact ⟨none, rfl⟩
  · have : ∃ cs, components o pick1 = .ok cs := by
      unfold components
      rw [hc]
      exact ⟨_, rfl⟩
    obtain ⟨cs, hcs⟩ := this
    rw [hcs]
    exact htry cs

namespace CorrelationExample

def sta : Station ℝ := ⟨"N.A.", 1, 2, 0, "N", "A", ""⟩

def event (id : Nat) : Event ℝ := ⟨id, 0, 46, 7, 5, 1, false, 0, 0⟩

def pick (id : Nat) (source : Source) : Phase ℝ :=
  ⟨id, "N.A.", 1000000, 0, 0, "Pg", "N", "A", "", "HHZ", .P, 1/2, source, false, 0, 0, 0⟩

/-- the transversal component first, then the vertical one -/
def opt : Options :=
  ⟨0, -1, -1, fun _ => some ⟨XCorr.Example.config, ["T", "Z"]⟩, "", 0, fun _ _ => 0, fun _ _ => 0⟩

/-- only recorded channels are available -/
def wf (r : Request) : Outcome (Option (Trace ℝ)) := match r.trans with
  | .none => .ok (some XCorr.Example.trace)
  | _ => .ok none

theorem cut (id : Nat) (source : Source) :
    CutTo XCorr.Example.config (event id) (pick id source) XCorr.Example.trace XCorr.Example.short :=
  ⟨_, XCorr.Example.window_eq, XCorr.Example.slice_eq⟩

theorem sensor_channel :
    "HHZ" = (if 2 ≤ "HHZ".toList.length then String.ofList ("HHZ".toList.take 2) else "") ++ "Z" := by decide +kernel

theorem recorded (id : Nat) (source : Source) :
    Recorded opt [("N.A.", sta)] wf (event id) (pick id source) "Z" XCorr.Example.trace := by
  have : ∃ w, XCorr.windowLong XCorr.Example.config (event id).time (pick id source).time = some w := by
    unfold XCorr.windowLong
    show ∃ w, (XCorr.windowShort XCorr.Example.config 0 1000000).map _ = some w
    rw [XCorr.Example.window_eq]
    exact ⟨_, rfl⟩
  obtain ⟨w, hw⟩ := this
  exact ⟨_, w, sta, .none, "HHZ", rfl, hw, rfl,
    .inr (.inr (.inr ⟨by decide, by decide, by decide, by decide, rfl, sensor_channel⟩)), rfl⟩

/-- a pick of the catalog is searched in the waveform of an automatic pick; there is no transversal component -/
theorem found : Result opt [("N.A.", sta)] wf wf (event 1) (pick 1 .rtEventAutomatic) (event 2) (pick 2 .catalog) "Z" 1 (-1) := by
  refine ⟨rfl, rfl, ["T", "Z"], ["T"], [], ⟨_, rfl, .inl ⟨by simp [opt], by simp [opt], rfl⟩⟩, rfl, ?_, ?_⟩
  · rintro c' hc' lag' k' ⟨cfg, cfg2, tr1, tr2, -, -, ⟨_, _, _, kind, _, -, -, -, hk, hr⟩, -⟩
    simp at hc'
    subst hc'
    rcases hk with ⟨-, rfl, -⟩ | ⟨h, -⟩ | ⟨h, -⟩ | ⟨h, -⟩
    · cases hr
    · exact absurd h (by decide)
    · exact absurd h (by decide)
    · exact absurd rfl h
  · refine ⟨_, _, _, _, rfl, rfl, recorded 1 _, recorded 2 _, rfl, .second ?_ (.inl rfl) (cut 2 _) ?_⟩
    · rintro (h | h) <;> cases h
    · obtain ⟨lag, coeff, e1, e2⟩ := XCorr.crosscorr_antisymmetric _ _ 1 XCorr.Example.comparable 0
      rw [XCorr.Example.correlated] at e1
      injection e1 with e1
      injection e1 with e1 e1'
      subst e1 e1'
      rw [neg_neg] at e2
      exact e2

theorem usable_trace : Usable XCorr.Example.config.maxDelay XCorr.Example.trace :=
  ⟨by simp [XCorr.Example.trace], by norm_num [XCorr.Example.trace], by norm_num [XCorr.Example.trace, XCorr.Example.config]⟩

theorem wf_usable (req : Request) : ∃ t, wf req = .ok t ∧ ∀ tr, t = some tr → Usable XCorr.Example.config.maxDelay tr := by
  unfold wf
  split
  · refine ⟨_, rfl, ?_⟩
    intro tr h
    injection h with h
    exact h ▸ usable_trace
  · exact ⟨none, rfl, by simp⟩

/-- the hypotheses of the four theorems hold, and the result is the one above -/
example : xcorrPhases opt [("N.A.", sta)] wf wf (event 1) (pick 1 .rtEventAutomatic) (event 2) (pick 2 .catalog) =
    .ok (some ("Z", 1, .num (-1))) := by
  obtain ⟨r, hr⟩ := pair_safe (o := opt) (stations := [("N.A.", sta)]) (wf1 := wf) (wf2 := wf) (ev1 := event 1)
    (pick1 := pick 1 .rtEventAutomatic) (ev2 := event 2) (pick2 := pick 2 .catalog) rfl rfl (by norm_num [XCorr.Example.config])
    XCorr.Example.len_ne XCorr.Example.len_ne rfl rfl wf_usable wf_usable
  rw [hr, (pair_correlation hr "Z" 1 (.num (-1))).2 ⟨_, rfl, found⟩]

example : |(-1 : ℝ)| ≤ 1 ∧ |(1 : ℚ)| ≤ XCorr.Example.config.maxDelay :=
  pair_bounds found rfl (by norm_num [XCorr.Example.config])
    (fun req tr h => by obtain ⟨t, e, u⟩ := wf_usable req; rw [h] at e; injection e with e; exact u tr e.symm)
    (fun req tr h => by obtain ⟨t, e, u⟩ := wf_usable req; rw [h] at e; injection e with e; exact u tr e.symm)

end CorrelationExample

end
end Verif.Access
