import Verif.Spec.Access
import Verif.Props.BatchLoader
import Verif.Props.Catalog

/-! Lemmas for C88. -/

set_option linter.unusedSimpArgs false
set_option linter.unusedSectionVars false

namespace Verif.Access
open Verif.Catalog Verif.Waveform Verif.AccessSpec

theorem bind_eq_ok {α β : Type} {x : Outcome α} {f : α → Outcome β} {r : β} :
    (x >>= f) = .ok r ↔ ∃ a, x = .ok a ∧ f a = .ok r := by
  cases x with
  | ok a => simp
  | throws => simp
  | ub => simp

/-! ## what the loader is asked for -/

/-- `b'` is `b` after asking for the waveforms `A` -/
structure Adds (A : String × TimeWindow → Prop) (b b' : Batch ℝ) : Prop where
  loaded : b.loaded = false → b'.loaded = false
  nodup : b.requests.Nodup → b'.requests.Nodup
  traces : b'.traces = b.traces
  mem : ∀ x, x ∈ b'.requests ↔ x ∈ b.requests ∨ A x

theorem Adds.refl {A : String × TimeWindow → Prop} {b : Batch ℝ} (h : ∀ x, ¬ A x) : Adds A b b :=
  ⟨id, id, rfl, fun x => by simp [h x]⟩

theorem Adds.congr {A B : String × TimeWindow → Prop} {b b' : Batch ℝ} (h : Adds A b b') (e : ∀ x, A x ↔ B x) : Adds B b b' :=
  ⟨h.loaded, h.nodup, h.traces, fun x => by rw [h.mem, e]⟩

theorem adds_fold {γ : Type} {f : Batch ℝ → γ → Outcome (Batch ℝ)} {A : γ → String × TimeWindow → Prop} {l : List γ}
    (h : ∀ c ∈ l, ∀ b b', f b c = .ok b' → Adds (A c) b b') {b b' : Batch ℝ} (hf : l.foldlM f b = .ok b') :
    Adds (fun x => ∃ c ∈ l, A c x) b b' := by
  induction l generalizing b with
  | nil =>
    cases hf
    exact Adds.refl (by simp)
  | cons c l ih =>
    rw [List.foldlM_cons, bind_eq_ok] at hf
    obtain ⟨b1, h1, h2⟩ := hf
    have a1 := h c (by simp) b b1 h1
    have a2 := ih (fun c' hc' => h c' (by simp [hc'])) h2
    refine ⟨fun hl => a2.loaded (a1.loaded hl), fun hn => a2.nodup (a1.nodup hn), a2.traces.trans a1.traces, fun x => ?_⟩
    rw [a2.mem, a1.mem]
    simp only [List.mem_cons, exists_eq_or_imp]
    tauto

theorem adds_askBatch {b b' : Batch ℝ} {x : TimeWindow × Phase ℝ} (h : askBatch b x = .ok b') :
    Adds (fun y => y = (streamId x.2, x.1)) b b' := by
  unfold askBatch Batch.request at h
  cases hl : b.loaded with
  | true => rw [hl] at h; cases h
  | false =>
    rw [hl] at h
    simp only [Bool.false_eq_true, if_false] at h
    by_cases hm : (streamId x.2, x.1) ∈ b.requests
    · rw [if_pos hm] at h
      cases h
      refine ⟨id, id, rfl, fun y => ⟨Or.inl, ?_⟩⟩
      rintro (h | rfl)
      · exact h
      · exact hm
    · rw [if_neg hm] at h
      cases h
      refine ⟨fun _ => rfl, fun hn => List.nodup_cons.2 ⟨hm, hn⟩, rfl, fun y => ?_⟩
      simp only [List.mem_cons]
      tauto

/-- the streams and windows loaded for a request -/
def Loads (e : Env) (r : Request) (y : String × TimeWindow) : Prop := ∃ x ∈ loads e r, y = (streamId x.2, x.1)

/-- the request made for a component, if any -/
def Asks (o : Options) (stations : AMap String (Station ℝ)) (e : Env) (ev : Event ℝ) (ph : Phase ℝ) (c : String)
    (y : String × TimeWindow) : Prop :=
  ∃ tw r, longWindow o ev ph = .ok tw ∧ waveformRequest o stations tw ev ph c = .ok (some r) ∧ Loads e r y

theorem adds_askComponent {o : Options} {stations : AMap String (Station ℝ)} {e : Env} {tw : TimeWindow} {ev : Event ℝ}
    {ph : Phase ℝ} {b b' : Batch ℝ} {c : String} (htw : longWindow o ev ph = .ok tw)
    (h : askComponent o stations e tw ev ph b c = .ok b') : Adds (Asks o stations e ev ph c) b b' := by
  unfold askComponent at h
  rw [bind_eq_ok] at h
  obtain ⟨q, hq, h⟩ := h
  have key : ∀ y, Asks o stations e ev ph c y ↔ ∃ r, q = some r ∧ Loads e r y := by
    intro y
    constructor
    · rintro ⟨tw', r, h1, h2, h3⟩
      rw [htw] at h1
      cases h1
      rw [hq] at h2
      exact ⟨r, by injection h2, h3⟩
    · rintro ⟨r, rfl, h3⟩
      exact ⟨tw, r, htw, hq, h3⟩
  cases q with
  | none =>
    cases h
    exact (Adds.refl (A := fun _ => False) (fun _ => id)).congr fun y => by rw [key]; simp
  | some r =>
    have step : ∀ x ∈ loads e r, ∀ b b' : Batch ℝ, askBatch b x = .ok b' → Adds (fun y => y = (streamId x.2, x.1)) b b' :=
      fun x _ b b' hb => adds_askBatch hb
    have all := adds_fold (f := askBatch) (A := fun x y => y = (streamId x.2, x.1)) step h
    refine all.congr fun y => ?_
    rw [key]
    unfold Loads
    simp

/-- the neighbour is close enough and has the phase -/
def Pairs (o : Options) (cat : Catalog ℝ) (nb : Neighbours) (refEv : Event ℝ) (rp : Phase ℝ) (n : Nat) : Prop :=
  (∃ ev, cat.events.find? n = some ev ∧ ¬ (o.maxInterEvDist < o.evEv refEv ev ∧ 0 ≤ o.maxInterEvDist)) ∧
    nb.hasPhase n (rp.stationId, rp.type) = true

theorem adds_neighbour {o : Options} {stations : AMap String (Station ℝ)} {e : Env} {cat : Catalog ℝ} {nb : Neighbours}
    {refEv : Event ℝ} {rp : Phase ℝ} {cs : List String} {b b' : Batch ℝ} {n : Nat}
    (h : preloadNeighbour o stations e cat nb refEv rp cs b n = .ok b') :
    Adds (fun y => Pairs o cat nb refEv rp n ∧ ∃ c ∈ cs, Asks o stations e refEv rp c y) b b' := by
  unfold preloadNeighbour at h
  cases hf : cat.events.find? n with
  | none => rw [hf] at h; cases h
  | some ev =>
    rw [hf] at h
    simp only at h
    by_cases hd : o.maxInterEvDist < o.evEv refEv ev ∧ 0 ≤ o.maxInterEvDist
    · rw [if_pos hd] at h
      cases h
      refine Adds.refl ?_
      rintro y ⟨⟨⟨ev', h1, h2⟩, -⟩, -⟩
      rw [hf] at h1
      cases h1
      exact h2 hd
    · rw [if_neg hd] at h
      by_cases hp : nb.hasPhase n (rp.stationId, rp.type) = true
      · rw [if_pos hp, bind_eq_ok] at h
        obtain ⟨tw, htw, h⟩ := h
        refine (adds_fold (fun c _ b b' hb => adds_askComponent htw hb) h).congr fun y => ?_
        constructor
        · exact fun hy => ⟨⟨⟨ev, hf, hd⟩, hp⟩, hy⟩
        · exact fun hy => hy.2
      · rw [if_neg hp] at h
        cases h
        exact Adds.refl fun y hy => hp hy.1.2

/-- the station is within the limits -/
def InRange (o : Options) (cat : Catalog ℝ) (refEv : Event ℝ) (rp : Phase ℝ) : Prop :=
  ∃ st, cat.stations.find? rp.stationId = some st ∧ ¬ o.evSta refEv st < o.minEvStaDist ∧
    ¬ (o.maxEvStaDist < o.evSta refEv st ∧ 0 ≤ o.maxEvStaDist)

theorem adds_phase {o : Options} {stations : AMap String (Station ℝ)} {e : Env} {cat : Catalog ℝ} {nb : Neighbours}
    {refEv : Event ℝ} {rp : Phase ℝ} {b b' : Batch ℝ} (h : preloadPhase o stations e cat nb refEv b rp = .ok b') :
    Adds (fun y => InRange o cat refEv rp ∧ ∃ n ∈ nb.ids, Pairs o cat nb refEv rp n ∧
      ∃ cs, components o rp = .ok cs ∧ ∃ c ∈ cs, Asks o stations e refEv rp c y) b b' := by
  unfold preloadPhase at h
  cases hf : cat.stations.find? rp.stationId with
  | none => rw [hf] at h; cases h
  | some st =>
    rw [hf] at h
    simp only at h
    rw [bind_eq_ok] at h
    obtain ⟨cs, hcs, h⟩ := h
    have no : (¬ InRange o cat refEv rp) → b = b' → Adds (fun y => InRange o cat refEv rp ∧ ∃ n ∈ nb.ids, Pairs o cat nb refEv rp n ∧
        ∃ cs, components o rp = .ok cs ∧ ∃ c ∈ cs, Asks o stations e refEv rp c y) b b' := by
      rintro hr rfl
      exact Adds.refl fun y hy => hr hy.1
    by_cases h1 : o.evSta refEv st < o.minEvStaDist
    · rw [if_pos h1] at h
      cases h
      refine no ?_ rfl
      rintro ⟨st', e1, e2, -⟩
      rw [hf] at e1
      cases e1
      exact e2 h1
    · rw [if_neg h1] at h
      by_cases h2 : o.maxEvStaDist < o.evSta refEv st ∧ 0 ≤ o.maxEvStaDist
      · rw [if_pos h2] at h
        cases h
        refine no ?_ rfl
        rintro ⟨st', e1, -, e3⟩
        rw [hf] at e1
        cases e1
        exact e3 h2
      · rw [if_neg h2] at h
        refine (adds_fold (fun n _ b b' hb => adds_neighbour hb) h).congr fun y => ?_
        constructor
        · rintro ⟨n, hn, hp, hy⟩
          exact ⟨⟨st, hf, h1, h2⟩, n, hn, hp, cs, hcs, hy⟩
        · rintro ⟨-, n, hn, hp, cs', hcs', hy⟩
          rw [hcs] at hcs'
          cases hcs'
          exact ⟨n, hn, hp, hy⟩

theorem adds_preload {o : Options} {stations : AMap String (Station ℝ)} {e : Env} {cat : Catalog ℝ} {nb : Neighbours}
    {refEv : Event ℝ} {b : Batch ℝ} (h : preload o stations e cat nb refEv = .ok b) :
    Adds (fun y => ∃ rp ∈ cat.phasesOf refEv.id, InRange o cat refEv rp ∧ ∃ n ∈ nb.ids, Pairs o cat nb refEv rp n ∧
      ∃ cs, components o rp = .ok cs ∧ ∃ c ∈ cs, Asks o stations e refEv rp c y) Batch.init b :=
  adds_fold (fun rp _ b b' hb => adds_phase hb) h

/-! ## the words of the specification -/

theorem components_iff {o : Options} {ph : Phase ℝ} {c : String} :
    (∃ cs, components o ph = .ok cs ∧ c ∈ cs) ↔ Component o ph c := by
  unfold components Component
  cases hp : o.phase ph.procType with
  | none => simp
  | some cfg =>
    simp only [Outcome.ok.injEq, Option.some.injEq, exists_eq_left']
    by_cases he : cfg.components = [] ∨ cfg.components = [""]
    · rw [if_pos he]
      simp only [List.mem_singleton]
      have hc : String.ofList (orientation ph.channelCode.toList) =
          if ph.channelCode.toList.length = 3 then String.ofList (ph.channelCode.toList.drop 2) else "" := by
        unfold orientation
        split <;> rfl
      rw [hc]
      constructor
      · exact fun h => Or.inr ⟨he, h⟩
      · rintro (⟨h1, h2, -⟩ | ⟨-, h⟩)
        · exact absurd he (by tauto)
        · exact h
    · rw [if_neg he]
      push Not at he
      constructor
      · exact fun h => Or.inl ⟨he.1, he.2, h⟩
      · rintro (⟨-, -, h⟩ | ⟨h, -⟩)
        · exact h
        · exact absurd h (by tauto)

theorem longWindow_iff {o : Options} {ev : Event ℝ} {ph : Phase ℝ} {tw : TimeWindow} :
    longWindow o ev ph = .ok tw ↔ ∃ cfg, o.phase ph.procType = some cfg ∧ XCorr.windowLong cfg.win ev.time ph.time = some tw := by
  unfold longWindow
  cases hp : o.phase ph.procType with
  | none => simp
  | some cfg =>
    simp only [Option.some.injEq, exists_eq_left']
    cases XCorr.windowLong cfg.win ev.time ph.time <;> simp

theorem inRange_iff {o : Options} {cat : Catalog ℝ} {refEv : Event ℝ} {rp : Phase ℝ} :
    InRange o cat refEv rp ↔ ∃ st, cat.stations.find? rp.stationId = some st ∧ o.minEvStaDist ≤ o.evSta refEv st ∧
      (0 ≤ o.maxEvStaDist → o.evSta refEv st ≤ o.maxEvStaDist) := by
  unfold InRange
  refine exists_congr fun st => and_congr_right fun _ => ?_
  rw [not_lt]
  refine and_congr_right fun _ => ?_
  rw [not_and', not_lt]

theorem used_iff {o : Options} {cat : Catalog ℝ} {nb : Neighbours} {refEv : Event ℝ} {rp : Phase ℝ} :
    Used o cat nb refEv rp ↔ InRange o cat refEv rp ∧ ∃ n ∈ nb.ids, Pairs o cat nb refEv rp n := by
  unfold Used Pairs
  rw [inRange_iff]
  refine and_congr_right fun _ => exists_congr fun n => and_congr_right fun _ => and_congr_left fun _ => ?_
  refine exists_congr fun ev => and_congr_right fun _ => ?_
  rw [not_and', not_lt]

/-- the component names depend on the sensor and the time of the pick, not on the channel picked -/
theorem loads_iff {o : Options} {stations : AMap String (Station ℝ)} {e : Env} {tw : TimeWindow} {ev : Event ℝ} {ph : Phase ℝ}
    {c : String} (hst : (stations.find? ph.stationId).isSome = true) {y : String × TimeWindow} :
    (∃ r, waveformRequest o stations tw ev ph c = .ok (some r) ∧ Loads e r y) ↔
      ∃ cha, Channel e.components ph c cha ∧
        y = (ph.networkCode ++ "." ++ ph.stationCode ++ "." ++ ph.locationCode ++ "." ++ cha, tw.extend e.extra e.extra) := by
  obtain ⟨st, hst⟩ := Option.isSome_iff_exists.1 hst
  unfold waveformRequest
  rw [hst]
  simp only
  have hph : { ph with channelCode := ph.channelCode } = ph := rfl
  by_cases h0 : c = ""
  · subst h0
    simp [channelOf, Channel]
  by_cases hT : c = "T"
  · subst hT
    have : channelOf ph "T" = some (.transversal, ph.channelCode) := by simp [channelOf]
    rw [this]
    simp only [Outcome.ok.injEq, Option.some.injEq, exists_eq_left', Loads, loads, hph]
    cases hc : e.components ph with
    | none => simp [Channel, hc]
    | some x =>
      obtain ⟨names, info⟩ := x
      simp only [Channel, hc, List.mem_cons, List.not_mem_nil, or_false, streamId]
      constructor
      · rintro ⟨x, hx, rfl⟩
        rcases hx with rfl | rfl | rfl
        · exact ⟨names 0, Or.inl ⟨by simp, names, info, rfl, 0, rfl⟩, rfl⟩
        · exact ⟨names 1, Or.inl ⟨by simp, names, info, rfl, 1, rfl⟩, rfl⟩
        · exact ⟨names 2, Or.inl ⟨by simp, names, info, rfl, 2, rfl⟩, rfl⟩
      · rintro ⟨cha, h | h | h, rfl⟩
        · obtain ⟨-, names', info', hn, i, rfl⟩ := h
          simp only [Option.some.injEq, Prod.mk.injEq] at hn
          obtain ⟨rfl, rfl⟩ := hn
          refine ⟨(tw.extend e.extra e.extra, { ph with channelCode := names i }), ?_, rfl⟩
          fin_cases i <;> simp
        · exact absurd h.1 (by decide)
        · exact absurd rfl h.1
  by_cases hR : c = "R"
  · subst hR
    have : channelOf ph "R" = some (.radial, ph.channelCode) := by simp [channelOf]
    rw [this]
    simp only [Outcome.ok.injEq, Option.some.injEq, exists_eq_left', Loads, loads, hph]
    cases hc : e.components ph with
    | none => simp [Channel, hc]
    | some x =>
      obtain ⟨names, info⟩ := x
      simp only [Channel, hc, List.mem_cons, List.not_mem_nil, or_false, streamId]
      constructor
      · rintro ⟨x, hx, rfl⟩
        rcases hx with rfl | rfl | rfl
        · exact ⟨names 0, Or.inl ⟨by simp, names, info, rfl, 0, rfl⟩, rfl⟩
        · exact ⟨names 1, Or.inl ⟨by simp, names, info, rfl, 1, rfl⟩, rfl⟩
        · exact ⟨names 2, Or.inl ⟨by simp, names, info, rfl, 2, rfl⟩, rfl⟩
      · rintro ⟨cha, h | h | h, rfl⟩
        · obtain ⟨-, names', info', hn, i, rfl⟩ := h
          simp only [Option.some.injEq, Prod.mk.injEq] at hn
          obtain ⟨rfl, rfl⟩ := hn
          refine ⟨(tw.extend e.extra e.extra, { ph with channelCode := names i }), ?_, rfl⟩
          fin_cases i <;> simp
        · exact absurd h.1 (by decide)
        · exact absurd rfl h.2.1
  by_cases hL : c = "L2"
  · subst hL
    have : channelOf ph "L2" = some (.l2, ph.channelCode) := by simp [channelOf]
    rw [this]
    simp only [Outcome.ok.injEq, Option.some.injEq, exists_eq_left', Loads, loads, hph]
    cases hc : e.components ph with
    | none => simp [Channel, hc]
    | some x =>
      obtain ⟨names, info⟩ := x
      simp only [Channel, hc, List.mem_cons, List.not_mem_nil, or_false, streamId]
      constructor
      · rintro ⟨x, hx, rfl⟩
        rcases hx with rfl | rfl
        · exact ⟨names 1, Or.inr (Or.inl ⟨trivial, names, info, rfl, Or.inl rfl⟩), rfl⟩
        · exact ⟨names 2, Or.inr (Or.inl ⟨trivial, names, info, rfl, Or.inr rfl⟩), rfl⟩
      · rintro ⟨cha, h | h | h, rfl⟩
        · exact absurd h.1 (by decide)
        · obtain ⟨-, names', info', hn, h⟩ := h
          simp only [Option.some.injEq, Prod.mk.injEq] at hn
          obtain ⟨rfl, rfl⟩ := hn
          refine ⟨(tw.extend e.extra e.extra, { ph with channelCode := cha }), ?_, rfl⟩
          rcases h with rfl | rfl
          · exact Or.inl rfl
          · exact Or.inr rfl
        · exact absurd rfl h.2.2.1
  · have hcha : String.ofList (bandAndInstrument ph.channelCode.toList) =
        if 2 ≤ ph.channelCode.toList.length then String.ofList (ph.channelCode.toList.take 2) else "" := by
      unfold bandAndInstrument
      split <;> rfl
    have : channelOf ph c = some (.none, String.ofList (bandAndInstrument ph.channelCode.toList) ++ c) := by
      simp [channelOf, h0, hT, hR, hL]
    rw [this, hcha]
    simp only [Outcome.ok.injEq, Option.some.injEq, exists_eq_left', Loads, loads, List.mem_singleton, streamId]
    constructor
    · rintro ⟨x, rfl, rfl⟩
      exact ⟨_, Or.inr (Or.inr ⟨hT, hR, hL, h0, rfl⟩), rfl⟩
    · rintro ⟨cha, h | h | h, rfl⟩
      · exact absurd h.1 (by tauto)
      · exact absurd h.1 hL
      · rw [h.2.2.2.2]
        exact ⟨_, rfl, rfl⟩

/-! ## a processor only depends on what it loads -/

theorem loadAndProcess_congr {e : Env} {l l' : TimeWindow → Phase ℝ → Option (Trace ℝ)} {tw : TimeWindow} {ph : Phase ℝ}
    {channel filterStr : String} {fq : ℚ}
    (h : l (tw.extend e.extra e.extra) { ph with channelCode := channel } =
      l' (tw.extend e.extra e.extra) { ph with channelCode := channel }) :
    loadAndProcess { e with load := l } tw ph channel filterStr fq = loadAndProcess { e with load := l' } tw ph channel filterStr fq := by
  unfold loadAndProcess
  simp only
  rw [h]

theorem process_congr {e : Env} {l l' : TimeWindow → Phase ℝ → Option (Trace ℝ)} {r : Request}
    (h : ∀ x ∈ loads e r, l x.1 x.2 = l' x.1 x.2) :
    process { e with load := l } r = process { e with load := l' } r := by
  unfold loads at h
  unfold process
  cases ht : r.trans with
  | none =>
    rw [ht] at h
    simp only [List.mem_singleton, forall_eq] at h
    exact loadAndProcess_congr h
  | l2 =>
    rw [ht] at h
    simp only at h ⊢
    cases hc : e.components r.ph with
    | none => rfl
    | some x =>
      obtain ⟨names, tc⟩ := x
      rw [hc] at h
      simp only [List.mem_cons, List.not_mem_nil, or_false, forall_eq_or_imp, forall_eq] at h ⊢
      rw [loadAndProcess_congr h.1, loadAndProcess_congr h.2]
  | transversal =>
    rw [ht] at h
    simp only at h ⊢
    cases hc : e.components r.ph with
    | none => rfl
    | some x =>
      obtain ⟨names, tc⟩ := x
      rw [hc] at h
      simp only [List.mem_cons, List.not_mem_nil, or_false, forall_eq_or_imp, forall_eq] at h ⊢
      rw [loadAndProcess_congr h.1, loadAndProcess_congr h.2.1, loadAndProcess_congr h.2.2]
  | radial =>
    rw [ht] at h
    simp only at h ⊢
    cases hc : e.components r.ph with
    | none => rfl
    | some x =>
      obtain ⟨names, tc⟩ := x
      rw [hc] at h
      simp only [List.mem_cons, List.not_mem_nil, or_false, forall_eq_or_imp, forall_eq] at h ⊢
      rw [loadAndProcess_congr h.1, loadAndProcess_congr h.2.1, loadAndProcess_congr h.2.2]

theorem getWaveform_congr {o : Options} {stations : AMap String (Station ℝ)} {wf wf' : Request → Outcome (Option (Trace ℝ))}
    {tw : TimeWindow} {ev : Event ℝ} {ph : Phase ℝ} {c : String}
    (h : ∀ r, waveformRequest o stations tw ev ph c = .ok (some r) → wf r = wf' r) :
    getWaveform o stations wf tw ev ph c = getWaveform o stations wf' tw ev ph c := by
  unfold getWaveform
  cases hq : waveformRequest o stations tw ev ph c with
  | throws => rfl
  | ub => rfl
  | ok q =>
    cases q with
    | none => rfl
    | some r => exact h r hq

theorem oneComponent_congr {o : Options} {stations : AMap String (Station ℝ)} {wf1 wf1' wf2 : Request → Outcome (Option (Trace ℝ))}
    {ev1 : Event ℝ} {ph1 : Phase ℝ} {ev2 : Event ℝ} {ph2 : Phase ℝ} {c : String}
    (h : ∀ tw r, longWindow o ev1 ph1 = .ok tw → waveformRequest o stations tw ev1 ph1 c = .ok (some r) → wf1 r = wf1' r) :
    oneComponent o stations wf1 wf2 ev1 ph1 ev2 ph2 c = oneComponent o stations wf1' wf2 ev1 ph1 ev2 ph2 c := by
  unfold oneComponent
  cases hp : o.phase ph1.procType with
  | none => rfl
  | some cfg =>
    simp only
    cases ht : longWindow o ev1 ph1 with
    | throws => rfl
    | ub => rfl
    | ok tw1 =>
      simp only [Outcome.bind_ok]
      rw [getWaveform_congr (wf := wf1) (wf' := wf1') fun r hr => h tw1 r ht hr]

theorem tryComponents_congr {f g : String → Outcome (Option (ℚ × Fl ℝ))} {cs : List String} (h : ∀ c ∈ cs, f c = g c) :
    tryComponents f cs = tryComponents g cs := by
  induction cs with
  | nil => rfl
  | cons c cs ih =>
    unfold tryComponents
    rw [h c (by simp), ih fun c' hc' => h c' (by simp [hc'])]

theorem xcorrPhases_congr {o : Options} {stations : AMap String (Station ℝ)} {wf1 wf1' wf2 : Request → Outcome (Option (Trace ℝ))}
    {ev1 : Event ℝ} {ph1 : Phase ℝ} {ev2 : Event ℝ} {ph2 : Phase ℝ}
    (h : ∀ cs, components o ph1 = .ok cs → ∀ c ∈ cs, ∀ tw r, longWindow o ev1 ph1 = .ok tw →
      waveformRequest o stations tw ev1 ph1 c = .ok (some r) → wf1 r = wf1' r) :
    xcorrPhases o stations wf1 wf2 ev1 ph1 ev2 ph2 = xcorrPhases o stations wf1' wf2 ev1 ph1 ev2 ph2 := by
  unfold xcorrPhases
  by_cases h1 : ph1.type ≠ ph2.type
  · rw [if_pos h1, if_pos h1]
  · rw [if_neg h1, if_neg h1]
    by_cases h2 : bandAndInstrument ph1.channelCode.toList ≠ bandAndInstrument ph2.channelCode.toList
    · rw [if_pos h2, if_pos h2]
    · rw [if_neg h2, if_neg h2]
      cases hc : components o ph1 with
      | throws => rfl
      | ub => rfl
      | ok cs =>
        simp only [Outcome.bind_ok]
        exact tryComponents_congr fun c hcm => oneComponent_congr (h cs hc c hcm)

theorem foldlM_congr {γ σ : Type} {f g : σ → γ → Outcome σ} {l : List γ} (h : ∀ c ∈ l, ∀ s, f s c = g s c) (s : σ) :
    l.foldlM f s = l.foldlM g s := by
  induction l generalizing s with
  | nil => rfl
  | cons c l ih =>
    rw [List.foldlM_cons, List.foldlM_cons, h c (by simp)]
    congr 1
    funext s'
    exact ih (fun c' hc' => h c' (by simp [hc'])) s'

/-- the loop over the picks of the reference event depends on its processor only at the requests for used picks -/
theorem loop_congr {o : Options} {stations : AMap String (Station ℝ)} {num : Fl ℝ → ℚ} {wf1 wf1' wf2 : Request → Outcome (Option (Trace ℝ))}
    {cat : Catalog ℝ} {pre : XCorr.Cache} {nb : Neighbours} {refEv : Event ℝ} (ps : List (Phase ℝ))
    (h : ∀ rp ∈ ps, InRange o cat refEv rp → ∀ n ∈ nb.ids, Pairs o cat nb refEv rp n → ∀ cs, components o rp = .ok cs →
      ∀ c ∈ cs, ∀ tw r, longWindow o refEv rp = .ok tw → waveformRequest o stations tw refEv rp c = .ok (some r) → wf1 r = wf1' r)
    (st : Relocate.BuildState ℝ) :
    ps.foldlM (Relocate.refPhaseStep (o.args stations num wf1 wf2) cat pre nb refEv) st =
      ps.foldlM (Relocate.refPhaseStep (o.args stations num wf1' wf2) cat pre nb refEv) st := by
  have gen : ∀ (A B : Relocate.XcorrArgs ℝ), A = o.args stations num wf1 wf2 → B = o.args stations num wf1' wf2 →
      ps.foldlM (Relocate.refPhaseStep A cat pre nb refEv) st = ps.foldlM (Relocate.refPhaseStep B cat pre nb refEv) st := by
    intro A B hA hB
    have a1 : A.evSta = o.evSta := by rw [hA]; rfl
    have a2 : A.minEvStaDist = o.minEvStaDist := by rw [hA]; rfl
    have a3 : A.maxEvStaDist = o.maxEvStaDist := by rw [hA]; rfl
    have a4 : A.evEv = o.evEv := by rw [hA]; rfl
    have a5 : A.maxInterEvDist = o.maxInterEvDist := by rw [hA]; rfl
    have b1 : B.evSta = o.evSta := by rw [hB]; rfl
    have b2 : B.minEvStaDist = o.minEvStaDist := by rw [hB]; rfl
    have b3 : B.maxEvStaDist = o.maxEvStaDist := by rw [hB]; rfl
    have b4 : B.evEv = o.evEv := by rw [hB]; rfl
    have b5 : B.maxInterEvDist = o.maxInterEvDist := by rw [hB]; rfl
    have a6 : ∀ e1 p1 e2 p2 x, A.correlate x e1 p1 e2 p2 = (do let r ← xcorrPhases o stations wf1 wf2 e1 p1 e2 p2; .ok (toEntry num r)) := by
      intro e1 p1 e2 p2 x; rw [hA]; rfl
    have b6 : ∀ e1 p1 e2 p2 x, B.correlate x e1 p1 e2 p2 = (do let r ← xcorrPhases o stations wf1' wf2 e1 p1 e2 p2; .ok (toEntry num r)) := by
      intro e1 p1 e2 p2 x; rw [hB]; rfl
    clear hA hB
    refine foldlM_congr (fun rp hrp s => ?_) st
    unfold Relocate.refPhaseStep
    cases hf : cat.stations.find? rp.stationId with
    | none => rfl
    | some sta =>
      simp only [a1, a2, a3, b1, b2, b3]
      by_cases h1 : o.evSta refEv sta < o.minEvStaDist
      · rw [if_pos h1, if_pos h1]
      · rw [if_neg h1, if_neg h1]
        by_cases h2 : o.maxEvStaDist < o.evSta refEv sta ∧ 0 ≤ o.maxEvStaDist
        · rw [if_pos h2, if_pos h2]
        · rw [if_neg h2, if_neg h2]
          refine foldlM_congr (fun n hn s => ?_) s
          unfold Relocate.pairStep
          cases he : cat.events.find? n with
          | none => rfl
          | some ev =>
            simp only [a4, a5, b4, b5]
            by_cases h3 : o.maxInterEvDist < o.evEv refEv ev ∧ 0 ≤ o.maxInterEvDist
            · rw [if_pos h3, if_pos h3]
            · rw [if_neg h3, if_neg h3]
              by_cases h4 : nb.hasPhase n (rp.stationId, rp.type) = true
              · rw [if_pos h4, if_pos h4]
                cases Relocate.searchPhase cat ev.id (rp.stationId, rp.type) with
                | none => rfl
                | some p =>
                  simp only
                  by_cases h5 : p.source ≠ Source.catalog
                  · rw [if_pos h5, if_pos h5]
                  · rw [if_neg h5, if_neg h5]
                    unfold Relocate.request
                    simp only [a6, b6]
                    rw [xcorrPhases_congr (wf1 := wf1) (wf1' := wf1') fun cs hcs c hc tw r =>
                      h rp hrp ⟨sta, hf, h1, h2⟩ n hn ⟨⟨ev, he, h3⟩, h4⟩ cs hcs c hc tw r]
              · rw [if_neg h4, if_neg h4]
  exact gen _ _ rfl rfl

/-! ## the download -/

theorem mem_delivered {srv : String → TimeWindow → Option (Trace ℝ)} {reqs : List (String × TimeWindow)} {s : String} {t : Trace ℝ} :
    (s, t) ∈ Batch.delivered (answers srv reqs) ↔ ∃ tw, (s, tw) ∈ reqs ∧ srv s tw = some t := by
  unfold Batch.delivered answers
  simp only [List.filterMap_map, List.mem_filterMap, Function.comp]
  constructor
  · rintro ⟨⟨s', tw⟩, hm, h⟩
    simp only at h
    cases hs : srv s' tw with
    | none => rw [hs] at h; cases h
    | some t' =>
      rw [hs] at h
      simp only [Option.some.injEq, Prod.mk.injEq] at h
      obtain ⟨rfl, rfl⟩ := h
      exact ⟨tw, hm, hs⟩
  · rintro ⟨tw, hm, hs⟩
    refine ⟨(s, tw), hm, ?_⟩
    simp only
    rw [hs]

theorem findTrace_eq {tw : TimeWindow} {x : Option (Trace ℝ)} (ts : List (Trace ℝ))
    (h1 : ∀ t ∈ ts, t.timeWindow.contains tw = true → (if t.timeWindow = tw then .ok (some t) else sliced t tw) = .ok x)
    (h2 : ∀ t, x = some t → ∃ t' ∈ ts, t'.timeWindow.contains tw = true) :
    Batch.findTrace tw ts = .ok x := by
  induction ts with
  | nil =>
    cases x with
    | none => rfl
    | some t => obtain ⟨t', h, -⟩ := h2 t rfl; cases h
  | cons t ts ih =>
    unfold Batch.findTrace
    by_cases hc : t.timeWindow.contains tw = true
    · rw [if_pos hc]
      have := h1 t (by simp) hc
      by_cases he : t.timeWindow = tw
      · rw [if_pos he] at this
        rw [if_neg (by simpa using he)]
        exact this
      · rw [if_neg he] at this
        rw [if_pos he]
        exact this
    · rw [if_neg hc]
      refine ih (fun t' ht' => h1 t' (by simp [ht'])) fun t' ht' => ?_
      obtain ⟨t'', hm, hc'⟩ := h2 t' ht'
      rcases List.mem_cons.1 hm with rfl | hm
      · exact absurd hc' hc
      · exact ⟨t'', hm, hc'⟩

/-- after the download, what was asked for is what the data centre has -/
theorem batchGet_eq {srv : String → TimeWindow → Option (Trace ℝ)} {order : List (Trace ℝ) → List (Trace ℝ)}
    (horder : ∀ l, (order l).Perm l) {b : Batch ℝ} (hl : b.loaded = false) (ht : b.traces = []) (hc : Consistent srv b.requests)
    {tw : TimeWindow} {ph : Phase ℝ} (hm : (streamId ph, tw) ∈ b.requests) :
    (b.load (answers srv)).1.get order tw (streamId ph) = .ok (srv (streamId ph) tw, (b.load (answers srv)).1) := by
  have hpos : 0 < b.requests.length := List.length_pos_of_mem hm
  have hload : (b.load (answers srv)).1 = { (answers srv b.requests).foldl Batch.reply b with requests := [], loaded := true } := by
    unfold Batch.load
    rw [hl]
    simp only [Bool.false_eq_true, if_false]
    rw [if_pos hpos]
  have htr : (b.load (answers srv)).1.traces = (Batch.delivered (answers srv b.requests)).reverse := by
    rw [hload]
    simp only
    rw [(Batch.foldl_reply _ b).1, ht, List.append_nil]
  have hld : (b.load (answers srv)).1.loaded = true := by rw [hload]
  have key : Batch.findTrace tw (order (((b.load (answers srv)).1.traces.filter (fun x => x.1 = streamId ph)).map (·.2))) =
      .ok (srv (streamId ph) tw) := by
    have mem : ∀ t, t ∈ order (((b.load (answers srv)).1.traces.filter (fun x => x.1 = streamId ph)).map (·.2)) ↔
        ∃ tw', (streamId ph, tw') ∈ b.requests ∧ srv (streamId ph) tw' = some t := by
      intro t
      rw [(horder _).mem_iff, ← mem_delivered, htr]
      simp
    refine findTrace_eq _ (fun t ht hct => ?_) fun t hst => ?_
    · obtain ⟨tw', h1, h2⟩ := (mem t).1 ht
      exact hc.agree _ _ _ _ hm h1 h2 hct
    · exact ⟨t, (mem t).2 ⟨tw, hm, hst⟩, hc.covers _ _ _ hm hst⟩
  unfold Batch.get
  rw [hld]
  simp only [Bool.not_true, Bool.false_eq_true, if_false]
  rw [key]
  rfl

theorem batchLoad_eq {srv : String → TimeWindow → Option (Trace ℝ)} {order : List (Trace ℝ) → List (Trace ℝ)}
    (horder : ∀ l, (order l).Perm l) {b : Batch ℝ} (hl : b.loaded = false) (ht : b.traces = []) (hc : Consistent srv b.requests)
    {tw : TimeWindow} {ph : Phase ℝ} (hm : (streamId ph, tw) ∈ b.requests) :
    batchLoad order (b.load (answers srv)).1 tw ph = srv (streamId ph) tw := by
  unfold batchLoad
  rw [batchGet_eq horder hl ht hc hm]

/-! ## when the download is reached -/

theorem foldlM_ok_mem {γ σ : Type} {f : σ → γ → Outcome σ} {l : List γ} {s r : σ} (h : l.foldlM f s = .ok r) :
    ∀ c ∈ l, ∃ s' r', f s' c = .ok r' := by
  induction l generalizing s with
  | nil => intro c hc; cases hc
  | cons c l ih =>
    rw [List.foldlM_cons, bind_eq_ok] at h
    obtain ⟨s1, h1, h2⟩ := h
    intro c' hc'
    rcases List.mem_cons.1 hc' with rfl | hc'
    · exact ⟨s, s1, h1⟩
    · exact ih h2 c' hc'

theorem foldlM_ok {γ σ : Type} {P : σ → Prop} {f : σ → γ → Outcome σ} {l : List γ}
    (h : ∀ c ∈ l, ∀ s, P s → ∃ r, f s c = .ok r ∧ P r) {s : σ} (hs : P s) : ∃ r, l.foldlM f s = .ok r ∧ P r := by
  induction l generalizing s with
  | nil => exact ⟨s, rfl, hs⟩
  | cons c l ih =>
    obtain ⟨s1, h1, h2⟩ := h c (by simp) s hs
    rw [List.foldlM_cons, h1]
    exact ih (fun c' hc' => h c' (by simp [hc'])) h2

theorem preload_ok {o : Options} {stations : AMap String (Station ℝ)} {e : Env} {cat : Catalog ℝ} {nb : Neighbours} {refEv : Event ℝ}
    (h1 : ∀ n ∈ nb.ids, (cat.events.find? n).isSome = true)
    (h2 : ∀ rp ∈ cat.phasesOf refEv.id, (cat.stations.find? rp.stationId).isSome = true)
    (h3 : ∀ rp ∈ cat.phasesOf refEv.id, (o.phase rp.procType).isSome = true)
    (h4 : ∀ rp ∈ cat.phasesOf refEv.id, Used o cat nb refEv rp → (stations.find? rp.stationId).isSome = true ∧
      ∃ tw, longWindow o refEv rp = .ok tw) :
    ∃ b, preload o stations e cat nb refEv = .ok b ∧ b.loaded = false := by
  unfold preload
  refine foldlM_ok (P := fun b : Batch ℝ => b.loaded = false) (fun rp hrp b hb => ?_) rfl
  obtain ⟨sta, hsta⟩ := Option.isSome_iff_exists.1 (h2 rp hrp)
  obtain ⟨cfg, hcfg⟩ := Option.isSome_iff_exists.1 (h3 rp hrp)
  have hcs : ∃ cs, components o rp = .ok cs := by
    unfold components
    rw [hcfg]
    exact ⟨_, rfl⟩
  obtain ⟨cs, hcs⟩ := hcs
  unfold preloadPhase
  rw [hsta]
  simp only [hcs, Outcome.bind_ok]
  by_cases g1 : o.evSta refEv sta < o.minEvStaDist
  · rw [if_pos g1]; exact ⟨b, rfl, hb⟩
  rw [if_neg g1]
  by_cases g2 : o.maxEvStaDist < o.evSta refEv sta ∧ 0 ≤ o.maxEvStaDist
  · rw [if_pos g2]; exact ⟨b, rfl, hb⟩
  rw [if_neg g2]
  refine foldlM_ok (P := fun b : Batch ℝ => b.loaded = false) (fun n hn b hb => ?_) hb
  obtain ⟨ev, hev⟩ := Option.isSome_iff_exists.1 (h1 n hn)
  unfold preloadNeighbour
  rw [hev]
  simp only
  by_cases g3 : o.maxInterEvDist < o.evEv refEv ev ∧ 0 ≤ o.maxInterEvDist
  · rw [if_pos g3]; exact ⟨b, rfl, hb⟩
  rw [if_neg g3]
  by_cases g4 : nb.hasPhase n (rp.stationId, rp.type) = true
  · rw [if_pos g4]
    obtain ⟨hst, tw, htw⟩ := h4 rp hrp (used_iff.2 ⟨⟨sta, hsta, g1, g2⟩, n, hn, ⟨ev, hev, g3⟩, g4⟩)
    obtain ⟨sta', hst⟩ := Option.isSome_iff_exists.1 hst
    rw [htw]
    simp only [Outcome.bind_ok]
    refine foldlM_ok (P := fun b : Batch ℝ => b.loaded = false) (fun c _ b hb => ?_) hb
    unfold askComponent waveformRequest
    rw [hst]
    simp only
    cases hq : channelOf rp c with
    | none => exact ⟨b, rfl, hb⟩
    | some kc =>
      obtain ⟨kind, cha⟩ := kc
      simp only [Outcome.bind_ok]
      refine foldlM_ok (P := fun b : Batch ℝ => b.loaded = false) (fun x _ b hb => ?_) hb
      unfold askBatch Batch.request
      rw [hb]
      simp only [Bool.false_eq_true, if_false]
      by_cases g5 : (streamId x.2, x.1) ∈ b.requests
      · rw [if_pos g5]; exact ⟨b, rfl, hb⟩
      · rw [if_neg g5]; exact ⟨_, rfl, rfl⟩
  · rw [if_neg g4]; exact ⟨b, rfl, hb⟩

theorem fillProcessingInfo_sound {c : Catalog ℝ} (h : c.Sound) (src : Source) (vp vs : List String) (w : Phase ℝ → ℝ) :
    (c.fillProcessingInfo src vp vs w).Sound := by
  have key : ∀ kp ∈ (c.fillProcessingInfo src vp vs w).phases, ∃ q, (kp.1, q) ∈ c.phases ∧ q.stationId = kp.2.stationId := by
    intro kp hkp
    obtain ⟨k, p⟩ := kp
    have hm := Catalog.mem_phasesOf.2 hkp
    rw [(Catalog.fillProcessingInfo_phases h.toWF src vp vs w).2.2 k] at hm
    by_cases hk : (c.events.find? k).isSome = true
    · rw [if_pos hk, List.mem_map] at hm
      obtain ⟨q, hq, rfl⟩ := hm
      exact ⟨q, Catalog.mem_phasesOf.1 hq, rfl⟩
    · rw [if_neg hk] at hm; cases hm
  refine ⟨h.toWF.fillProcessingInfo src vp vs w, fun kp hkp => ?_, fun kp hkp => ?_⟩
  · obtain ⟨q, hq, -⟩ := key kp hkp
    exact h.phaseEvent (kp.1, q) hq
  · obtain ⟨q, hq, he⟩ := key kp hkp
    have := h.phaseStation (kp.1, q) hq
    simp only [he] at this
    exact this

end Verif.Access
