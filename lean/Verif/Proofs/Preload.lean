import Verif.Proofs.Access
import Verif.Props.WaveformCache
import Verif.Spec.Preload

/-! Lemmas for C95. -/

set_option linter.unusedSimpArgs false
set_option linter.unusedSectionVars false

namespace Verif.Preload
open Verif.Catalog Verif.Waveform Verif.Access Verif.AccessSpec Verif.PreloadSpec

theorem concatM_cons {A B : Type} {f : A → Outcome (List B)} {a : A} {l : List A} {r : List B}
    (h : concatM f (a :: l) = .ok r) : ∃ x xs, f a = .ok x ∧ concatM f l = .ok xs ∧ r = x ++ xs := by
  unfold concatM at h
  rw [bind_eq_ok] at h
  obtain ⟨x, hx, h⟩ := h
  rw [bind_eq_ok] at h
  obtain ⟨xs, hxs, h⟩ := h
  injection h with h
  exact ⟨x, xs, hx, hxs, h.symm⟩

theorem mem_concatM {A B : Type} {f : A → Outcome (List B)} {l : List A} {r : List B} (h : concatM f l = .ok r) (y : B) :
    y ∈ r ↔ ∃ a ∈ l, ∃ x, f a = .ok x ∧ y ∈ x := by
  induction l generalizing r with
  | nil =>
    cases h
    simp
  | cons a l ih =>
    obtain ⟨x, xs, h1, h2, rfl⟩ := concatM_cons h
    rw [List.mem_append, ih h2]
    simp only [List.mem_cons, exists_eq_or_imp]
    constructor
    · rintro (h | h)
      · exact Or.inl ⟨x, h1, h⟩
      · exact Or.inr h
    · rintro (⟨x', h3, h4⟩ | h)
      · rw [h1] at h3
        cases h3
        exact Or.inl h4
      · exact Or.inr h

theorem concatM_ok {A B : Type} {f : A → Outcome (List B)} {l : List A} (h : ∀ a ∈ l, ∃ x, f a = .ok x) :
    ∃ r, concatM f l = .ok r := by
  induction l with
  | nil => exact ⟨[], rfl⟩
  | cons a l ih =>
    obtain ⟨x, hx⟩ := h a (by simp)
    obtain ⟨xs, hxs⟩ := ih fun a ha => h a (by simp [ha])
    unfold concatM
    rw [hx, Outcome.bind_ok, hxs, Outcome.bind_ok]
    exact ⟨_, rfl⟩

theorem concatM_ok_mem {A B : Type} {f : A → Outcome (List B)} {l : List A} {r : List B} (h : concatM f l = .ok r) :
    ∀ a ∈ l, ∃ x, f a = .ok x := by
  induction l generalizing r with
  | nil => intro a ha; cases ha
  | cons a l ih =>
    obtain ⟨x, xs, h1, h2, rfl⟩ := concatM_cons h
    intro a' ha'
    rcases List.mem_cons.1 ha' with rfl | ha'
    · exact ⟨x, h1⟩
    · exact ih h2 a' ha'

/-! ## the loads of a pick -/

theorem loads_mem {o : Options} {stations : AMap String (Station ℝ)} {e : Env} {tw : TimeWindow} {ev : Event ℝ} {ph : Phase ℝ}
    {c : String} (hst : (stations.find? ph.stationId).isSome = true) {x : TimeWindow × Phase ℝ} :
    (∃ r, waveformRequest o stations tw ev ph c = .ok (some r) ∧ x ∈ loads e r) ↔
      ∃ cha, Channel e.components ph c cha ∧ x = (tw.extend e.extra e.extra, { ph with channelCode := cha }) := by
  obtain ⟨st, hst⟩ := Option.isSome_iff_exists.1 hst
  unfold waveformRequest
  rw [hst]
  simp only
  have hph : { ph with channelCode := ph.channelCode } = ph := rfl
  by_cases h0 : c = ""
  · subst h0
    simp [channelOf, Channel]
  by_cases hT : c = "T"
  · subst hT
    have : channelOf ph "T" = some (.transversal, ph.channelCode) := by simp [channelOf]
    rw [this]
    simp only [Outcome.ok.injEq, Option.some.injEq, exists_eq_left', loads, hph]
    cases hc : e.components ph with
    | none => simp [Channel, hc]
    | some x =>
      obtain ⟨names, info⟩ := x
      simp only [Channel, hc, List.mem_cons, List.not_mem_nil, or_false]
      constructor
      · intro hx
        rcases hx with rfl | rfl | rfl
        · exact ⟨names 0, Or.inl ⟨by simp, names, info, rfl, 0, rfl⟩, rfl⟩
        · exact ⟨names 1, Or.inl ⟨by simp, names, info, rfl, 1, rfl⟩, rfl⟩
        · exact ⟨names 2, Or.inl ⟨by simp, names, info, rfl, 2, rfl⟩, rfl⟩
      · rintro ⟨cha, h | h | h, rfl⟩
        · obtain ⟨-, names', info', hn, i, rfl⟩ := h
          simp only [Option.some.injEq, Prod.mk.injEq] at hn
          obtain ⟨rfl, rfl⟩ := hn
          fin_cases i <;> simp
        · exact absurd h.1 (by decide)
        · exact absurd rfl h.1
  by_cases hR : c = "R"
  · subst hR
    have : channelOf ph "R" = some (.radial, ph.channelCode) := by simp [channelOf]
    rw [this]
    simp only [Outcome.ok.injEq, Option.some.injEq, exists_eq_left', loads, hph]
    cases hc : e.components ph with
    | none => simp [Channel, hc]
    | some x =>
      obtain ⟨names, info⟩ := x
      simp only [Channel, hc, List.mem_cons, List.not_mem_nil, or_false]
      constructor
      · intro hx
        rcases hx with rfl | rfl | rfl
        · exact ⟨names 0, Or.inl ⟨by simp, names, info, rfl, 0, rfl⟩, rfl⟩
        · exact ⟨names 1, Or.inl ⟨by simp, names, info, rfl, 1, rfl⟩, rfl⟩
        · exact ⟨names 2, Or.inl ⟨by simp, names, info, rfl, 2, rfl⟩, rfl⟩
      · rintro ⟨cha, h | h | h, rfl⟩
        · obtain ⟨-, names', info', hn, i, rfl⟩ := h
          simp only [Option.some.injEq, Prod.mk.injEq] at hn
          obtain ⟨rfl, rfl⟩ := hn
          fin_cases i <;> simp
        · exact absurd h.1 (by decide)
        · exact absurd rfl h.2.1
  by_cases hL : c = "L2"
  · subst hL
    have : channelOf ph "L2" = some (.l2, ph.channelCode) := by simp [channelOf]
    rw [this]
    simp only [Outcome.ok.injEq, Option.some.injEq, exists_eq_left', loads, hph]
    cases hc : e.components ph with
    | none => simp [Channel, hc]
    | some x =>
      obtain ⟨names, info⟩ := x
      simp only [Channel, hc, List.mem_cons, List.not_mem_nil, or_false]
      constructor
      · intro hx
        rcases hx with rfl | rfl
        · exact ⟨names 1, Or.inr (Or.inl ⟨trivial, names, info, rfl, Or.inl rfl⟩), rfl⟩
        · exact ⟨names 2, Or.inr (Or.inl ⟨trivial, names, info, rfl, Or.inr rfl⟩), rfl⟩
      · rintro ⟨cha, h | h | h, rfl⟩
        · exact absurd h.1 (by decide)
        · obtain ⟨-, names', info', hn, h⟩ := h
          simp only [Option.some.injEq, Prod.mk.injEq] at hn
          obtain ⟨rfl, rfl⟩ := hn
          rcases h with rfl | rfl
          · exact Or.inl rfl
          · exact Or.inr rfl
        · exact absurd rfl h.2.2.1
  · have hcha : String.ofList (bandAndInstrument ph.channelCode.toList) =
        if 2 ≤ ph.channelCode.toList.length then String.ofList (ph.channelCode.toList.take 2) else "" := by
      unfold bandAndInstrument
      split <;> rfl
    have : channelOf ph c = some (.none, String.ofList (bandAndInstrument ph.channelCode.toList) ++ c) := by
      simp [channelOf, h0, hT, hR, hL]
    rw [this, hcha]
    simp only [Outcome.ok.injEq, Option.some.injEq, exists_eq_left', loads, List.mem_singleton]
    constructor
    · rintro rfl
      exact ⟨_, Or.inr (Or.inr ⟨hT, hR, hL, h0, rfl⟩), rfl⟩
    · rintro ⟨cha, h | h | h, rfl⟩
      · exact absurd h.1 (by tauto)
      · exact absurd h.1 hL
      · rw [h.2.2.2.2]

/-- a load made for the picks of an event -/
def Load (s : Settings) (cat : Catalog ℝ) (ev : Event ℝ) (x : TimeWindow × Phase ℝ) : Prop :=
  ∃ pick ∈ cat.phasesOf ev.id, pick.procType ≠ .NO ∧ ∃ c, Component s.o pick c ∧ ∃ cha, Channel s.e.components pick c cha ∧
    ∃ w0, longWindow s.o ev pick = .ok w0 ∧ x = (w0.extend s.e.extra s.e.extra, { pick with channelCode := cha })

theorem mem_componentLoads {s : Settings} {tw : TimeWindow} {ev : Event ℝ} {ph : Phase ℝ} {c : String}
    (hst : (s.stations.find? ph.stationId).isSome = true) {x : TimeWindow × Phase ℝ} :
    (∃ l, componentLoads s tw ev ph c = .ok l ∧ x ∈ l) ↔
      ∃ cha, Channel s.e.components ph c cha ∧ x = (tw.extend s.e.extra s.e.extra, { ph with channelCode := cha }) := by
  rw [← loads_mem (o := s.o) (ev := ev) hst]
  unfold componentLoads
  constructor
  · rintro ⟨l, h, hx⟩
    rw [bind_eq_ok] at h
    obtain ⟨q, hq, h⟩ := h
    cases q with
    | none =>
      injection h with h
      rw [← h] at hx
      cases hx
    | some r =>
      injection h with h
      exact ⟨r, hq, by rw [h]; exact hx⟩
  · rintro ⟨r, hq, hx⟩
    rw [hq]
    exact ⟨_, rfl, hx⟩

theorem mem_pickLoads {s : Settings} {ev : Event ℝ} {ph : Phase ℝ} {l : List (TimeWindow × Phase ℝ)}
    (hst : (s.stations.find? ph.stationId).isSome = true)
    (h : pickLoads s ev ph = .ok l) (x : TimeWindow × Phase ℝ) :
    x ∈ l ↔ ph.procType ≠ .NO ∧ ∃ c, Component s.o ph c ∧ ∃ cha, Channel s.e.components ph c cha ∧
      ∃ w0, longWindow s.o ev ph = .ok w0 ∧ x = (w0.extend s.e.extra s.e.extra, { ph with channelCode := cha }) := by
  unfold pickLoads at h
  by_cases hn : ph.procType = .NO
  · rw [if_pos hn] at h
    cases h
    simp [hn]
  · rw [if_neg hn, bind_eq_ok] at h
    obtain ⟨tw, htw, h⟩ := h
    rw [bind_eq_ok] at h
    obtain ⟨cs, hcs, h⟩ := h
    rw [mem_concatM h]
    constructor
    · rintro ⟨c, hc, hx⟩
      obtain ⟨cha, h1, h2⟩ := (mem_componentLoads hst).1 hx
      exact ⟨hn, c, components_iff.1 ⟨cs, hcs, hc⟩, cha, h1, tw, htw, h2⟩
    · rintro ⟨-, c, hc, cha, h1, w0, h2, h3⟩
      rw [htw] at h2
      cases h2
      obtain ⟨cs', hcs', hc'⟩ := components_iff.2 hc
      rw [hcs] at hcs'
      cases hcs'
      exact ⟨c, hc', (mem_componentLoads hst).2 ⟨cha, h1, h3⟩⟩

theorem mem_eventLoads {s : Settings} {cat : Catalog ℝ} {ev : Event ℝ} {l : List (TimeWindow × Phase ℝ)}
    (hst : ∀ ph ∈ cat.phasesOf ev.id, (s.stations.find? ph.stationId).isSome = true)
    (h : concatM (pickLoads s ev) (cat.phasesOf ev.id) = .ok l) (x : TimeWindow × Phase ℝ) :
    x ∈ l ↔ Load s cat ev x := by
  rw [mem_concatM h]
  unfold Load
  refine exists_congr fun ph => and_congr_right fun hph => ?_
  obtain ⟨l', hl'⟩ := concatM_ok_mem h ph hph
  rw [← mem_pickLoads (hst ph hph) hl']
  constructor
  · rintro ⟨l'', h1, h2⟩
    rw [hl'] at h1
    cases h1
    exact h2
  · exact fun hx => ⟨l', hl', hx⟩

theorem wanted_iff {s : Settings} {cat : Catalog ℝ} {ev : Event ℝ} {rec : Phase ℝ} {w : TimeWindow} :
    Wanted s cat ev rec w ↔ ∃ x, Load s cat ev x ∧ x.2 = rec ∧ windowToLoad s.before s.after x.1 x.2.time = .ok w := by
  constructor
  · rintro ⟨pick, hp, hn, c, hc, cha, hcha, rfl, cfg, w0, h1, h2, h3⟩
    exact ⟨(w0.extend s.e.extra s.e.extra, { pick with channelCode := cha }),
      ⟨pick, hp, hn, c, hc, cha, hcha, w0, longWindow_iff.2 ⟨cfg, h1, h2⟩, rfl⟩, rfl, h3⟩
  · rintro ⟨x, ⟨pick, hp, hn, c, hc, cha, hcha, w0, h1, rfl⟩, rfl, h3⟩
    obtain ⟨cfg, h1, h2⟩ := longWindow_iff.1 h1
    exact ⟨pick, hp, hn, c, hc, cha, hcha, rfl, cfg, w0, h1, h2, h3⟩

/-! ## the two passes -/

theorem cached_iff {fs : Files} {w : TimeWindow} {rec : Phase ℝ} {t : Trace ℝ} :
    Cached fs w rec t ↔ fromCache fs (phaseId w rec) = some t := by
  unfold Cached fromCache
  cases h : fs.find? (phaseId w rec) with
  | none => simp
  | some f => cases f <;> simp

theorem notCached_iff {fs : Files} {w : TimeWindow} {rec : Phase ℝ} :
    (¬ ∃ t, Cached fs w rec t) ↔ fromCache fs (phaseId w rec) = none := by
  simp only [cached_iff, not_exists]
  cases fromCache fs (phaseId w rec) <;> simp

/-- what the first pass notes for a load -/
def Notes (s : Settings) (fs : Files) (x : TimeWindow × Phase ℝ) (y : String × TimeWindow) : Prop :=
  ∃ w, windowToLoad s.before s.after x.1 x.2.time = .ok w ∧ fromCache fs (phaseId w x.2) = none ∧ y = (streamId x.2, w)

theorem diskGet_calls (fs : Files) (w : TimeWindow) (ph : Phase ℝ) :
    (diskGet fs w ph none .complete).2.2 = (fromCache fs (phaseId w ph)).isNone := by
  unfold diskGet
  cases fromCache fs (phaseId w ph) <;> rfl

theorem adds_ask {s : Settings} {fs : Files} {b b' : Batch ℝ} {x : TimeWindow × Phase ℝ} (h : ask s fs b x = .ok b') :
    Adds (Notes s fs x) b b' := by
  unfold ask at h
  rw [bind_eq_ok] at h
  obtain ⟨w, hw, h⟩ := h
  rw [diskGet_calls] at h
  cases hc : fromCache fs (phaseId w x.2) with
  | some t =>
    rw [hc] at h
    cases h
    refine Adds.refl ?_
    rintro y ⟨w', h1, h2, -⟩
    rw [hw] at h1
    cases h1
    rw [hc] at h2
    cases h2
  | none =>
    rw [hc] at h
    refine (adds_askBatch (b := b) (b' := b') (x := (w, x.2)) h).congr fun y => ?_
    constructor
    · exact fun hy => ⟨w, hw, hc, hy⟩
    · rintro ⟨w', h1, -, h3⟩
      rw [hw] at h1
      cases h1
      exact h3

theorem adds_asks {s : Settings} {cat : Catalog ℝ} {ev : Event ℝ} {fs : Files} {l : List (TimeWindow × Phase ℝ)} {b : Batch ℝ}
    (hst : ∀ ph ∈ cat.phasesOf ev.id, (s.stations.find? ph.stationId).isSome = true)
    (hl : concatM (pickLoads s ev) (cat.phasesOf ev.id) = .ok l) (h : l.foldlM (ask s fs) Batch.init = .ok b) :
    Adds (fun y => ∃ rec w, Wanted s cat ev rec w ∧ (¬ ∃ t, Cached fs w rec t) ∧ y = (stream rec, w)) Batch.init b := by
  refine (adds_fold (f := ask s fs) (A := Notes s fs) (fun x _ b b' hb => adds_ask hb) h).congr fun y => ?_
  constructor
  · rintro ⟨x, hx, w, h1, h2, rfl⟩
    exact ⟨x.2, w, wanted_iff.2 ⟨x, (mem_eventLoads hst hl x).1 hx, rfl, h1⟩, notCached_iff.2 h2, rfl⟩
  · rintro ⟨rec, w, hw, hn, rfl⟩
    obtain ⟨x, hx, rfl, h1⟩ := wanted_iff.1 hw
    exact ⟨x, (mem_eventLoads hst hl x).2 hx, w, h1, notCached_iff.1 hn, rfl⟩

/-- `fs'` has the readable files of `fs`, and files of other names than those of `A` are the same -/
structure Grows (A : List Char → Prop) (fs fs' : Files) : Prop where
  readable : ∀ p t, fromCache fs p = some t → fromCache fs' p = some t
  other : ∀ p, ¬ A p → fs'.find? p = fs.find? p

theorem Grows.refl {A : List Char → Prop} {fs : Files} : Grows A fs fs := ⟨fun _ _ h => h, fun _ _ => rfl⟩

theorem Grows.trans {A : List Char → Prop} {f1 f2 f3 : Files} (h1 : Grows A f1 f2) (h2 : Grows A f2 f3) : Grows A f1 f3 :=
  ⟨fun p t h => h2.readable p t (h1.readable p t h), fun p hp => by rw [h2.other p hp, h1.other p hp]⟩

theorem Grows.mono {A B : List Char → Prop} {fs fs' : Files} (h : Grows A fs fs') (hAB : ∀ p, A p → B p) : Grows B fs fs' :=
  ⟨h.readable, fun p hp => h.other p fun ha => hp (hAB p ha)⟩

theorem store_other {fs : Files} {path p : List Char} {t : Trace ℝ} (h : p ≠ path) (e : Written) :
    (store fs path t e).find? p = fs.find? p := by
  cases e with
  | complete => exact AMap.find?_set_ne _ _ h
  | nothing => rfl
  | garbage => exact AMap.find?_set_ne _ _ h
  | truncated n => exact AMap.find?_set_ne _ _ h

theorem keep_spec {s : Settings} {ev : Nat} {b : Batch ℝ} {fs fs' : Files} {x : TimeWindow × Phase ℝ}
    (h : keep s ev b fs x = .ok fs') :
    ∃ w, windowToLoad s.before s.after x.1 x.2.time = .ok w ∧
      ((∃ t, fromCache fs (phaseId w x.2) = some t ∧ fs' = fs) ∨
       (fromCache fs (phaseId w x.2) = none ∧ ∃ r, b.get s.order w (streamId x.2) = .ok r ∧
         fs' = match r.1 with
           | none => fs
           | some t => store fs (phaseId w x.2) t (s.effect ev (phaseId w x.2)))) := by
  unfold keep at h
  rw [bind_eq_ok] at h
  obtain ⟨w, hw, h⟩ := h
  refine ⟨w, hw, ?_⟩
  cases hc : fromCache fs (phaseId w x.2) with
  | some t =>
    rw [hc] at h
    cases h
    exact Or.inl ⟨t, rfl, rfl⟩
  | none =>
    rw [hc] at h
    simp only at h
    rw [bind_eq_ok] at h
    obtain ⟨r, hr, h⟩ := h
    injection h with h
    refine Or.inr ⟨rfl, r, hr, ?_⟩
    rw [← h]
    unfold diskGet
    rw [hc]
    cases r.1 <;> rfl

theorem fromCache_congr {fs fs' : Files} {p : List Char} (h : fs'.find? p = fs.find? p) : fromCache fs' p = fromCache fs p := by
  unfold fromCache
  rw [h]

theorem grows_keep {s : Settings} {ev : Nat} {b : Batch ℝ} {fs fs' : Files} {x : TimeWindow × Phase ℝ}
    (h : keep s ev b fs x = .ok fs') :
    Grows (fun p => ∃ w, windowToLoad s.before s.after x.1 x.2.time = .ok w ∧ p = phaseId w x.2) fs fs' := by
  obtain ⟨w, hw, ⟨t, -, rfl⟩ | ⟨hn, r, -, hf⟩⟩ := keep_spec h
  · exact Grows.refl
  · cases hr : r.1 with
    | none =>
      rw [hr] at hf
      rw [hf]
      exact Grows.refl
    | some t =>
      rw [hr] at hf
      simp only at hf
      have other : ∀ p, p ≠ phaseId w x.2 → fs'.find? p = fs.find? p := fun p hp => by rw [hf]; exact store_other hp _
      refine ⟨fun p t' hp => ?_, fun p hp => other p fun he => hp ⟨w, hw, he⟩⟩
      by_cases he : p = phaseId w x.2
      · rw [he, hn] at hp
        cases hp
      · rw [fromCache_congr (other p he)]
        exact hp

theorem foldlM_inv {γ σ : Type} {R : σ → σ → Prop} (hrefl : ∀ s, R s s) (htrans : ∀ a b c, R a b → R b c → R a c)
    {f : σ → γ → Outcome σ} {l : List γ} (h : ∀ c ∈ l, ∀ s s', f s c = .ok s' → R s s') {s s' : σ}
    (hf : l.foldlM f s = .ok s') : R s s' := by
  induction l generalizing s with
  | nil =>
    cases hf
    exact hrefl _
  | cons c l ih =>
    rw [List.foldlM_cons, bind_eq_ok] at hf
    obtain ⟨s1, h1, h2⟩ := hf
    exact htrans _ _ _ (h c (by simp) s s1 h1) (ih (fun c' hc' => h c' (by simp [hc'])) h2)

/-- the names of the files of the waveforms of an event -/
def Named (s : Settings) (cat : Catalog ℝ) (ev : Event ℝ) (p : List Char) : Prop :=
  ∃ rec w, Wanted s cat ev rec w ∧ p = phaseId w rec

theorem grows_keeps {s : Settings} {cat : Catalog ℝ} {ev : Event ℝ} {l : List (TimeWindow × Phase ℝ)} {n : Nat} {b : Batch ℝ}
    {fs fs' : Files} (hl : ∀ x ∈ l, Load s cat ev x) (h : l.foldlM (keep s n b) fs = .ok fs') :
    Grows (Named s cat ev) fs fs' := by
  refine foldlM_inv (R := Grows (Named s cat ev)) (fun _ => Grows.refl) (fun _ _ _ => Grows.trans) (fun x hx f f' hf => ?_) h
  refine (grows_keep hf).mono ?_
  rintro p ⟨w, hw, rfl⟩
  exact ⟨x.2, w, wanted_iff.2 ⟨x, hl x hx, rfl, hw⟩, rfl⟩

theorem plain_eq {p q : Phase ℝ} {w v : TimeWindow} (hp : Plain p w) (hq : Plain q v) (h : phaseId w p = phaseId v q) :
    w = v ∧ stream p = stream q := by
  obtain ⟨rfl, h1, h2, h3, h4⟩ := (waveform_id_injective hp.1 hq.1 hp.2 hq.2).1 h
  refine ⟨rfl, ?_⟩
  unfold stream
  rw [h1, h2, h3, h4]

/-- the second pass, when every answer of the loader is known -/
theorem keeps_cached {s : Settings} {n : Nat} {b : Batch ℝ} {srv : String → TimeWindow → Option (Trace ℝ)}
    (l : List (TimeWindow × Phase ℝ)) {fs0 fs fs' : Files}
    (hplain : ∀ x ∈ l, ∀ w, windowToLoad s.before s.after x.1 x.2.time = .ok w → Plain x.2 w)
    (hwrite : ∀ p, s.effect n p = .complete)
    (hget : ∀ x ∈ l, ∀ w, windowToLoad s.before s.after x.1 x.2.time = .ok w → fromCache fs0 (phaseId w x.2) = none →
      ∀ r, b.get s.order w (streamId x.2) = .ok r → r.1 = srv (stream x.2) w)
    (hgrow : ∀ p t, fromCache fs0 p = some t → fromCache fs p = some t)
    (h : l.foldlM (keep s n b) fs = .ok fs') {q : Phase ℝ} {v : TimeWindow} (hq : Plain q v) :
    fromCache fs' (phaseId v q) = fromCache fs (phaseId v q) ∨
      (fromCache fs (phaseId v q) = none ∧ fromCache fs' (phaseId v q) = srv (stream q) v) := by
  induction l generalizing fs with
  | nil =>
    cases h
    exact Or.inl rfl
  | cons x l ih =>
    rw [List.foldlM_cons, bind_eq_ok] at h
    obtain ⟨f1, h1, h2⟩ := h
    have hg1 := grows_keep h1
    have ih := ih (fun y hy => hplain y (by simp [hy])) (fun y hy => hget y (by simp [hy]))
      (fun p t hp => hg1.readable p t (hgrow p t hp)) h2
    obtain ⟨w, hw, ⟨t, ht, rfl⟩ | ⟨hn, r, hr, hf⟩⟩ := keep_spec h1
    · exact ih
    · have h0 : fromCache fs0 (phaseId w x.2) = none := by
        cases hc : fromCache fs0 (phaseId w x.2) with
        | none => rfl
        | some t => rw [hgrow _ _ hc] at hn; cases hn
      have hval := hget x (by simp) w hw h0 r hr
      by_cases he : phaseId v q = phaseId w x.2
      · obtain ⟨rfl, hs⟩ := plain_eq hq (hplain x (by simp) w hw) he
        rw [← he] at hn hf
        have hf1 : fromCache f1 (phaseId v q) = srv (stream q) v := by
          rw [hs, ← hval, hf]
          cases hr1 : r.1 with
          | none => exact hn
          | some t =>
            simp only [hwrite, store, fromCache]
            rw [AMap.find?_set]
            simp
        refine Or.inr ⟨hn, ?_⟩
        rcases ih with ih | ⟨-, ih⟩
        · rw [ih, hf1]
        · exact ih
      · have hsame : fromCache f1 (phaseId v q) = fromCache fs (phaseId v q) := by
          refine fromCache_congr (hg1.other _ ?_)
          rintro ⟨w', hw', he'⟩
          rw [hw] at hw'
          cases hw'
          exact he he'
        rw [hsame] at ih
        exact ih

/-- a load of the second pass is answered -/
theorem keeps_covered {s : Settings} {n : Nat} {b : Batch ℝ} {srv : String → TimeWindow → Option (Trace ℝ)}
    (l : List (TimeWindow × Phase ℝ)) {fs0 fs fs' : Files}
    (hplain : ∀ x ∈ l, ∀ w, windowToLoad s.before s.after x.1 x.2.time = .ok w → Plain x.2 w)
    (hwrite : ∀ p, s.effect n p = .complete)
    (hget : ∀ x ∈ l, ∀ w, windowToLoad s.before s.after x.1 x.2.time = .ok w → fromCache fs0 (phaseId w x.2) = none →
      ∀ r, b.get s.order w (streamId x.2) = .ok r → r.1 = srv (stream x.2) w)
    (hgrow : ∀ p t, fromCache fs0 p = some t → fromCache fs p = some t)
    (h : l.foldlM (keep s n b) fs = .ok fs') {x : TimeWindow × Phase ℝ} (hx : x ∈ l) {w : TimeWindow}
    (hw : windowToLoad s.before s.after x.1 x.2.time = .ok w) :
    fromCache fs' (phaseId w x.2) = (fromCache fs (phaseId w x.2)).or (srv (stream x.2) w) := by
  induction l generalizing fs with
  | nil => cases hx
  | cons y l ih =>
    rw [List.foldlM_cons, bind_eq_ok] at h
    obtain ⟨f1, h1, h2⟩ := h
    have hg1 := grows_keep h1
    have hstep := keeps_cached (fs0 := fs0) [y] (fun z hz => hplain z (by simp at hz; simp [hz]))
      hwrite (fun z hz => hget z (by simp at hz; simp [hz])) hgrow
      (fs := fs) (fs' := f1) (srv := srv) (by rw [List.foldlM_cons, h1]; rfl) (hplain x hx w hw)
    have hgrow1 : ∀ p t, fromCache fs0 p = some t → fromCache f1 p = some t := fun p t hp => hg1.readable p t (hgrow p t hp)
    have hrest := keeps_cached (fs0 := fs0) l (fun z hz => hplain z (by simp [hz])) hwrite
      (fun z hz => hget z (by simp [hz])) hgrow1 h2 (srv := srv) (hplain x hx w hw)
    by_cases hxl : x ∈ l
    · rw [ih (fun z hz => hplain z (by simp [hz])) (fun z hz => hget z (by simp [hz])) hgrow1 h2 hxl]
      rcases hstep with hs | ⟨hs1, hs2⟩
      · rw [hs]
      · rw [hs1, hs2]
        cases srv (stream x.2) w <;> rfl
    · have hxy : x = y := by
        rcases List.mem_cons.1 hx with h | h
        · exact h
        · exact absurd h hxl
      subst hxy
      obtain ⟨w', hw', ⟨t, ht, rfl⟩ | ⟨hn, r, hr, hf⟩⟩ := keep_spec h1
      · rw [hw] at hw'
        cases hw'
        rcases hrest with h | ⟨h, -⟩
        · rw [h, ht]; rfl
        · rw [ht] at h; cases h
      · rw [hw] at hw'
        cases hw'
        have h0 : fromCache fs0 (phaseId w x.2) = none := by
          cases hc : fromCache fs0 (phaseId w x.2) with
          | none => rfl
          | some t => rw [hgrow _ _ hc] at hn; cases hn
        have hval := hget x (by simp) w hw h0 r hr
        have hf1 : fromCache f1 (phaseId w x.2) = srv (stream x.2) w := by
          rw [← hval, hf]
          cases hr1 : r.1 with
          | none => exact hn
          | some t =>
            simp only [hwrite, store, fromCache]
            rw [AMap.find?_set]
            simp
        rw [hn]
        rcases hrest with h | ⟨-, h⟩
        · rw [h, hf1]; rfl
        · rw [h]; rfl

end Verif.Preload

namespace Verif.Preload
open Verif.Catalog Verif.Waveform Verif.Access Verif.AccessSpec Verif.PreloadSpec

/-! ## one event -/

structure EventRun (s : Settings) (cat : Catalog ℝ) (st st' : State) (ev : Event ℝ) where
  loads : List (TimeWindow × Phase ℝ)
  batch : Batch ℝ
  hloads : ∀ x, x ∈ loads ↔ Load s cat ev x
  hbatch : Adds (fun y => ∃ rec w, Wanted s cat ev rec w ∧ (¬ ∃ t, Cached st.files w rec t) ∧ y = (stream rec, w)) Batch.init batch
  hkeep : loads.foldlM (keep s ev.id (batch.load s.source).1) st.files = .ok st'.files
  hdown : st'.downloads = st.downloads ++ (if batch.requests = [] then [] else [batch.requests])

theorem event_run {s : Settings} {cat : Catalog ℝ} {st st' : State} {ev : Event ℝ} (hk : Known s cat ev)
    (h : event s cat st ev = .ok st') : Nonempty (EventRun s cat st st' ev) := by
  unfold event at h
  rw [bind_eq_ok] at h
  obtain ⟨ls, hls, h⟩ := h
  rw [bind_eq_ok] at h
  obtain ⟨b, hb, h⟩ := h
  rw [bind_eq_ok] at h
  obtain ⟨fs, hfs, h⟩ := h
  injection h with h
  have ha := adds_asks hk hls hb
  refine ⟨⟨ls, b, mem_eventLoads hk hls, ha, ?_, ?_⟩⟩
  · rw [← h]
    exact hfs
  · rw [← h]
    simp only
    congr 1
    unfold Batch.load
    rw [ha.loaded rfl]
    simp only [Bool.false_eq_true, if_false]
    by_cases hr : b.requests = []
    · rw [if_neg (by simp [hr]), if_pos hr]
      rfl
    · rw [if_pos (List.length_pos_iff.2 hr), if_neg hr]
      rfl

theorem event_grows {s : Settings} {cat : Catalog ℝ} {st st' : State} {ev : Event ℝ} (hk : Known s cat ev)
    (h : event s cat st ev = .ok st') : Grows (Named s cat ev) st.files st'.files := by
  obtain ⟨r⟩ := event_run hk h
  exact grows_keeps (fun x hx => (r.hloads x).1 hx) r.hkeep

theorem event_cached {s : Settings} {cat : Catalog ℝ} {st st' : State} {ev : Event ℝ} (hk : Known s cat ev)
    {srv : String → TimeWindow → Option (Trace ℝ)} (hsrc : s.source = answers srv) (horder : ∀ l, (s.order l).Perm l)
    (hc : ConsistentFor srv s cat ev) (hplain : ∀ rec w, Wanted s cat ev rec w → Plain rec w)
    (hwrite : ∀ p, s.effect ev.id p = .complete) (h : event s cat st ev = .ok st') :
    (∀ rec w, Wanted s cat ev rec w →
      fromCache st'.files (phaseId w rec) = (fromCache st.files (phaseId w rec)).or (srv (stream rec) w)) ∧
    ∀ q v, Plain q v → fromCache st'.files (phaseId v q) = fromCache st.files (phaseId v q) ∨
      (fromCache st.files (phaseId v q) = none ∧ fromCache st'.files (phaseId v q) = srv (stream q) v) := by
  obtain ⟨r⟩ := event_run hk h
  have hpl : ∀ x ∈ r.loads, ∀ w, windowToLoad s.before s.after x.1 x.2.time = .ok w → Plain x.2 w :=
    fun x hx w hw => hplain x.2 w (wanted_iff.2 ⟨x, (r.hloads x).1 hx, rfl, hw⟩)
  have hcb : Consistent srv r.batch.requests := by
    refine hc _ fun y hy => ?_
    rcases (r.hbatch.mem y).1 hy with h | ⟨rec, w, h1, -, h3⟩
    · cases h
    · exact ⟨rec, w, h1, h3⟩
  have hget : ∀ x ∈ r.loads, ∀ w, windowToLoad s.before s.after x.1 x.2.time = .ok w →
      fromCache st.files (phaseId w x.2) = none →
      ∀ q, (r.batch.load s.source).1.get s.order w (streamId x.2) = .ok q → q.1 = srv (stream x.2) w := by
    intro x hx w hw hn q hq
    have hm : (streamId x.2, w) ∈ r.batch.requests :=
      (r.hbatch.mem _).2 (Or.inr ⟨x.2, w, wanted_iff.2 ⟨x, (r.hloads x).1 hx, rfl, hw⟩, notCached_iff.2 hn, rfl⟩)
    have := batchLoad_eq horder (r.hbatch.loaded rfl) r.hbatch.traces hcb hm
    unfold batchLoad at this
    rw [hsrc] at hq
    rw [hq] at this
    exact this
  constructor
  · intro rec w hw
    obtain ⟨x, hx, rfl, hw'⟩ := wanted_iff.1 hw
    exact keeps_covered r.loads hpl hwrite hget (fun _ _ h => h) r.hkeep ((r.hloads x).2 hx) hw'
  · intro q v hq
    exact keeps_cached r.loads hpl hwrite hget (fun _ _ h => h) r.hkeep hq

/-! ## all events -/

theorem run_grows {s : Settings} {cat : Catalog ℝ} (evs : List (Event ℝ)) {st st' : State} (hk : ∀ ev ∈ evs, Known s cat ev)
    (h : evs.foldlM (event s cat) st = .ok st') : Grows (fun p => ∃ ev ∈ evs, Named s cat ev p) st.files st'.files :=
  foldlM_inv (R := fun a b : State => Grows (fun p => ∃ ev ∈ evs, Named s cat ev p) a.files b.files) (fun _ => Grows.refl)
    (fun _ _ _ => Grows.trans)
    (fun ev hev _ _ he => (event_grows (hk ev hev) he).mono fun _ hp => ⟨ev, hev, hp⟩) h

/-- the downloads made for the events -/
structure Downloads (s : Settings) (cat : Catalog ℝ) (evs : List (Event ℝ)) (st st' : State) (ds : List (List (String × TimeWindow))) :
    Prop where
  eq : st'.downloads = st.downloads ++ ds
  count : ds.length ≤ evs.length
  each : ∀ d ∈ ds, d ≠ [] ∧ d.Nodup ∧ ∃ ev ∈ evs, ∀ y ∈ d, ∃ rec w, Wanted s cat ev rec w ∧ (¬ ∃ t, Cached st.files w rec t) ∧
    y = (stream rec, w)
  all : ∀ ev ∈ evs, ∀ rec w, Wanted s cat ev rec w → Plain rec w → (¬ ∃ t, Cached st.files w rec t) → ∃ d ∈ ds, (stream rec, w) ∈ d

theorem run_downloads {s : Settings} {cat : Catalog ℝ} (evs : List (Event ℝ)) {st st' : State} (hk : ∀ ev ∈ evs, Known s cat ev)
    (hplain : ∀ ev ∈ evs, ∀ rec w, Wanted s cat ev rec w → Plain rec w)
    (h : evs.foldlM (event s cat) st = .ok st') : ∃ ds, Downloads s cat evs st st' ds := by
  induction evs generalizing st with
  | nil =>
    cases h
    exact ⟨[], by simp, by simp, by simp, by simp⟩
  | cons ev evs ih =>
    rw [List.foldlM_cons, bind_eq_ok] at h
    obtain ⟨s1, h1, h2⟩ := h
    obtain ⟨r⟩ := event_run (hk ev (by simp)) h1
    have hg := event_grows (hk ev (by simp)) h1
    obtain ⟨ds, hds⟩ := ih (fun e he => hk e (by simp [he])) (fun e he => hplain e (by simp [he])) h2
    have hmem : ∀ y, y ∈ r.batch.requests ↔ ∃ rec w, Wanted s cat ev rec w ∧ (¬ ∃ t, Cached st.files w rec t) ∧ y = (stream rec, w) := by
      intro y
      rw [r.hbatch.mem]
      simp [Batch.init]
    have hnot : ∀ w rec, (¬ ∃ t, Cached s1.files w rec t) → ¬ ∃ t, Cached st.files w rec t := by
      rintro w rec hn ⟨t, ht⟩
      exact hn ⟨t, cached_iff.2 (hg.readable _ _ (cached_iff.1 ht))⟩
    have hin : r.batch.requests ≠ [] → r.batch.requests ∈ (if r.batch.requests = [] then [] else [r.batch.requests]) := by
      intro hne
      rw [if_neg hne]
      simp
    refine ⟨(if r.batch.requests = [] then [] else [r.batch.requests]) ++ ds, ?_, ?_, ?_, ?_⟩
    · rw [hds.eq, r.hdown, List.append_assoc]
    · have := hds.count
      simp only [List.length_append, List.length_cons]
      split <;> simp <;> omega
    · intro d hd
      rcases List.mem_append.1 hd with hd | hd
      · by_cases hr : r.batch.requests = []
        · rw [if_pos hr] at hd
          cases hd
        · rw [if_neg hr, List.mem_singleton] at hd
          rw [hd]
          exact ⟨hr, r.hbatch.nodup List.nodup_nil, ev, by simp, fun y hy => (hmem y).1 hy⟩
      · obtain ⟨g1, g2, e, he, g3⟩ := hds.each d hd
        refine ⟨g1, g2, e, by simp [he], fun y hy => ?_⟩
        obtain ⟨rec, w, k1, k2, k3⟩ := g3 y hy
        exact ⟨rec, w, k1, hnot w rec k2, k3⟩
    · have first : ∀ rec w, Wanted s cat ev rec w → (¬ ∃ t, Cached st.files w rec t) →
          ∃ d ∈ (if r.batch.requests = [] then [] else [r.batch.requests]) ++ ds, (stream rec, w) ∈ d := by
        intro rec w hw hn
        have hm := (hmem (stream rec, w)).2 ⟨rec, w, hw, hn, rfl⟩
        exact ⟨r.batch.requests, List.mem_append_left _ (hin (List.ne_nil_of_mem hm)), hm⟩
      intro e he rec w hw hp hn
      rcases List.mem_cons.1 he with rfl | he
      · exact first rec w hw hn
      · by_cases hn1 : ∃ t, Cached s1.files w rec t
        · by_cases hnm : Named s cat ev (phaseId w rec)
          · obtain ⟨rec', w', hw', heq⟩ := hnm
            have hp' := hplain ev (by simp) rec' w' hw'
            obtain ⟨rfl, hs⟩ := plain_eq hp hp' heq
            have hn' : ¬ ∃ t, Cached st.files w rec' t := by
              rw [notCached_iff] at hn ⊢
              rw [← heq]
              exact hn
            rw [hs]
            exact first rec' w hw' hn'
          · exfalso
            apply hn
            obtain ⟨t, ht⟩ := hn1
            refine ⟨t, cached_iff.2 ?_⟩
            rw [← fromCache_congr (hg.other _ hnm)]
            exact cached_iff.1 ht
        · obtain ⟨d, hd, hm⟩ := hds.all e he rec w hw hp hn1
          exact ⟨d, List.mem_append_right _ hd, hm⟩

theorem run_cached {s : Settings} {cat : Catalog ℝ} (evs : List (Event ℝ)) {st st' : State} (hk : ∀ ev ∈ evs, Known s cat ev)
    {srv : String → TimeWindow → Option (Trace ℝ)} (hsrc : s.source = answers srv) (horder : ∀ l, (s.order l).Perm l)
    (hc : ∀ ev ∈ evs, ConsistentFor srv s cat ev) (hplain : ∀ ev ∈ evs, ∀ rec w, Wanted s cat ev rec w → Plain rec w)
    (hwrite : ∀ n p, s.effect n p = .complete) (h : evs.foldlM (event s cat) st = .ok st') :
    (∀ q v, Plain q v → fromCache st'.files (phaseId v q) = fromCache st.files (phaseId v q) ∨
      (fromCache st.files (phaseId v q) = none ∧ fromCache st'.files (phaseId v q) = srv (stream q) v)) ∧
    ∀ ev ∈ evs, ∀ rec w, Wanted s cat ev rec w →
      fromCache st'.files (phaseId w rec) = (fromCache st.files (phaseId w rec)).or (srv (stream rec) w) := by
  induction evs generalizing st with
  | nil =>
    cases h
    exact ⟨fun _ _ _ => Or.inl rfl, fun _ h => by cases h⟩
  | cons ev evs ih =>
    rw [List.foldlM_cons, bind_eq_ok] at h
    obtain ⟨s1, h1, h2⟩ := h
    obtain ⟨a1, a2⟩ := event_cached (hk ev (by simp)) hsrc horder (hc ev (by simp)) (hplain ev (by simp)) (hwrite ev.id) h1
    obtain ⟨b1, b2⟩ := ih (fun e he => hk e (by simp [he])) (fun e he => hc e (by simp [he]))
      (fun e he => hplain e (by simp [he])) h2
    constructor
    · intro q v hq
      rcases a2 q v hq with ha | ⟨ha, ha'⟩
      · rcases b1 q v hq with hb | ⟨hb, hb'⟩
        · exact Or.inl (hb.trans ha)
        · exact Or.inr ⟨ha ▸ hb, hb'⟩
      · rcases b1 q v hq with hb | ⟨-, hb'⟩
        · exact Or.inr ⟨ha, hb.trans ha'⟩
        · exact Or.inr ⟨ha, hb'⟩
    · intro e he rec w hw
      have hp := hplain e he rec w hw
      rcases List.mem_cons.1 he with rfl | he
      · have h3 := a1 rec w hw
        rcases b1 rec w hp with hb | ⟨hb, hb'⟩
        · rw [hb, h3]
        · rw [hb']
          rw [hb] at h3
          cases hc0 : fromCache st.files (phaseId w rec) with
          | none => rfl
          | some t => rw [hc0] at h3; exact absurd h3 (by simp)
      · rw [b2 e he rec w hw]
        rcases a2 rec w hp with ha | ⟨ha, ha'⟩
        · rw [ha]
        · rw [ha, ha']
          cases srv (stream rec) w <;> rfl

end Verif.Preload
