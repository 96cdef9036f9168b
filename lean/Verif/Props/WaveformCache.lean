import Verif.Spec.Waveform
import Verif.Proofs.WaveformId

set_option linter.unusedSimpArgs false

/-!
# C37, C38: the waveform caches

`Mem.run` and `diskRun` execute a history of requests and list, for every request, the result and whether
the auxiliary processor or loader was called.
-/

namespace Verif.Waveform
open Verif.Catalog (Phase Event Station)

/-! ## ids -/

/-- Ids of raw waveforms are unambiguous: for codes without dots and times from 1970 on, two requests have
the same id exactly when they ask for the same stream and the same window. -/
theorem waveform_id_injective {D : Type} {tw tw' : TimeWindow} {p q : Phase D} (hp : PlainPhase p) (hq : PlainPhase q)
    (ht : PlainWindow tw) (ht' : PlainWindow tw') :
    phaseId tw p = phaseId tw' q ↔ tw = tw' ∧ SameStream p q := by
  constructor
  · intro h
    obtain ⟨a, b, c, d, e, f⟩ := waveformId_inj hp.1 hp.2.1 hp.2.2.1 hp.2.2.2 hq.1 hq.2.1 hq.2.2.1 hq.2.2.2 h
    refine ⟨?_, String.ext a, String.ext b, String.ext c, String.ext d⟩
    have e := Utc.utc_text_injective_partial ht.1.1 ht'.1.1 ht.1.2 ht'.1.2 e
    have f := Utc.utc_text_injective_partial ht.2.1 ht'.2.1 ht.2.2 ht'.2.2 f
    cases tw; cases tw'; simp_all
  · rintro ⟨rfl, h1, h2, h3, h4⟩
    unfold phaseId
    rw [h1, h2, h3, h4]

/-- Dots in a code make ids collide: network `A.B` with station `C` and network `A` with station `B.C`. -/
theorem waveform_id_dot_collision (tw : TimeWindow) :
    waveformId tw "A.B".toList "C".toList "D".toList "E".toList =
      waveformId tw "A".toList "B.C".toList "D".toList "E".toList := by
  simp [waveformId]

theorem bandAndInstrument_noDot {l : List Char} (h : '.' ∉ l) : '.' ∉ bandAndInstrument l := by
  unfold bandAndInstrument
  split
  · exact fun hc => h (List.mem_of_mem_take hc)
  · simp

theorem bandAndInstrument_length (l : List Char) : (bandAndInstrument l).length = 2 ∨ bandAndInstrument l = [] := by
  unfold bandAndInstrument
  split
  · left; simp; omega
  · right; rfl

/-- the channel part of a request's id -/
def idChannel (r : Request) : List Char :=
  match r.trans with
  | .none => r.ph.channelCode.toList
  | .transversal => bandAndInstrument r.ph.channelCode.toList ++ ['T']
  | .radial => bandAndInstrument r.ph.channelCode.toList ++ ['R']
  | .l2 => bandAndInstrument r.ph.channelCode.toList ++ ['L']

theorem Request.id_eq (r : Request) : r.id = waveformId r.tw r.ph.networkCode.toList r.ph.stationCode.toList
    r.ph.locationCode.toList (idChannel r) := by
  unfold Request.id transformId idChannel phaseId
  cases r.trans <;> rfl

theorem idChannel_noDot {r : Request} (h : PlainRequest r) : '.' ∉ idChannel r := by
  have hc := h.1.2.2.2
  have hb := bandAndInstrument_noDot hc
  unfold idChannel
  cases r.trans <;> simp [hc, hb]

/-- For plain requests the id of a processed waveform determines window, stream and transformation. -/
theorem request_id_injective {r s : Request} (hr : PlainRequest r) (hs : PlainRequest s) :
    r.id = s.id ↔ SameWaveform r s := by
  constructor
  · intro h
    rw [Request.id_eq, Request.id_eq] at h
    obtain ⟨a, b, c, d, e, f⟩ := waveformId_inj hr.1.1 hr.1.2.1 hr.1.2.2.1 (idChannel_noDot hr)
      hs.1.1 hs.1.2.1 hs.1.2.2.1 (idChannel_noDot hs) h
    have e := Utc.utc_text_injective_partial hr.2.1.1.1 hs.2.1.1.1 hr.2.1.1.2 hs.2.1.1.2 e
    have f := Utc.utc_text_injective_partial hr.2.1.2.1 hs.2.1.2.1 hr.2.1.2.2 hs.2.1.2.2 f
    have hw : r.tw = s.tw := by
      cases h1 : r.tw; cases h2 : s.tw; rw [h1, h2] at e f; simp at e f; rw [e, f]
    have key : r.trans = s.trans ∧ (if r.trans = .none then r.ph.channelCode = s.ph.channelCode
     else bandAndInstrument r.ph.channelCode.toList = bandAndInstrument s.ph.channelCode.toList) := by
      have h1 := hr.2.2
      have h2 := hs.2.2
      have l1 := bandAndInstrument_length r.ph.channelCode.toList
      have l2 := bandAndInstrument_length s.ph.channelCode.toList
      unfold idChannel at d
      generalize r.trans = k at *
      generalize s.trans = k' at *
      cases k <;> cases k' <;> simp only at d
      all_goals first
        | exact absurd d (h1 rfl _ (by simp) _ l2)
        | exact absurd d.symm (h2 rfl _ (by simp) _ l1)
        | (exact ⟨rfl, by simpa using String.ext d⟩)
        | (obtain ⟨x, y⟩ := List.append_inj' d rfl
           simp_all)
    exact ⟨hw, key.1, String.ext a, String.ext b, String.ext c, key.2⟩
  · rintro ⟨h1, h2, h3, h4, h5, h6⟩
    rw [Request.id_eq, Request.id_eq, h1, h3, h4, h5]
    congr 1
    unfold idChannel
    rw [← h2]
    generalize r.trans = k at *
    cases k <;> simp at h6 ⊢ <;> simp [h6]

/-! ## the memory cache -/

/-- Execution of a history; every entry is the id requested and what the auxiliary processor would answer
at that moment. -/
def Mem.run {T : Type} (m : Mem T) : List (List Char × Option T) → List (Option T × Bool)
  | [] => []
  | (k, a) :: h => ((m.get k a).1, (m.get k a).2.2) :: Mem.run (m.get k a).2.1 h

/-- what the cache knows about an id -/
def Mem.known {T : Type} (m : Mem T) (k : List Char) : Option (Option T) :=
  match m.traces.find? k with
  | some t => some (some t)
  | none => if k ∈ m.unloadables then some none else none

theorem Mem.get_known {T : Type} (m : Mem T) (k : List Char) (a : Option T) :
    ((m.get k a).1, (m.get k a).2.2) = (match m.known k with | some x => (x, false) | none => (a, true)) ∧
    ∀ k', (m.get k a).2.1.known k' = match m.known k' with
      | some x => some x
      | none => if k' = k then some a else none := by
  unfold Mem.get Mem.known
  cases h : m.traces.find? k with
  | some t =>
    refine ⟨rfl, fun k' => ?_⟩
    simp only
    by_cases hk : k' = k
    · subst hk; rw [h]
    · cases m.traces.find? k' with
      | some _ => rfl
      | none => simp only; split <;> simp [hk]
  | none =>
    by_cases hu : k ∈ m.unloadables
    · simp only [hu, if_true]
      refine ⟨trivial, fun k' => ?_⟩
      by_cases hk : k' = k
      · subst hk; simp [h, hu]
      · cases m.traces.find? k' with
        | some _ => rfl
        | none => simp only; split <;> simp [hk]
    · simp only [hu, if_false]
      cases a with
      | some t =>
        refine ⟨rfl, fun k' => ?_⟩
        simp only [AMap.find?_set]
        by_cases hk : k' = k
        · subst hk; simp [h, hu]
        · simp only [hk, if_false]
          cases m.traces.find? k' with
          | some _ => rfl
          | none => simp only; split <;> rfl
      | none =>
        refine ⟨rfl, fun k' => ?_⟩
        simp only
        by_cases hk : k' = k
        · subst hk; simp [h, hu]
        · cases m.traces.find? k' with
          | some _ => rfl
          | none =>
            simp only [List.mem_cons, hk, false_or, if_false]
            split <;> rfl

theorem Mem.run_spec {T : Type} (past : List (List Char × Option T)) (m : Mem T) (r : List Char × Option T)
    (future : List (List Char × Option T)) :
    (m.run (past ++ r :: future))[past.length]? =
      some (match m.known r.1 with
        | some x => (x, false)
        | none => match firstAnswer past r.1 with
          | some x => (x, false)
          | none => (r.2, true)) := by
  induction past generalizing m with
  | nil =>
    simp only [List.nil_append, List.length_nil, Mem.run, List.getElem?_cons_zero, firstAnswer, List.find?_nil,
      Option.map_none]
    exact congrArg some (m.get_known r.1 r.2).1
  | cons p past ih =>
    simp only [List.cons_append, List.length_cons, Mem.run, List.getElem?_cons_succ]
    rw [ih, (m.get_known p.1 p.2).2]
    cases m.known r.1 with
    | some x => rfl
    | none =>
      simp only [firstAnswer, List.find?_cons]
      by_cases hk : r.1 = p.1
      · simp [hk]
      · have : ¬ p.1 = r.1 := fun h => hk h.symm
        simp [hk, this]

/-- **C37a.** In every history, whatever the auxiliary processor answers and when, a request is passed on
exactly if its id was never requested before, and otherwise gets the first answer given for that id — also
when that answer was that the waveform is not available. -/
theorem memcache_first_answer {T : Type} (past : List (List Char × Option T)) (r : List Char × Option T)
    (future : List (List Char × Option T)) :
    (Mem.init.run (past ++ r :: future))[past.length]? =
      some (match firstAnswer past r.1 with
        | some x => (x, false)
        | none => (r.2, true)) := by
  rw [Mem.run_spec]
  simp [Mem.known, Mem.init]

example : Mem.init.run [(['a'], none), (['b'], some 1), (['a'], some 2), (['b'], none)] =
    [((none : Option Nat), true), (some 1, true), (none, false), (some 1, false)] := by decide +kernel

theorem Mem.run_transparent {T : Type} {R : Type} (id : R → List Char) (f : R → Option T) (rs : List R) (m : Mem T)
    (hm : ∀ r ∈ rs, ∀ a, m.known (id r) = some a → a = f r)
    (hid : ∀ r ∈ rs, ∀ s ∈ rs, id r = id s → f r = f s) :
    (m.run (rs.map (fun r => (id r, f r)))).map (·.1) = rs.map f := by
  induction rs generalizing m with
  | nil => rfl
  | cons r rs ih =>
    simp only [List.map_cons, Mem.run]
    obtain ⟨h1, h2⟩ := m.get_known (id r) (f r)
    have h1 := congrArg Prod.fst h1
    simp only at h1
    rw [h1, ih]
    · congr 1
      cases hk : m.known (id r) with
      | none => rfl
      | some x => exact hm r (by simp) x hk
    · intro s hs a ha
      rw [h2] at ha
      cases hk : m.known (id s) with
      | some x =>
        rw [hk] at ha
        injection ha with ha
        subst ha
        exact hm s (by simp [hs]) _ hk
      | none =>
        rw [hk] at ha
        simp only at ha
        split at ha
        · rename_i he
          injection ha with ha
          rw [← ha]
          exact hid r (by simp) s (by simp [hs]) he.symm
        · cases ha
    · exact fun a ha b hb => hid a (by simp [ha]) b (by simp [hb])

/-- the loader and the component information only depend on the stream -/
def Env.ByStream (e : Env) : Prop :=
  (∀ tw p q, SameStream p q → e.load tw p = e.load tw q) ∧
  (∀ p q, p.networkCode = q.networkCode → p.stationCode = q.stationCode → p.locationCode = q.locationCode →
    bandAndInstrument p.channelCode.toList = bandAndInstrument q.channelCode.toList → e.components p = e.components q)

theorem process_congr {e : Env} (he : e.ByStream) {r s : Request} (hw : SameWaveform r s) (hp : SameProcessing r s) :
    process e r = process e s := by
  obtain ⟨h1, h2, h3, h4, h5, h6⟩ := hw
  obtain ⟨p1, p2, p3⟩ := hp
  have hl : ∀ ch, loadAndProcess e r.tw r.ph ch r.filterStr r.resampleFreq =
      loadAndProcess e s.tw s.ph ch s.filterStr s.resampleFreq := by
    intro ch
    unfold loadAndProcess
    rw [h1, p1, p2, he.1 _ { r.ph with channelCode := ch } { s.ph with channelCode := ch } ⟨h3, h4, h5, rfl⟩]
  unfold process
  rw [← h2]
  cases hk : r.trans with
  | none =>
    rw [hk] at h6
    simp only [if_true] at h6
    simp only
    rw [hl, h6]
  | l2 =>
    rw [hk] at h6
    simp only [reduceCtorEq, if_false] at h6
    simp only [he.2 _ _ h3 h4 h5 h6, hl]
  | transversal =>
    rw [hk] at h6
    simp only [reduceCtorEq, if_false] at h6
    obtain ⟨q1, q2, q3, q4⟩ := p3 (Or.inr hk)
    simp only [he.2 _ _ h3 h4 h5 h6, hl, q1, q2, q3, q4]
  | radial =>
    rw [hk] at h6
    simp only [reduceCtorEq, if_false] at h6
    obtain ⟨q1, q2, q3, q4⟩ := p3 (Or.inl hk)
    simp only [he.2 _ _ h3 h4 h5 h6, hl, q1, q2, q3, q4]

/-- **C37b.** The memory cache is transparent for every history of plain requests in which requests for the
same window, stream and transformation also have the same filter and sampling frequency and, for rotated
components, the same event and station position: every request gets what the processor would return.
Missing for the full C37: those parameters are not part of the key, see below. -/
theorem memcache_transparent_partial (e : Env) (he : e.ByStream) (rs : List Request) (f : Request → Option (Trace ℝ))
    (hf : ∀ r ∈ rs, process e r = .ok (f r))
    (hplain : ∀ r ∈ rs, PlainRequest r)
    (hsame : ∀ r ∈ rs, ∀ s ∈ rs, SameWaveform r s → SameProcessing r s) :
    (Mem.init.run (rs.map (fun r => (r.id, f r)))).map (·.1) = rs.map f := by
  apply Mem.run_transparent
  · intro r _ a ha
    simp [Mem.known, Mem.init] at ha
  · intro r hr s hs h
    have hw := (request_id_injective (hplain r hr) (hplain s hs)).1 h
    have := process_congr he hw (hsame r hr s hs hw)
    rw [hf r hr, hf s hs] at this
    injection this

namespace Example

/-- a phase on a channel of station CH.A, picked one second after 1970 -/
def phase (channel : String) : Phase ℝ :=
  { eventId := 1, stationId := "CH.A.", time := 1000000, lowerUncertainty := 0, upperUncertainty := 0, type := "P",
    networkCode := "CH", stationCode := "A", locationCode := "", channelCode := channel, procType := .P,
    classWeight := 0, source := .catalog, isRelocated := false, weight := 0, startResidual := 0, finalResidual := 0 }

def event (lat : ℝ) : Event ℝ :=
  { id := 1, time := 0, latitude := lat, longitude := 8, depth := 5, magnitude := 1, isRelocated := false, startRms := 0,
    finalRms := 0 }

def station : Station ℝ :=
  { id := "CH.A.", latitude := 47, longitude := 8, elevation := 0, networkCode := "CH", stationCode := "A", locationCode := "" }

/-- the first second after 1970 -/
def second : TimeWindow := ⟨0, 1000000⟩

/-- Every stream delivers two samples, filter "B" fails, other filters do nothing.  The first horizontal
component points north, the second east, the vertical one up. -/
noncomputable def env : Env where
  load _ _ := some ⟨0, 1, [1, 3]⟩
  wf name t := if name = "B" then none else some t
  components _ := some (fun _ => "HHX", ⟨![-90, 0, 0], ![0, 0, 90]⟩)
  extra := 0

noncomputable def request (channel filter : String) (lat : ℝ) (trans : Transform) : Request :=
  ⟨second, phase channel, event lat, station, filter, 0, trans⟩

theorem env_byStream : env.ByStream := ⟨fun _ _ _ _ => rfl, fun _ _ _ _ _ _ => rfl⟩

theorem load_env (channel filter : String) (ch : String) :
    loadAndProcess env second (phase channel) ch filter 0 =
      .ok (if filter = "B" then none else some ⟨0, 1, [-1, 1]⟩) := by
  have hd : Waveform.demean ⟨0, 1, [1, 3]⟩ = ⟨0, 1, [-1, 1]⟩ := by
    unfold Waveform.demean; norm_num
  have hs : Trace.slice (⟨0, 1, [-1, 1]⟩ : Trace ℝ) second = some (true, ⟨0, 1, [-1, 1]⟩) := by
    have : Trace.timeWindow (⟨0, 1, [-1, 1]⟩ : Trace ℝ) = second := by
      simp only [Trace.timeWindow, Trace.endTime, List.length_cons, List.length_nil]
      decide +kernel
    unfold Trace.slice
    rw [if_pos this]
  unfold loadAndProcess env Waveform.filter
  simp only [hd, gt_iff_lt, lt_self_iff_false, if_false]
  by_cases hB : filter = "B"
  · subst hB; simp
  · by_cases he : filter = ""
    · subst he; simp [sliced, hs]
    · simp [hB, he, sliced, hs]

theorem plain (channel filter : String) (lat : ℝ) (h : '.' ∉ channel.toList) :
    PlainPhase (request channel filter lat .none).ph ∧ PlainWindow (request channel filter lat .none).tw := by
  refine ⟨⟨by show '.' ∉ "CH".toList; decide, by show '.' ∉ "A".toList; decide, by show '.' ∉ "".toList; decide, h⟩, ?_⟩
  show PlainWindow second
  unfold PlainWindow PlainTime second
  decide +kernel

/-- The hypotheses of `memcache_transparent_partial` are met by a history of three requests, two of which
are for the same waveform. -/
example : (Mem.init.run ([request "HHZ" "A" 46 .none, request "HHN" "A" 46 .none, request "HHZ" "A" 48 .none].map
      (fun r => (r.id, some ⟨0, 1, [-1, 1]⟩)))).map (·.1) =
    [some ⟨0, 1, [-1, 1]⟩, some ⟨0, 1, [-1, 1]⟩, some (⟨0, 1, [-1, 1]⟩ : Trace ℝ)] := by
  have key := memcache_transparent_partial env env_byStream
    [request "HHZ" "A" 46 .none, request "HHN" "A" 46 .none, request "HHZ" "A" 48 .none]
    (fun _ => some ⟨0, 1, [-1, 1]⟩) ?_ ?_ ?_
  · exact key
  · intro r hr
    have : ∃ ch lat, r = request ch "A" lat .none := by
      simp only [List.mem_cons, List.not_mem_nil, or_false] at hr
      rcases hr with h | h | h <;> exact ⟨_, _, h⟩
    obtain ⟨ch, lat, rfl⟩ := this
    exact (load_env ch "A" ch).trans (by simp)
  · intro r hr
    have : ∃ ch lat, r = request ch "A" lat .none ∧ (ch = "HHZ" ∨ ch = "HHN") := by
      simp only [List.mem_cons, List.not_mem_nil, or_false] at hr
      rcases hr with h | h | h <;> exact ⟨_, _, h, by simp⟩
    obtain ⟨ch, lat, rfl, hch⟩ := this
    refine ⟨(plain ch "A" lat ?_).1, (plain ch "A" lat ?_).2, ?_⟩
    · rcases hch with rfl | rfl <;> decide
    · rcases hch with rfl | rfl <;> decide
    · intro _ c hc root hroot he
      have he := congrArg List.reverse he
      change ch.toList.reverse = _ at he
      rcases hch with rfl | rfl <;> simp at he hc <;> rcases hc with rfl | rfl | rfl <;> simp_all
  · intro r hr s hs _
    simp only [List.mem_cons, List.not_mem_nil, or_false] at hr hs
    rcases hr with rfl | rfl | rfl <;> rcases hs with rfl | rfl | rfl <;>
      exact ⟨rfl, rfl, fun h => by rcases h with h | h <;> cases h⟩

/-- **C37 as stated is false**: the filter is not part of the key.  After a request with filter "A", the same
waveform is requested with filter "B", which the processor cannot provide, and the cache answers with the
waveform filtered with "A". -/
theorem memcache_ignores_filter :
    process env (request "HHZ" "A" 46 .none) = .ok (some ⟨0, 1, [-1, 1]⟩) ∧
    process env (request "HHZ" "B" 46 .none) = .ok none ∧
    Mem.init.run [((request "HHZ" "A" 46 .none).id, some (⟨0, 1, [-1, 1]⟩ : Trace ℝ)),
        ((request "HHZ" "B" 46 .none).id, none)] =
      [(some ⟨0, 1, [-1, 1]⟩, true), (some ⟨0, 1, [-1, 1]⟩, false)] := by
  have hid : (request "HHZ" "B" 46 .none).id = (request "HHZ" "A" 46 .none).id := rfl
  refine ⟨(load_env "HHZ" "A" "HHZ").trans (by simp), (load_env "HHZ" "B" "HHZ").trans (by simp), ?_⟩
  rw [hid]
  simp [Mem.run, Mem.get, Mem.init]

/-- The raw channel `HHL` and the combined horizontal components of `HHZ` have the same key. -/
theorem memcache_key_collision : (request "HHL" "" 46 .none).id = (request "HHZ" "" 46 .l2).id := by
  unfold Request.id transformId phaseId request phase
  congr 1

end Example

/-! ## the disk cache -/

/-- Execution of a history; every entry is the request, what the loader would answer at that moment, and what
would happen to a file written at that moment. -/
def diskRun {D α : Type} (fs : AMap (List Char) (File α)) :
    List (TimeWindow × Phase D × Option (Trace α) × Written) → List (Option (Trace α) × Bool)
  | [] => []
  | (tw, ph, a, w) :: h =>
    ((diskGet fs tw ph a w).1, (diskGet fs tw ph a w).2.2) :: diskRun (diskGet fs tw ph a w).2.1 h

/-- the files after a history -/
def diskAfter {D α : Type} (fs : AMap (List Char) (File α)) :
    List (TimeWindow × Phase D × Option (Trace α) × Written) → AMap (List Char) (File α)
  | [] => fs
  | (tw, ph, a, w) :: h => diskAfter (diskGet fs tw ph a w).2.1 h

section
variable {D α : Type}

theorem store_find (fs : AMap (List Char) (File α)) (p : List Char) (t : Trace α) (w : Written) {q : List Char}
    (h : q ≠ p) : (store fs p t w).find? q = fs.find? q := by
  cases w <;> simp [store, AMap.find?_set, h]

/-- What one request does to the file of any id. -/
theorem diskGet_find (fs : AMap (List Char) (File α)) (tw : TimeWindow) (ph : Phase D) (a : Option (Trace α)) (w : Written)
    (q : List Char) :
    (diskGet fs tw ph a w).2.1.find? q = fs.find? q ∨
      (q = phaseId tw ph ∧ fromCache fs q = none ∧ ∃ t, a = some t ∧
        (diskGet fs tw ph a w).2.1.find? q = (store fs q t w).find? q) := by
  unfold diskGet
  cases h : fromCache fs (phaseId tw ph) with
  | some t => exact Or.inl rfl
  | none =>
    cases a with
    | none => exact Or.inl rfl
    | some t =>
      by_cases hq : q = phaseId tw ph
      · right; subst hq; exact ⟨rfl, h, t, rfl, rfl⟩
      · left; exact store_find _ _ _ _ hq

/-- **C38a.** A failed load stores nothing. -/
theorem disk_cache_failed_load (fs : AMap (List Char) (File α)) (tw : TimeWindow) (ph : Phase D) (w : Written) :
    (diskGet fs tw ph none w).2.1 = fs := by
  unfold diskGet
  split <;> rfl

/-- **C38b.** Once a readable file is there, no history of further requests, whatever the loader answers and
whatever goes wrong with other files, changes it, and every request for it is answered from it without
calling the loader. -/
theorem disk_cache_hit_forever (fs : AMap (List Char) (File α)) (tw : TimeWindow) (ph : Phase D) (t : Trace α)
    (h : fs.find? (phaseId tw ph) = some (.readable t))
    (past : List (TimeWindow × Phase D × Option (Trace α) × Written)) (a : Option (Trace α)) (w : Written)
    (future : List (TimeWindow × Phase D × Option (Trace α) × Written)) :
    (diskAfter fs past).find? (phaseId tw ph) = some (.readable t) ∧
    (diskRun fs (past ++ (tw, ph, a, w) :: future))[past.length]? = some (some t, false) := by
  induction past generalizing fs with
  | nil =>
    refine ⟨h, ?_⟩
    simp only [List.nil_append, List.length_nil, diskRun, List.getElem?_cons_zero]
    unfold diskGet fromCache
    rw [h]
  | cons p past ih =>
    obtain ⟨tw', ph', a', w'⟩ := p
    have : (diskGet fs tw' ph' a' w').2.1.find? (phaseId tw ph) = some (.readable t) := by
      rcases diskGet_find fs tw' ph' a' w' (phaseId tw ph) with h' | ⟨_, hc, _⟩
      · rw [h', h]
      · unfold fromCache at hc; rw [h] at hc; cases hc
    simp only [diskAfter, List.cons_append, List.length_cons, diskRun, List.getElem?_cons_succ]
    exact ih _ this

/-- A successful load whose file is written completely puts the cache in the state of the previous theorem. -/
theorem disk_cache_store (fs : AMap (List Char) (File α)) (tw : TimeWindow) (ph : Phase D) (t : Trace α)
    (h : fromCache fs (phaseId tw ph) = none) :
    (diskGet fs tw ph (some t) .complete).2.1.find? (phaseId tw ph) = some (.readable t) := by
  unfold diskGet
  rw [h]
  simp [store]

/-- **C38c.** The disk cache is transparent in every history of plain requests and for every pattern of failed
writes, provided a write that is interrupted does not leave a readable file: every request gets what the
loader returns.  The loader's answer may only depend on stream and window.  The cache may be empty at the
start or hold files of the same loader.  Missing for the full C38: interrupted writes, see below. -/
theorem disk_cache_transparent_partial (load : TimeWindow → Phase D → Option (Trace α))
    (hload : ∀ tw p q, SameStream p q → load tw p = load tw q)
    (fs : AMap (List Char) (File α))
    (hfs : ∀ tw ph t, PlainWindow tw → PlainPhase ph → fs.find? (phaseId tw ph) = some (.readable t) → load tw ph = some t)
    (hist : List (TimeWindow × Phase D × Written))
    (hplain : ∀ x ∈ hist, PlainWindow x.1 ∧ PlainPhase x.2.1)
    (hwrite : ∀ x ∈ hist, ∀ n, x.2.2 ≠ .truncated n) :
    (diskRun fs (hist.map (fun x => (x.1, x.2.1, load x.1 x.2.1, x.2.2)))).map (·.1) =
      hist.map (fun x => load x.1 x.2.1) := by
  induction hist generalizing fs with
  | nil => rfl
  | cons x hist ih =>
    obtain ⟨tw, ph, w⟩ := x
    have hx := hplain (tw, ph, w) (by simp)
    have hw := hwrite (tw, ph, w) (by simp)
    simp only at hx hw
    simp only [List.map_cons, diskRun]
    rw [ih]
    · congr 1
      unfold diskGet
      cases hc : fromCache fs (phaseId tw ph) with
      | some t =>
        simp only
        unfold fromCache at hc
        split at hc
        · rename_i t' he
          injection hc with hc
          rw [hfs tw ph t' hx.1 hx.2 he, hc]
        · cases hc
      | none => cases load tw ph <;> rfl
    · intro tw' ph' t ht hp hr
      rcases diskGet_find fs tw ph (load tw ph) w (phaseId tw' ph') with h' | ⟨hq, hc, t', ht', h'⟩
      · rw [h'] at hr; exact hfs tw' ph' t ht hp hr
      · obtain ⟨rfl, hs⟩ := (waveform_id_injective hp hx.2 ht hx.1).1 hq
        rw [hload _ _ _ hs, ht']
        rw [h'] at hr
        cases w with
        | complete => simp [store] at hr; rw [hr]
        | nothing =>
          simp only [store] at hr
          unfold fromCache at hc; rw [hr] at hc; cases hc
        | garbage => simp [store] at hr
        | truncated n => exact absurd rfl (hw n)
    · exact fun y hy => hplain y (by simp [hy])
    · exact fun y hy => hwrite y (by simp [hy])

end

/-- the hypotheses are met: three requests, the first write fails, the second one succeeds -/
example : (diskRun [] ([(Example.second, Example.phase "HHZ", Written.garbage), (Example.second, Example.phase "HHZ", .complete),
      (Example.second, Example.phase "HHZ", .complete)].map (fun x => (x.1, x.2.1, some (⟨0, 1, [1, 3]⟩ : Trace Nat), x.2.2)))).map
        (·.1) = [some ⟨0, 1, [1, 3]⟩, some ⟨0, 1, [1, 3]⟩, some ⟨0, 1, [1, 3]⟩] := by
  have hp := Example.plain "HHZ" "" 46 (by decide)
  exact disk_cache_transparent_partial (fun _ _ => some (⟨0, 1, [1, 3]⟩ : Trace Nat)) (fun _ _ _ _ => rfl) []
    (by intro tw ph t _ _ h; simp at h)
    [(Example.second, Example.phase "HHZ", Written.garbage), (Example.second, Example.phase "HHZ", .complete),
      (Example.second, Example.phase "HHZ", .complete)]
    (by intro x hx; simp only [List.mem_cons, List.not_mem_nil, or_false] at hx
        rcases hx with rfl | rfl | rfl <;> exact ⟨hp.2, hp.1⟩)
    (by intro x hx; simp only [List.mem_cons, List.not_mem_nil, or_false] at hx
        rcases hx with rfl | rfl | rfl <;> simp)

/-- **C38 as stated is false when a write is interrupted**: the file is written in place, so after a crash it
holds the records written so far, and every later request gets the shortened trace instead of what the
loader returns. -/
theorem disk_cache_poisoned {D α : Type} (tw : TimeWindow) (ph : Phase D) (t : Trace α) (n : Nat) (h : n < t.data.length)
    (a : Option (Trace α)) (w : Written) :
    ∃ bad : Trace α, bad.data.length < t.data.length ∧
      diskRun [] [(tw, ph, some t, .truncated n), (tw, ph, a, w)] = [(some t, true), (some bad, false)] := by
  refine ⟨{ t with data := t.data.take n }, by simp; omega, ?_⟩
  simp [diskRun, diskGet, fromCache, store]

example : 1 < (⟨0, 1, [1, 3]⟩ : Trace Nat).data.length := by decide

end Verif.Waveform
