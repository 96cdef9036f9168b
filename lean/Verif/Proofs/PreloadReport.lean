import Verif.Proofs.Preload
import Verif.Spec.PreloadReport

/-! Lemmas for C112. -/

set_option linter.unusedSimpArgs false

namespace Verif.Preload
open Verif.Catalog Verif.Waveform Verif.Access Verif.AccessSpec Verif.PreloadSpec

theorem readable_eq (fs : Files) (p : List Char) : readable fs p = (fromCache fs p).isSome := by
  unfold readable fromCache
  cases fs.find? p with
  | none => rfl
  | some f => cases f <;> rfl

theorem fileOf_eq {s : Settings} {x : TimeWindow × Phase ℝ} {w : TimeWindow}
    (h : windowToLoad s.before s.after x.1 x.2.time = .ok w) : fileOf s x = phaseId w x.2 := by
  unfold fileOf
  rw [h]

theorem foldlM_cons {γ σ : Type} {f : σ → γ → Outcome σ} {a : γ} {l : List γ} {s s' : σ}
    (h : (a :: l).foldlM f s = .ok s') : ∃ s1, f s a = .ok s1 ∧ l.foldlM f s1 = .ok s' := by
  rw [List.foldlM_cons, bind_eq_ok] at h
  exact h

theorem foldlM_cons_of {γ σ : Type} {f : σ → γ → Outcome σ} {a : γ} {l : List γ} {s s1 s' : σ}
    (h1 : f s a = .ok s1) (h2 : l.foldlM f s1 = .ok s') : (a :: l).foldlM f s = .ok s' := by
  rw [List.foldlM_cons, bind_eq_ok]
  exact ⟨s1, h1, h2⟩

/-! ## one load -/

theorem askC_spec {s : Settings} {fs : Files} {b b' : Batch ℝ × Nat} {x : TimeWindow × Phase ℝ} (h : askC s fs b x = .ok b') :
    ask s fs b.1 x = .ok b'.1 ∧ b'.2 = b.2 + (if readable fs (fileOf s x) then 1 else 0) := by
  unfold askC at h
  rw [bind_eq_ok] at h
  obtain ⟨w, hw, h⟩ := h
  rw [readable_eq, fileOf_eq hw]
  unfold ask
  rw [hw, Outcome.bind_ok, diskGet_calls]
  cases hc : fromCache fs (phaseId w x.2) with
  | some t =>
    rw [hc] at h
    cases h
    simp
  | none =>
    rw [hc] at h
    simp only at h
    rw [bind_eq_ok] at h
    obtain ⟨b1, h1, h⟩ := h
    cases h
    simp [h1]

theorem keepC_spec {s : Settings} {ev : Nat} {b : Batch ℝ} {fs fs' : Files × Nat} {x : TimeWindow × Phase ℝ}
    (h : keepC s ev b fs x = .ok fs') :
    keep s ev b fs.1 x = .ok fs'.1 ∧ fs'.2 = fs.2 + (if readable fs.1 (fileOf s x) then 1 else 0) := by
  unfold keepC at h
  rw [bind_eq_ok] at h
  obtain ⟨w, hw, h⟩ := h
  rw [readable_eq, fileOf_eq hw]
  unfold keep
  rw [hw, Outcome.bind_ok]
  cases hc : fromCache fs.1 (phaseId w x.2) with
  | some t =>
    rw [hc] at h
    cases h
    simp
  | none =>
    rw [hc] at h
    simp only at h
    rw [bind_eq_ok] at h
    obtain ⟨r, h1, h⟩ := h
    cases h
    simp only [h1, Outcome.bind_ok]
    simp

theorem askC_of {s : Settings} {fs : Files} {b b' : Batch ℝ} {x : TimeWindow × Phase ℝ} (h : ask s fs b x = .ok b') (n : Nat) :
    ∃ n', askC s fs (b, n) x = .ok (b', n') := by
  unfold ask at h
  rw [bind_eq_ok] at h
  obtain ⟨w, hw, h⟩ := h
  rw [diskGet_calls] at h
  unfold askC
  rw [hw, Outcome.bind_ok]
  cases hc : fromCache fs (phaseId w x.2) with
  | some t =>
    rw [hc] at h
    simp at h
    cases h
    exact ⟨_, rfl⟩
  | none =>
    rw [hc] at h
    simp at h
    simp only [h, Outcome.bind_ok]
    exact ⟨_, rfl⟩

theorem keepC_of {s : Settings} {ev : Nat} {b : Batch ℝ} {fs fs' : Files} {x : TimeWindow × Phase ℝ}
    (h : keep s ev b fs x = .ok fs') (n : Nat) : ∃ n', keepC s ev b (fs, n) x = .ok (fs', n') := by
  unfold keep at h
  rw [bind_eq_ok] at h
  obtain ⟨w, hw, h⟩ := h
  unfold keepC
  rw [hw, Outcome.bind_ok]
  cases hc : fromCache fs (phaseId w x.2) with
  | some t =>
    rw [hc] at h
    cases h
    exact ⟨_, by simp [hc]; rfl⟩
  | none =>
    rw [hc] at h
    simp only at h
    rw [bind_eq_ok] at h
    obtain ⟨r, h1, h⟩ := h
    cases h
    simp only [hc, h1, Outcome.bind_ok]
    exact ⟨_, rfl⟩

/-! ## the passes -/

theorem asksC {s : Settings} {fs : Files} (l : List (TimeWindow × Phase ℝ)) {b b' : Batch ℝ × Nat}
    (h : l.foldlM (askC s fs) b = .ok b') :
    l.foldlM (ask s fs) b.1 = .ok b'.1 ∧ b'.2 = b.2 + (l.map (fileOf s)).countP (readable fs) := by
  induction l generalizing b with
  | nil =>
    cases h
    exact ⟨rfl, rfl⟩
  | cons x l ih =>
    obtain ⟨b1, h1, h2⟩ := foldlM_cons h
    obtain ⟨h3, h4⟩ := askC_spec h1
    obtain ⟨h5, h6⟩ := ih h2
    refine ⟨foldlM_cons_of h3 h5, ?_⟩
    rw [h6, h4, List.map_cons, List.countP_cons]
    omega

theorem asksC_of {s : Settings} {fs : Files} (l : List (TimeWindow × Phase ℝ)) {b b' : Batch ℝ}
    (h : l.foldlM (ask s fs) b = .ok b') (n : Nat) : ∃ n', l.foldlM (askC s fs) (b, n) = .ok (b', n') := by
  induction l generalizing b n with
  | nil =>
    cases h
    exact ⟨n, rfl⟩
  | cons x l ih =>
    obtain ⟨b1, h1, h2⟩ := foldlM_cons h
    obtain ⟨n1, h3⟩ := askC_of h1 n
    obtain ⟨n2, h4⟩ := ih h2 n1
    exact ⟨n2, foldlM_cons_of h3 h4⟩

theorem keepsC_of {s : Settings} {ev : Nat} {b : Batch ℝ} (l : List (TimeWindow × Phase ℝ)) {fs fs' : Files}
    (h : l.foldlM (keep s ev b) fs = .ok fs') (n : Nat) : ∃ n', l.foldlM (keepC s ev b) (fs, n) = .ok (fs', n') := by
  induction l generalizing fs n with
  | nil =>
    cases h
    exact ⟨n, rfl⟩
  | cons x l ih =>
    obtain ⟨b1, h1, h2⟩ := foldlM_cons h
    obtain ⟨n1, h3⟩ := keepC_of h1 n
    obtain ⟨n2, h4⟩ := ih h2 n1
    exact ⟨n2, foldlM_cons_of h3 h4⟩

theorem grows_file {s : Settings} {ev : Nat} {b : Batch ℝ} {fs fs' : Files} {x : TimeWindow × Phase ℝ}
    (h : keep s ev b fs x = .ok fs') : Grows (fun p => p = fileOf s x) fs fs' :=
  (grows_keep h).mono fun p ⟨w, hw, hp⟩ => by rw [hp, fileOf_eq hw]

theorem Grows.readable_mono {A : List Char → Prop} {fs fs' : Files} (h : Grows A fs fs') (p : List Char)
    (hr : PreloadSpec.readable fs p = true) : PreloadSpec.readable fs' p = true := by
  rw [readable_eq] at hr ⊢
  obtain ⟨t, ht⟩ := Option.isSome_iff_exists.1 hr
  rw [h.readable p t ht]
  rfl

theorem Grows.readable_other {A : List Char → Prop} {fs fs' : Files} (h : Grows A fs fs') {p : List Char} (hp : ¬ A p) :
    PreloadSpec.readable fs' p = PreloadSpec.readable fs p := by
  rw [readable_eq, readable_eq, fromCache_congr (h.other p hp)]

theorem countP_le_of {l : List (List Char)} {f g : List Char → Bool} (h : ∀ p ∈ l, f p = true → g p = true) :
    l.countP f ≤ l.countP g := List.countP_mono_left h

/-- what a pass or more does to the files and the counter of the disk cache -/
structure Counts (k : Nat) (fs fs' : Files) (n n' : Nat) (names : List (List Char)) : Prop where
  grows : Grows (fun p => p ∈ names) fs fs'
  lower : n + k * names.countP (readable fs) ≤ n'
  upper : n' ≤ n + k * names.length
  exact : names.Nodup → n' = n + k * names.countP (readable fs)

theorem Counts.append {k : Nat} {f1 f2 f3 : Files} {n1 n2 n3 : Nat} {l l' : List (List Char)} (h : Counts k f1 f2 n1 n2 l)
    (h' : Counts k f2 f3 n2 n3 l') : Counts k f1 f3 n1 n3 (l ++ l') := by
  refine ⟨(h.grows.mono fun p hp => List.mem_append_left _ hp).trans (h'.grows.mono fun p hp => List.mem_append_right _ hp), ?_, ?_, ?_⟩
  · have h1 := h.lower
    have h2 := h'.lower
    have h3 : l'.countP (readable f1) ≤ l'.countP (readable f2) := countP_le_of fun p _ hp => h.grows.readable_mono p hp
    have h4 := Nat.mul_le_mul_left k h3
    rw [List.countP_append, Nat.mul_add]
    omega
  · have h1 := h.upper
    have h2 := h'.upper
    rw [List.length_append, Nat.mul_add]
    omega
  · intro hnd
    obtain ⟨hn1, hn2, hdis⟩ := List.nodup_append.1 hnd
    have h1 := h.exact hn1
    have h2 := h'.exact hn2
    have h3 : l'.countP (readable f2) = l'.countP (readable f1) := by
      refine List.countP_congr fun p hp => ?_
      rw [h.grows.readable_other fun hq => hdis p hq p hp rfl]
    rw [List.countP_append, Nat.mul_add, h2, h1, h3]
    omega

theorem keepsC {s : Settings} {ev : Nat} {b : Batch ℝ} (l : List (TimeWindow × Phase ℝ)) {fs fs' : Files × Nat}
    (h : l.foldlM (keepC s ev b) fs = .ok fs') :
    l.foldlM (keep s ev b) fs.1 = .ok fs'.1 ∧ Counts 1 fs.1 fs'.1 fs.2 fs'.2 (l.map (fileOf s)) := by
  induction l generalizing fs with
  | nil =>
    cases h
    exact ⟨rfl, Grows.refl, by simp, by simp, fun _ => by simp⟩
  | cons x l ih =>
    obtain ⟨f1, h1, h2⟩ := foldlM_cons h
    obtain ⟨h3, h4⟩ := keepC_spec h1
    obtain ⟨h5, h6⟩ := ih h2
    refine ⟨foldlM_cons_of h3 h5, ?_⟩
    have : Counts 1 fs.1 f1.1 fs.2 f1.2 [fileOf s x] := by
      refine ⟨(grows_file h3).mono fun p hp => by simp [hp], ?_, ?_, fun _ => ?_⟩
      all_goals
        rw [h4]
        by_cases hr : readable fs.1 (fileOf s x) = true
        · simp [hr]
        · simp [hr]
    exact this.append h6

/-! ## one event -/

theorem reply_fold (rs : List (Batch.Reply ℝ)) (b : Batch ℝ) :
    (rs.foldl Batch.reply b).downloaded = b.downloaded + rs.countP (fun r => match r with | .traceLoaded .. => true | _ => false) ∧
    (rs.foldl Batch.reply b).noAvail = b.noAvail + rs.countP (fun r => match r with | .traceFailed .. => true | _ => false) := by
  induction rs generalizing b with
  | nil => simp
  | cons r rs ih =>
    obtain ⟨h1, h2⟩ := ih (b.reply r)
    rw [List.foldl_cons, h1, h2, List.countP_cons, List.countP_cons]
    cases r <;> simp [Batch.reply] <;> omega

theorem load_counts {srv : String → TimeWindow → Option (Trace ℝ)} {b : Batch ℝ} (hl : b.loaded = false) (hd : b.downloaded = 0)
    (hn : b.noAvail = 0) :
    (b.load (answers srv)).1.downloaded = ((b.load (answers srv)).2.toList.flatten).countP (fun y => (srv y.1 y.2).isSome) ∧
    (b.load (answers srv)).1.noAvail = ((b.load (answers srv)).2.toList.flatten).countP (fun y => (srv y.1 y.2).isNone) := by
  unfold Batch.load
  rw [hl]
  simp only [Bool.false_eq_true, if_false]
  by_cases hr : 0 < b.requests.length
  · rw [if_pos hr]
    obtain ⟨h1, h2⟩ := reply_fold (answers srv b.requests) b
    simp only [h1, h2, hd, hn, Option.toList_some, List.flatten_cons, List.flatten_nil, List.append_nil, Nat.zero_add]
    unfold answers
    rw [List.countP_map, List.countP_map]
    constructor
    · refine List.countP_congr fun y _ => ?_
      simp only [Function.comp]
      cases srv y.1 y.2 <;> simp
    · refine List.countP_congr fun y _ => ?_
      simp only [Function.comp]
      cases srv y.1 y.2 <;> simp
  · rw [if_neg hr]
    simp [hd, hn]

theorem request_counts {b b' : Batch ℝ} {w : TimeWindow} {st : String} (h : b.request w st = .ok b') :
    b'.loaded = b.loaded ∧ b'.downloaded = b.downloaded ∧ b'.noAvail = b.noAvail := by
  unfold Batch.request at h
  split at h
  · cases h
  · split at h <;> cases h <;> exact ⟨rfl, rfl, rfl⟩

theorem asks_counts {s : Settings} {fs : Files} (l : List (TimeWindow × Phase ℝ)) {b b' : Batch ℝ}
    (h : l.foldlM (ask s fs) b = .ok b') : b'.loaded = b.loaded ∧ b'.downloaded = b.downloaded ∧ b'.noAvail = b.noAvail := by
  refine foldlM_inv (R := fun b b' : Batch ℝ => b'.loaded = b.loaded ∧ b'.downloaded = b.downloaded ∧ b'.noAvail = b.noAvail)
    (fun _ => ⟨rfl, rfl, rfl⟩) (fun a b c h1 h2 => ⟨h2.1.trans h1.1, h2.2.1.trans h1.2.1, h2.2.2.trans h1.2.2⟩) (fun x _ b b' hb => ?_) h
  unfold ask at hb
  rw [bind_eq_ok] at hb
  obtain ⟨w, -, hb⟩ := hb
  split at hb
  · exact request_counts hb
  · cases hb
    exact ⟨rfl, rfl, rfl⟩

theorem eventC_spec {s : Settings} {cat : Catalog ℝ} {st st' : State × Counters} {ev : Event ℝ}
    (h : eventC s cat st ev = .ok st') :
    event s cat st.1 ev = .ok st'.1 ∧ Counts 2 st.1.files st'.1.files st.2.cached st'.2.cached (filesOf s cat ev) ∧
    ∃ d, st'.1.downloads = st.1.downloads ++ d ∧ ∀ srv, s.source = answers srv →
      st'.2.downloaded = st.2.downloaded + d.flatten.countP (fun y => (srv y.1 y.2).isSome) ∧
      st'.2.noAvail = st.2.noAvail + d.flatten.countP (fun y => (srv y.1 y.2).isNone) := by
  unfold eventC at h
  rw [bind_eq_ok] at h
  obtain ⟨ls, hls, h⟩ := h
  rw [bind_eq_ok] at h
  obtain ⟨b, hb, h⟩ := h
  rw [bind_eq_ok] at h
  obtain ⟨fs, hfs, h⟩ := h
  cases h
  obtain ⟨ha, hn⟩ := asksC ls hb
  obtain ⟨hk, hc⟩ := keepsC ls hfs
  have hnames : filesOf s cat ev = ls.map (fileOf s) := by
    unfold filesOf
    rw [hls]
  refine ⟨?_, ?_, _, rfl, ?_⟩
  · unfold event
    rw [hls, Outcome.bind_ok, ha, Outcome.bind_ok, hk, Outcome.bind_ok]
  · rw [hnames]
    have h1 := hc.lower
    have h2 := hc.upper
    have h3 : (ls.map (fileOf s)).countP (readable st.1.files) ≤ (ls.map (fileOf s)).length := List.countP_le_length
    simp only at hn h1 h2
    refine ⟨hc.grows, ?_, ?_, fun hnd => ?_⟩
    · simp only
      omega
    · simp only
      omega
    · have h4 := hc.exact hnd
      simp only at h4 ⊢
      omega
  · intro srv hsrv
    obtain ⟨h1, h2, h3⟩ := asks_counts ls ha
    obtain ⟨h4, h5⟩ := load_counts (srv := srv) (b := b.1) h1 h2 h3
    simp only [Counters.update, hsrv, h4, h5, and_self]

theorem eventC_of {s : Settings} {cat : Catalog ℝ} {st st' : State} {ev : Event ℝ} (h : event s cat st ev = .ok st')
    (c : Counters) : ∃ c', eventC s cat (st, c) ev = .ok (st', c') := by
  unfold event at h
  rw [bind_eq_ok] at h
  obtain ⟨ls, hls, h⟩ := h
  rw [bind_eq_ok] at h
  obtain ⟨b, hb, h⟩ := h
  rw [bind_eq_ok] at h
  obtain ⟨fs, hfs, h⟩ := h
  cases h
  obtain ⟨n, hn⟩ := asksC_of ls hb c.cached
  obtain ⟨m, hm⟩ := keepsC_of ls hfs n
  unfold eventC
  rw [hls, Outcome.bind_ok]
  simp only [hn, Outcome.bind_ok, hm]
  exact ⟨_, rfl⟩

/-! ## all events -/

theorem eventsC {s : Settings} {cat : Catalog ℝ} (evs : List (Event ℝ)) {st st' : State × Counters}
    (h : evs.foldlM (eventC s cat) st = .ok st') :
    evs.foldlM (event s cat) st.1 = .ok st'.1 ∧
    Counts 2 st.1.files st'.1.files st.2.cached st'.2.cached (evs.flatMap (filesOf s cat)) ∧
    ∃ d, st'.1.downloads = st.1.downloads ++ d ∧ ∀ srv, s.source = answers srv →
      st'.2.downloaded = st.2.downloaded + d.flatten.countP (fun y => (srv y.1 y.2).isSome) ∧
      st'.2.noAvail = st.2.noAvail + d.flatten.countP (fun y => (srv y.1 y.2).isNone) := by
  induction evs generalizing st with
  | nil =>
    cases h
    exact ⟨rfl, ⟨Grows.refl, by simp, by simp, fun _ => by simp⟩, [], by simp, fun _ _ => by simp⟩
  | cons ev evs ih =>
    obtain ⟨s1, h1, h2⟩ := foldlM_cons h
    obtain ⟨a1, a2, d1, a3, a4⟩ := eventC_spec h1
    obtain ⟨b1, b2, d2, b3, b4⟩ := ih h2
    refine ⟨foldlM_cons_of a1 b1, ?_, d1 ++ d2, by rw [b3, a3, List.append_assoc], fun srv hs => ?_⟩
    · rw [List.flatMap_cons]
      exact a2.append b2
    · obtain ⟨p1, p2⟩ := a4 srv hs
      obtain ⟨q1, q2⟩ := b4 srv hs
      rw [q1, q2, p1, p2, List.flatten_append, List.countP_append, List.countP_append]
      omega

theorem events_run {s : Settings} {cat : Catalog ℝ} (evs : List (Event ℝ)) {st st' : State}
    (h : evs.foldlM (event s cat) st = .ok st') : ∀ ev ∈ evs, ∃ a b, event s cat a ev = .ok b := by
  induction evs generalizing st with
  | nil => intro ev hev; cases hev
  | cons e evs ih =>
    obtain ⟨s1, h1, h2⟩ := foldlM_cons h
    intro ev hev
    rcases List.mem_cons.1 hev with rfl | hev
    · exact ⟨_, _, h1⟩
    · exact ih h2 ev hev

theorem asks_windows {s : Settings} {fs : Files} (l : List (TimeWindow × Phase ℝ)) {b b' : Batch ℝ}
    (h : l.foldlM (ask s fs) b = .ok b') : ∀ x ∈ l, ∃ w, windowToLoad s.before s.after x.1 x.2.time = .ok w := by
  induction l generalizing b with
  | nil => intro x hx; cases hx
  | cons y l ih =>
    obtain ⟨b1, h1, h2⟩ := foldlM_cons h
    intro x hx
    rcases List.mem_cons.1 hx with rfl | hx
    · unfold ask at h1
      rw [bind_eq_ok] at h1
      obtain ⟨w, hw, -⟩ := h1
      exact ⟨w, hw⟩
    · exact ih h2 x hx

theorem eventsC_of {s : Settings} {cat : Catalog ℝ} (evs : List (Event ℝ)) {st st' : State}
    (h : evs.foldlM (event s cat) st = .ok st') (c : Counters) : ∃ c', evs.foldlM (eventC s cat) (st, c) = .ok (st', c') := by
  induction evs generalizing st c with
  | nil =>
    cases h
    exact ⟨c, rfl⟩
  | cons ev evs ih =>
    obtain ⟨s1, h1, h2⟩ := foldlM_cons h
    obtain ⟨c1, h3⟩ := eventC_of h1 c
    obtain ⟨c2, h4⟩ := ih h2 c1
    exact ⟨c2, foldlM_cons_of h3 h4⟩

end Verif.Preload

namespace Verif.Access
open Verif.Catalog Verif.Waveform Verif.Preload

/-- nothing is counted while requests are collected -/
def SameCounts (b b' : Batch ℝ) : Prop := b'.downloaded = b.downloaded ∧ b'.noAvail = b.noAvail

theorem SameCounts.fold {γ : Type} {f : Batch ℝ → γ → Outcome (Batch ℝ)} {l : List γ}
    (h : ∀ c b b', f b c = .ok b' → SameCounts b b') {b b' : Batch ℝ} (hf : l.foldlM f b = .ok b') : SameCounts b b' :=
  foldlM_inv (R := SameCounts) (fun _ => ⟨rfl, rfl⟩) (fun _ _ _ h1 h2 => ⟨h2.1.trans h1.1, h2.2.trans h1.2⟩)
    (fun c _ b b' hb => h c b b' hb) hf

theorem preload_counts {o : Options} {stations : AMap String (Station ℝ)} {e : Env} {cat : Catalog ℝ} {nb : Neighbours}
    {refEv : Event ℝ} {b : Batch ℝ} (h : preload o stations e cat nb refEv = .ok b) : b.downloaded = 0 ∧ b.noAvail = 0 := by
  refine SameCounts.fold (fun rp b b' hb => ?_) h
  unfold preloadPhase at hb
  split at hb
  · cases hb
  · rw [bind_eq_ok] at hb
    obtain ⟨cs, -, hb⟩ := hb
    split at hb
    · cases hb
      exact ⟨rfl, rfl⟩
    · split at hb
      · cases hb
        exact ⟨rfl, rfl⟩
      · refine SameCounts.fold (fun n b b' hb => ?_) hb
        unfold preloadNeighbour at hb
        split at hb
        · cases hb
        · split at hb
          · cases hb
            exact ⟨rfl, rfl⟩
          · split at hb
            · rw [bind_eq_ok] at hb
              obtain ⟨tw, -, hb⟩ := hb
              refine SameCounts.fold (fun c b b' hb => ?_) hb
              unfold askComponent at hb
              rw [bind_eq_ok] at hb
              obtain ⟨r, -, hb⟩ := hb
              split at hb
              · cases hb
                exact ⟨rfl, rfl⟩
              · exact SameCounts.fold (fun x b b' hb => (request_counts hb).2) hb
            · cases hb
              exact ⟨rfl, rfl⟩

end Verif.Access
