import Verif.Model.Requests
import Mathlib.Data.List.Induction
import Mathlib.Order.Lattice
import Mathlib.Order.Defs.LinearOrder

/-!
# C55: waveform requests are merged without losing data
-/

set_option linter.unusedSimpArgs false

namespace Verif.Requests

/-- **Specification.** Same stream: network, station, location and channel. -/
def SameStream (a b : Req) : Prop := a.net = b.net ∧ a.sta = b.sta ∧ a.loc = b.loc ∧ a.ch = b.ch

/-- **Specification.** The window of `a` contains the window of `b`. -/
def Covers (a b : Req) : Prop := a.tw.start ≤ b.tw.start ∧ b.tw.stop ≤ a.tw.stop

theorem merge_fold (joins : TW → TW → Bool) (req : Req) (rest : List Req) (tw : TW) (l0 : List Req)
    (hk : ∀ r ∈ rest, r.key = req.key) :
    let res := rest.foldl (mergeStep joins req) (tw, l0)
    (res.1.start ≤ tw.start ∧ tw.stop ≤ res.1.stop) ∧
    (∀ r ∈ l0, r ∈ res.2) ∧
    (∀ r ∈ rest, r ∈ res.2 ∨ (SameStream req r ∧ res.1.start ≤ r.tw.start ∧ r.tw.stop ≤ res.1.stop)) ∧
    (∀ r ∈ res.2, r ∈ l0 ∨ r ∈ rest) ∧
    res.2.length ≤ l0.length + rest.length ∧
    (res.1.start = tw.start ∨ ∃ r ∈ rest, SameStream req r ∧ res.1.start = r.tw.start) ∧
    (res.1.stop = tw.stop ∨ ∃ r ∈ rest, SameStream req r ∧ res.1.stop = r.tw.stop) := by
  induction rest generalizing tw l0 with
  | nil => simp
  | cons r rest ih =>
    simp only [List.foldl_cons]
    have hkr := hk r (by simp)
    by_cases h : req.loc = r.loc ∧ req.ch = r.ch ∧ joins tw r.tw = true
    · have hss : SameStream req r := by
        simp only [Req.key, Prod.mk.injEq] at hkr
        exact ⟨hkr.1.symm, hkr.2.symm, h.1, h.2.1⟩
      have hstep : mergeStep joins req (tw, l0) r = (tw.merge r.tw, l0) := by
        unfold mergeStep; rw [if_pos h]
      rw [hstep]
      obtain ⟨h1, h2, h3, h4, h5, h6, h7⟩ := ih (tw.merge r.tw) l0 (fun r hr => hk r (by simp [hr]))
      generalize List.foldl (mergeStep joins req) (tw.merge r.tw, l0) rest = res at *
      have hm1 : (tw.merge r.tw).start ≤ tw.start ∧ (tw.merge r.tw).start ≤ r.tw.start ∧
          tw.stop ≤ (tw.merge r.tw).stop ∧ r.tw.stop ≤ (tw.merge r.tw).stop := by
        simp only [TW.merge]; omega
      have hm2 : (tw.merge r.tw).start = tw.start ∨ (tw.merge r.tw).start = r.tw.start := by
        simp only [TW.merge]; omega
      have hm3 : (tw.merge r.tw).stop = tw.stop ∨ (tw.merge r.tw).stop = r.tw.stop := by
        simp only [TW.merge]; omega
      generalize tw.merge r.tw = m at *
      refine ⟨⟨by omega, by omega⟩, h2, ?_, ?_, ?_, ?_, ?_⟩
      · intro x hx
        rcases List.mem_cons.1 hx with rfl | hx
        · right; exact ⟨hss, by omega, by omega⟩
        · exact h3 x hx
      · intro x hx
        rcases h4 x hx with h | h
        · exact .inl h
        · exact .inr (by simp [h])
      · simp only [List.length_cons]; omega
      · rcases h6 with h | ⟨x, hx, h⟩
        · rcases hm2 with e | e
          · left; rw [h, e]
          · right; exact ⟨r, by simp, hss, by rw [h, e]⟩
        · right; exact ⟨x, by simp [hx], h⟩
      · rcases h7 with h | ⟨x, hx, h⟩
        · rcases hm3 with e | e
          · left; rw [h, e]
          · right; exact ⟨r, by simp, hss, by rw [h, e]⟩
        · right; exact ⟨x, by simp [hx], h⟩
    · have hstep : mergeStep joins req (tw, l0) r = (tw, l0 ++ [r]) := by
        unfold mergeStep; rw [if_neg h]
      rw [hstep]
      obtain ⟨h1, h2, h3, h4, h5, h6, h7⟩ := ih tw (l0 ++ [r]) (fun r hr => hk r (by simp [hr]))
      refine ⟨h1, fun x hx => h2 x (by simp [hx]), ?_, ?_, ?_, ?_, ?_⟩
      · intro x hx
        rcases List.mem_cons.1 hx with rfl | hx
        · left; exact h2 x (by simp)
        · exact h3 x hx
      · intro x hx
        rcases h4 x hx with h | h
        · simp at h; rcases h with h | rfl
          · exact .inl h
          · exact .inr (by simp)
        · exact .inr (by simp [h])
      · simp only [List.length_append, List.length_cons, List.length_nil] at h5 ⊢; omega
      · rcases h6 with h | ⟨x, hx, h⟩
        · exact .inl h
        · right; exact ⟨x, by simp [hx], h⟩
      · rcases h7 with h | ⟨x, hx, h⟩
        · exact .inl h
        · right; exact ⟨x, by simp [hx], h⟩

theorem connection_spec (joins : TW → TW → Bool) (l : List Req) :
    let res := connection joins l
    -- one stream per station, and only for stations of the list
    (res.1.map Req.key).Nodup ∧ (∀ s ∈ res.1, s.key ∈ l.map Req.key) ∧
    -- everything is either served or left
    (∀ r ∈ l, r ∈ res.2 ∨ ∃ s ∈ res.1, SameStream s r ∧ Covers s r) ∧
    (∀ r ∈ res.2, r ∈ l) ∧ (l ≠ [] → res.2.length < l.length) ∧
    -- nothing is made up
    (∀ s ∈ res.1, ∃ a ∈ l, ∃ b ∈ l, SameStream s a ∧ SameStream s b ∧ s.tw = ⟨a.tw.start, b.tw.stop⟩) := by
  induction hn : l.length using Nat.strong_induction_on generalizing l with
  | _ n ihn =>
  subst hn
  cases l with
  | nil => simp [connection]
  | cons req todo =>
    have ih := ihn (todo.filter (fun r => r.key ≠ req.key)).length
      (by simp only [List.length_cons]; exact Nat.lt_succ_of_le (List.length_filter_le _ _)) _ rfl
    have hgr := merge_fold joins req (todo.filter (fun r => r.key = req.key)) req.tw []
      (fun r hr => by simpa using (List.mem_filter.1 hr).2)
    obtain ⟨i1, i2, i3, i4, i5, i6⟩ := ih
    unfold connection
    simp only [mergeGroup]
    generalize List.foldl (mergeStep joins req) (req.tw, []) (todo.filter (fun r => r.key = req.key))
      = g at hgr
    generalize connection joins (todo.filter (fun r => r.key ≠ req.key)) = c at *
    obtain ⟨g1, g2, g3, g4, g5, g6, g7⟩ := hgr
    simp only [List.not_mem_nil, List.length_nil, false_or, Nat.zero_add] at g2 g4 g5
    refine ⟨?_, ?_, ?_, ?_, ?_, ?_⟩
    · simp only [List.map_cons, List.nodup_cons]
      refine ⟨?_, i1⟩
      intro h
      rw [List.mem_map] at h
      obtain ⟨s, hs, hse⟩ := h
      have := i2 s hs
      rw [List.mem_map] at this
      obtain ⟨r, hr, hre⟩ := this
      have := (List.mem_filter.1 hr).2
      simp at this
      exact this (hre.trans hse)
    · intro s hs
      rcases List.mem_cons.1 hs with rfl | hs
      · simp [Req.key]
      · have := i2 s hs
        rw [List.mem_map] at this ⊢
        obtain ⟨r, hr, hre⟩ := this
        exact ⟨r, by simp [(List.mem_filter.1 hr).1], hre⟩
    · intro r hr
      rcases List.mem_cons.1 hr with rfl | hr
      · right
        exact ⟨_, List.mem_cons_self, ⟨rfl, rfl, rfl, rfl⟩, g1.1, g1.2⟩
      · by_cases hk : r.key = req.key
        · rcases g3 r (List.mem_filter.2 ⟨hr, by simpa using hk⟩) with h | ⟨h1, h2, h3⟩
          · left; exact List.mem_append_left _ h
          · right; exact ⟨_, List.mem_cons_self, h1, h2, h3⟩
        · rcases i3 r (List.mem_filter.2 ⟨hr, by simpa using hk⟩) with h | ⟨s, hs, h⟩
          · left; exact List.mem_append_right _ h
          · right; exact ⟨s, List.mem_cons_of_mem _ hs, h⟩
    · intro r hr
      rcases List.mem_append.1 hr with h | h
      · exact List.mem_cons_of_mem _ (List.mem_filter.1 (g4 r h)).1
      · exact List.mem_cons_of_mem _ (List.mem_filter.1 (i4 r h)).1
    · intro _
      simp only [List.length_append, List.length_cons]
      have hpart : (todo.filter (fun r => r.key = req.key)).length +
          (todo.filter (fun r => r.key ≠ req.key)).length = todo.length := by
        have := List.length_eq_length_filter_add (l := todo) (fun r => decide (r.key = req.key))
        simp only [ne_eq, decide_not] at this ⊢
        omega
      have : c.2.length ≤ (todo.filter (fun r => r.key ≠ req.key)).length := by
        by_cases he : (todo.filter (fun r => r.key ≠ req.key)) = []
        · have hnil : c.2 = [] := by
            rw [List.eq_nil_iff_forall_not_mem]
            intro r hr
            have := i4 r hr
            rw [he] at this; cases this
          rw [hnil]; simp
        · exact le_of_lt (i5 he)
      omega
    · intro s hs
      rcases List.mem_cons.1 hs with rfl | hs
      · obtain ⟨a, ha, hsa, hea⟩ : ∃ a ∈ req :: todo, SameStream req a ∧ g.1.start = a.tw.start := by
          rcases g6 with h | ⟨r, hr, h⟩
          · exact ⟨req, by simp, ⟨rfl, rfl, rfl, rfl⟩, h⟩
          · exact ⟨r, by simp [(List.mem_filter.1 hr).1], h⟩
        obtain ⟨b, hb, hsb, heb⟩ : ∃ b ∈ req :: todo, SameStream req b ∧ g.1.stop = b.tw.stop := by
          rcases g7 with h | ⟨r, hr, h⟩
          · exact ⟨req, by simp, ⟨rfl, rfl, rfl, rfl⟩, h⟩
          · exact ⟨r, by simp [(List.mem_filter.1 hr).1], h⟩
        exact ⟨a, ha, b, hb, hsa, hsb, by rw [← hea, ← heb]⟩
      · obtain ⟨a, ha, b, hb, h⟩ := i6 s hs
        exact ⟨a, by simp [(List.mem_filter.1 ha).1], b, by simp [(List.mem_filter.1 hb).1], h⟩

/-- **C55a.** The splitting terminates: at most one connection per request is needed, after which no
request is left (and allowing more changes nothing). -/
theorem requests_terminate (joins : TW → TW → Bool) (l : List Req) :
    (connections joins l.length l).2 = [] ∧ (connections joins l.length l).1.length ≤ l.length ∧
    ∀ n ≥ l.length, connections joins n l = connections joins l.length l := by
  suffices h : ∀ n m, ∀ l : List Req, l.length ≤ n → l.length ≤ m →
      (connections joins n l).2 = [] ∧ (connections joins n l).1.length ≤ l.length ∧
      connections joins n l = connections joins m l from
    ⟨(h _ _ l le_rfl le_rfl).1, (h _ _ l le_rfl le_rfl).2.1,
      fun n hn => (h n l.length l hn le_rfl).2.2⟩
  intro n
  induction n with
  | zero =>
    intro m l hl hm
    have : l = [] := List.length_eq_zero_iff.1 (by omega)
    subst this
    cases m <;> simp [connections]
  | succ n ih =>
    intro m l hl hm
    cases l with
    | nil => cases m <;> simp [connections]
    | cons r l =>
      cases m with
      | zero => simp at hm
      | succ m =>
        have hlt := (connection_spec joins (r :: l)).2.2.2.2.1 (by simp)
        obtain ⟨h1, h2, h3⟩ := ih m (connection joins (r :: l)).2
          (by simp only [List.length_cons] at *; omega) (by simp only [List.length_cons] at *; omega)
        refine ⟨?_, ?_, ?_⟩
        · simp only [connections]; exact h1
        · simp only [connections, List.length_cons] at *; omega
        · simp only [connections]; rw [h3]

theorem connections_mem (joins : TW → TW → Bool) (n : Nat) (l : List Req) :
    (∀ c ∈ (connections joins n l).1, ∃ l', (∀ r ∈ l', r ∈ l) ∧ c = (connection joins l').1) ∧
    (∀ r ∈ l, r ∈ (connections joins n l).2 ∨ ∃ c ∈ (connections joins n l).1, ∃ s ∈ c,
      SameStream s r ∧ Covers s r) := by
  induction n generalizing l with
  | zero => simp [connections]
  | succ n ih =>
    cases l with
    | nil => simp [connections]
    | cons a l =>
      obtain ⟨_, _, h3, h4, _, _⟩ := connection_spec joins (a :: l)
      obtain ⟨i1, i2⟩ := ih (connection joins (a :: l)).2
      simp only [connections]
      constructor
      · intro c hc
        rcases List.mem_cons.1 hc with rfl | hc
        · exact ⟨a :: l, fun r hr => hr, rfl⟩
        · obtain ⟨l', h, he⟩ := i1 c hc
          exact ⟨l', fun r hr => h4 r (h r hr), he⟩
      · intro r hr
        rcases h3 r hr with h | ⟨s, hs, h⟩
        · rcases i2 r h with h | ⟨c, hc, h⟩
          · exact .inl h
          · exact .inr ⟨c, List.mem_cons_of_mem _ hc, h⟩
        · exact .inr ⟨_, List.mem_cons_self, s, hs, h⟩

/-- **C55b.** Every requested window is contained in a window requested for the same stream on some
connection, whatever the merging decision and the iteration order. -/
theorem requests_covered (joins : TW → TW → Bool) (l : List Req) :
    ∀ r ∈ l, ∃ c ∈ (connections joins l.length l).1, ∃ s ∈ c, SameStream s r ∧ Covers s r := by
  intro r hr
  rcases (connections_mem joins l.length l).2 r hr with h | h
  · rw [(requests_terminate joins l).1] at h; cases h
  · exact h

/-- **C55c.** A connection asks for at most one stream of a station. -/
theorem requests_one_stream_per_station (joins : TW → TW → Bool) (l : List Req) :
    ∀ c ∈ (connections joins l.length l).1, (c.map (fun s => (s.net, s.sta))).Nodup := by
  intro c hc
  obtain ⟨l', _, rfl⟩ := (connections_mem joins l.length l).1 c hc
  exact (connection_spec joins l').1

/-- **C55d.** Nothing is requested that was not asked for: every stream is one of the requested
streams and its window goes from the start of a requested window to the end of a requested window of
that stream. -/
theorem requests_not_invented (joins : TW → TW → Bool) (l : List Req) :
    ∀ c ∈ (connections joins l.length l).1, ∀ s ∈ c, ∃ a ∈ l, ∃ b ∈ l,
      SameStream s a ∧ SameStream s b ∧ s.tw = ⟨a.tw.start, b.tw.stop⟩ := by
  intro c hc s hs
  obtain ⟨l', hl, rfl⟩ := (connections_mem joins l.length l).1 c hc
  obtain ⟨a, ha, b, hb, h⟩ := (connection_spec joins l').2.2.2.2.2 s hs
  exact ⟨a, hl a ha, b, hl b hb, h⟩

/-- **C55e.** For every window the caller asks for, some connection asks for a window of the same
stream that contains it (before the 1 % extension as well as after). -/
theorem requests_cover_caller_windows (joins : TW → TW → Bool) (l : List Req)
    (hl : ∀ r ∈ l, r.tw.start ≤ r.tw.stop) :
    ∀ r ∈ l, ∃ c ∈ loadConnections joins l, ∃ s ∈ c, SameStream s r ∧ Covers s r := by
  intro r hr
  obtain ⟨c, hc, s, hs, h1, h2⟩ := requests_covered joins (l.map prepare) (prepare r)
    (List.mem_map_of_mem hr)
  refine ⟨c, hc, s, hs, h1, h2.1, ?_⟩
  have := hl r hr
  have h3 := h2.2
  simp only [prepare] at h3
  have : 0 ≤ (r.tw.stop - r.tw.start).tdiv 100 := Int.tdiv_nonneg (by omega) (by omega)
  omega

/-- three requests for one station: two overlapping windows of one channel are merged, the other
channel goes to a second connection -/
example : connections (fun a b => decide (a.start ≤ b.stop ∧ b.start ≤ a.stop)) 3
    [⟨"N", "A", "", "HHZ", ⟨0, 10⟩⟩, ⟨"N", "A", "", "HHT", ⟨0, 10⟩⟩, ⟨"N", "A", "", "HHZ", ⟨5, 15⟩⟩] =
    ([[⟨"N", "A", "", "HHZ", ⟨0, 15⟩⟩], [⟨"N", "A", "", "HHT", ⟨0, 10⟩⟩]], []) := by
  simp [connections, connection, mergeGroup, mergeStep, Req.key, TW.merge]

end Verif.Requests
