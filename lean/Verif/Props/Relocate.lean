import Verif.Proofs.RelocateTop
import Verif.Props.Observations

/-!
# Relocation (C47, C48, C49, C50, C71)
-/

set_option linter.unusedSectionVars false

namespace Verif.Relocate
open Verif.Catalog Verif.Solver

variable {K : Type} [Field K] [LinearOrder K]

/-! ## C47 -/

/-- **C47a.** Which events a relocation returns, in full: the events of the cluster with a solution
that was kept, and events that were marked as relocated on input and never lost the mark (those outside
of the cluster, and those of the cluster when nothing was solved or the first solution was undone). -/
theorem relocate_returns {a : Args K} (hg : GoodArgs a) {cat r : Catalog K} (hs : cat.Sound) (hn : NoAt cat)
    {log : List (IterLog K)} (h : relocate a cat = .ok (r, log)) (k : Nat) :
    (r.events.find? k).isSome = true ↔
      (k ∈ a.cluster.map (·.1) ∧ (KeptSolution log k ∨ (Marked cat k ∧ ∀ y, log[1]? = some y → k ∈ y.reverted))) ∨
      (k ∉ a.cluster.map (·.1) ∧ Marked cat k) := by
  obtain ⟨last, hl, hrel, g2, g3, g4, g5, g6, g7⟩ := relocate_summary hg hs hn h
  have hfl : (r.events.find? k).isSome = true ↔ flag last.after k = true := by
    rw [g3]
    by_cases hf : flag last.after k = true
    · rw [if_pos hf]
      unfold flag at hf
      cases he : last.after.events.find? k with
      | none => rw [he] at hf; cases hf
      | some e => simp [flag, he] at hf ⊢; exact hf
    · rw [if_neg hf]; simp [hf]
  rw [hfl, marked_iff]
  by_cases hk : k ∈ a.cluster.map (·.1)
  · rw [g6 k hk]; simp [hk]
  · rw [g7 k hk]; simp [hk]

/-- **C47b (partial: input without marks).** If no event of the input is marked as relocated — which is
how catalogs are read by default — the events returned are exactly those with a kept solution. -/
theorem relocate_returns_solved_partial {a : Args K} (hg : GoodArgs a) {cat r : Catalog K} (hs : cat.Sound)
    (hn : NoAt cat) (hnew : ∀ k, ¬ Marked cat k)
    {log : List (IterLog K)} (h : relocate a cat = .ok (r, log)) (k : Nat) :
    (r.events.find? k).isSome = true ↔ k ∈ a.cluster.map (·.1) ∧ KeptSolution log k := by
  rw [relocate_returns hg hs hn h]
  simp [hnew k]

/-- **C47c.** A returned event has its original id and magnitude and its original picks, and is marked;
an event not returned has no picks in the result; every station is one of the input. -/
theorem relocate_content {a : Args K} (hg : GoodArgs a) {cat r : Catalog K} (hs : cat.Sound) (hn : NoAt cat)
    {log : List (IterLog K)} (h : relocate a cat = .ok (r, log)) :
    r.Sound ∧
    (∀ k e, r.events.find? k = some e → e.isRelocated = true ∧
      ∃ e0, cat.events.find? k = some e0 ∧ e.id = e0.id ∧ e.id = k ∧ e.magnitude = e0.magnitude) ∧
    (∀ k, (r.events.find? k).isSome = true → (r.phasesOf k).map pick0 = (cat.phasesOf k).map pick0) ∧
    (∀ k, r.events.find? k = none → r.phasesOf k = []) ∧
    (∀ x st, r.stations.find? x = some st → cat.stations.find? x = some st) := by
  obtain ⟨last, hl, hrel, g2, g3, g4, g5, g6, g7⟩ := relocate_summary hg hs hn h
  have hsome : ∀ k e, r.events.find? k = some e → flag last.after k = true ∧ last.after.events.find? k = some e := by
    intro k e he
    rw [g3] at he
    split at he
    · rename_i hf; exact ⟨hf, he⟩
    · cases he
  refine ⟨g2, ?_, ?_, fun k hk => phasesOf_nil g2 hk, ?_⟩
  · intro k e he
    obtain ⟨h1, h2⟩ := hsome k e he
    refine ⟨by unfold flag at h1; rw [h2] at h1; exact h1, ?_⟩
    have := hrel.events k
    rw [h2] at this
    cases hc : cat.events.find? k with
    | none => rw [hc] at this; cases this
    | some e0 =>
      rw [hc] at this
      simp only [Option.map_some, Option.some.injEq, Prod.mk.injEq] at this
      exact ⟨e0, rfl, this.1, (g2.eventKey _ _ he).1, this.2⟩
  · intro k hk
    obtain ⟨e, he⟩ := Option.isSome_iff_exists.1 hk
    rw [g4, if_pos (hsome k e he).1]
    exact hrel.picks k
  · intro x st hx
    rw [← hrel.stations]; exact g5 x st hx

/-! ## C48 -/

/-- **C48a.** With at least two iterations, the parameters of the iterations that solve go from exactly
the start value to exactly the end value, monotonically and without leaving the range. -/
theorem parameter_interpolation_partial [IsStrictOrderedRing K] (N : Nat) (hN : 2 ≤ N) (start stop : K) :
    interpolate N 0 start stop = start ∧ interpolate N (N - 1) start stop = stop ∧
    (∀ i, i < N → min start stop ≤ interpolate N i start stop ∧ interpolate N i start stop ≤ max start stop) ∧
    (start ≤ stop → ∀ i j, i ≤ j → interpolate N i start stop ≤ interpolate N j start stop) ∧
    (stop ≤ start → ∀ i j, i ≤ j → interpolate N j start stop ≤ interpolate N i start stop) := by
  have hn : ¬ N < 2 := by omega
  have hpos : (0 : K) < ((N - 1 : Nat) : K) := by exact_mod_cast (by omega : 0 < N - 1)
  have hf : ∀ i, interpolate N i start stop = start + (stop - start) * (i : K) / ((N - 1 : Nat) : K) := by
    intro i; unfold interpolate; rw [if_neg hn]
  have h0 : interpolate N 0 start stop = start := by rw [hf]; simp
  have h1 : interpolate N (N - 1) start stop = stop := by
    rw [hf, mul_div_assoc, div_self (ne_of_gt hpos)]; ring
  have hup : start ≤ stop → ∀ i j, i ≤ j → interpolate N i start stop ≤ interpolate N j start stop := by
    intro hle i j hij
    rw [hf, hf]
    have hc : (i : K) ≤ (j : K) := by exact_mod_cast hij
    have := mul_le_mul_of_nonneg_left hc (sub_nonneg.2 hle)
    have := (div_le_div_iff_of_pos_right hpos).2 this
    linarith
  have hdown : stop ≤ start → ∀ i j, i ≤ j → interpolate N j start stop ≤ interpolate N i start stop := by
    intro hle i j hij
    rw [hf, hf]
    have hc : (i : K) ≤ (j : K) := by exact_mod_cast hij
    have := mul_le_mul_of_nonneg_left hc (sub_nonneg.2 hle)
    have := (div_le_div_iff_of_pos_right hpos).2 this
    have e : ∀ x : K, (stop - start) * x / ((N - 1 : Nat) : K) = -((start - stop) * x / ((N - 1 : Nat) : K)) := by
      intro x; ring
    rw [e, e]
    linarith
  refine ⟨h0, h1, ?_, hup, hdown⟩
  intro i hi
  rcases le_total start stop with hle | hle
  · rw [min_eq_left hle, max_eq_right hle]
    have a := hup hle 0 i (by omega)
    have b := hup hle i (N - 1) (by omega)
    rw [h0] at a; rw [h1] at b
    exact ⟨a, b⟩
  · rw [min_eq_right hle, max_eq_left hle]
    have a := hdown hle 0 i (by omega)
    have b := hdown hle i (N - 1) (by omega)
    rw [h0] at a; rw [h1] at b
    exact ⟨b, a⟩

/-- **C48b.** These are the parameters a relocation uses: in every run entry `i` of the log has the
interpolated values, at most `algoIterations` systems are solved, each with the damping of its
iteration, and there is at most one further iteration, which solves nothing. -/
theorem relocation_parameters {a : Args K} {cat r : Catalog K} {log : List (IterLog K)}
    (h : relocate a cat = .ok (r, log)) :
    log.length ≤ a.so.algoIterations + 1 ∧
    ∀ (i : Nat) (x : IterLog K), log[i]? = some x →
      x.damping = interpolate a.so.algoIterations i a.so.dampingFactorStart a.so.dampingFactorEnd ∧
      x.downWeighting = interpolate a.so.algoIterations i a.so.downWeightingByResidualStart
        a.so.downWeightingByResidualEnd ∧
      x.absLoc = interpolate a.so.algoIterations i a.so.absLocConstraintStart a.so.absLocConstraintEnd ∧
      a.sol.prepare i x.ops x.absLoc x.downWeighting = .ok () ∧
      (∀ ans, x.answer = some ans → i < a.so.algoIterations ∧ a.sol.solve i x.ops x.damping = some ans) := by
  have hrun := (relocate_run h).1
  have hlen := hrun.length
  refine ⟨by omega, ?_⟩
  intro i x hx
  obtain ⟨p, c, hi⟩ := hrun.entry i x hx
  rw [Nat.zero_add] at hi
  exact ⟨hi.damping, hi.down, hi.absLoc, hi.prepare, hi.answer⟩

/-- **C48c.** The iterations are done: a run ends only after `algoIterations` solved systems or at a system
the solver cannot solve, and every earlier system was solved. -/
theorem relocation_iterations {a : Args K} {cat r : Catalog K} {log : List (IterLog K)}
    (h : relocate a cat = .ok (r, log)) :
    ∃ (n : Nat) (last : IterLog K), log.length = n + 1 ∧ log[n]? = some last ∧ last.answer = none ∧
      (n = a.so.algoIterations ∨ n < a.so.algoIterations ∧ a.sol.solve n last.ops last.damping = none) ∧
      ∀ i, i < n → ∃ x ans, log[i]? = some x ∧ x.answer = some ans ∧ a.sol.solve i x.ops x.damping = some ans := by
  have hrun := (relocate_run h).1
  have hpar := (relocation_parameters h).2
  have key : ∀ {it : Nat} {prev cur : Catalog K} {l : List (IterLog K)}, Run a it prev cur l →
      ∃ (n : Nat) (last : IterLog K), l.length = n + 1 ∧ l[n]? = some last ∧ last.answer = none ∧
        (it + n = a.so.algoIterations ∨ it + n < a.so.algoIterations ∧ a.sol.solve (it + n) last.ops last.damping = none) ∧
        ∀ i, i < n → ∃ x ans, l[i]? = some x ∧ x.answer = some ans := by
    intro it prev cur l hr
    induction hr with
    | @last it prev cur x hle _ hn hs =>
      refine ⟨0, x, rfl, rfl, hn, ?_, fun i hi => absurd hi (by omega)⟩
      rcases Nat.lt_or_ge it a.so.algoIterations with hlt | hge
      · exact Or.inr ⟨hlt, hs hlt⟩
      · exact Or.inl (by omega)
    | @step it prev cur x ans new l _ ha _ _ ih =>
      obtain ⟨n, last, h1, h2, h3, h4, h5⟩ := ih
      refine ⟨n + 1, last, by simp [h1], by simpa using h2, h3, ?_, ?_⟩
      · rw [show it + (n + 1) = it + 1 + n by omega]; exact h4
      · intro i hi
        cases i with
        | zero => exact ⟨x, ans, rfl, ha⟩
        | succ i =>
          obtain ⟨y, b, g1, g2⟩ := h5 i (by omega)
          exact ⟨y, b, by simpa using g1, g2⟩
  obtain ⟨n, last, h1, h2, h3, h4, h5⟩ := key hrun
  rw [Nat.zero_add] at h4
  refine ⟨n, last, h1, h2, h3, h4, ?_⟩
  intro i hi
  obtain ⟨x, ans, g1, g2⟩ := h5 i hi
  exact ⟨x, ans, g1, g2, ((hpar i x g1).2.2.2.2 ans g2).2⟩

/-- **C48 is false with one iteration**: the value used is the mean of the start and end value, neither
of them unless they are equal. -/
theorem single_iteration_uses_mean [IsStrictOrderedRing K] (start stop : K) (hne : start ≠ stop) :
    interpolate 1 0 start stop = (start + stop) / 2 ∧ interpolate 1 0 start stop ≠ start ∧
    interpolate 1 0 start stop ≠ stop := by
  have e : interpolate 1 0 start stop = (start + stop) / 2 := rfl
  refine ⟨e, ?_, ?_⟩ <;> rw [e] <;> intro hc <;> apply hne <;> linarith

/-- The last iteration, which only reports residuals, uses values beyond the end value: the reported
final residuals are weighted with a parameter that was never used to solve. -/
theorem reporting_iteration_overshoots [IsStrictOrderedRing K] (N : Nat) (hN : 2 ≤ N) (start stop : K) :
    interpolate N N start stop = stop + (stop - start) / ((N - 1 : Nat) : K) := by
  have hn : ¬ N < 2 := by omega
  have hpos : (0 : K) < ((N - 1 : Nat) : K) := by exact_mod_cast (by omega : 0 < N - 1)
  unfold interpolate
  rw [if_neg hn]
  have : ((N : Nat) : K) = ((N - 1 : Nat) : K) + 1 := by
    have : N = (N - 1) + 1 := by omega
    conv_lhs => rw [this]
    push_cast; ring
  rw [this]
  field_simp
  ring

/-! ## C49, C71 -/

/-- **C49a (partial: events with pairs of their own).** For an event of the cluster with at least one
pair of its own: if after an iteration moved it none of the travel times to the stations of its pairs
can be computed, the event is put back where it was after the previous iteration; if the travel time of
some pair can be computed it stays where the iteration moved it. Missing: an event with no pair of its
own, see `neighbour_only_event_stays_outside`. -/
theorem event_restored_partial {a : Args K} (hg : GoodArgs a) {cat r : Catalog K} (hs : cat.Sound) (hn : NoAt cat)
    {log : List (IterLog K)} (h : relocate a cat = .ok (r, log)) {i : Nat} {x y : IterLog K}
    (hx : log[i]? = some x) (hy : log[i + 1]? = some y) {id : Nat} {nb : Neighbours} (hc : (id, nb) ∈ a.cluster)
    {ev : Event K} (hev : y.before.events.find? id = some ev) :
    (ev.isRelocated = true → nb.phases ≠ [] →
      (∀ t ∈ nb.phases, ∀ p, IsPick y.before id t.1 p → ¬ Computable a.env y.before ev p) →
      (y.after.events.find? id).map place = (x.after.events.find? id).map place) ∧
    ((∃ t ∈ nb.phases, ∀ p, IsPick y.before id t.1 p → Computable a.env y.before ev p) →
      (y.after.events.find? id).map place = some (place ev)) ∧
    (ev.isRelocated = false → (y.after.events.find? id).map place = some (place ev)) := by
  have hrun := (relocate_run h).1
  have hrel := hrun.rel hg (Rel.refl hs hn) (Or.inl rfl)
  have hrx := hrel x (List.mem_of_getElem? hx)
  have hry := hrel y (List.mem_of_getElem? hy)
  obtain ⟨hi, ans, hans, hu⟩ := hrun.link i x y hx hy
  obtain ⟨_, s, hinv, hr, _, hres⟩ := hi.spec hg hry.1 (Or.inr hrx.2)
  have hplace := hres.events id
  have hprev : isEmpty x.after = false := by
    have h1 := hrx.2.events id
    have h2 := hry.1.events id
    rw [hev] at h2
    rw [← h2] at h1
    cases he : x.after.events.find? id with
    | none => rw [he] at h1; cases h1
    | some e =>
      unfold isEmpty
      cases hl : x.after.events with
      | nil => rw [hl] at he; simp at he
      | cons _ _ => simp
  have hkeep : id ∉ s.reverted → (y.after.events.find? id).map place = some (place ev) := by
    intro hnr
    rw [hplace, hinv.keep.events id hnr, hev]; rfl
  have hnd : ∀ nb', (id, nb') ∈ a.cluster → nb' = nb := by
    intro nb' h'
    have := List.inj_on_of_nodup_map hg.cluster.nodup h' hc rfl
    simpa using this
  refine ⟨?_, ?_, ?_⟩
  · intro hrel hne hall
    by_cases hrev : id ∈ s.reverted
    · rw [hplace, (hinv.restored id hrev).1]
    · rcases hinv.whyNot _ hc hrev with h1 | ⟨e, h1, h2⟩
      · rw [hprev] at h1; cases h1
      · rw [hev] at h1
        simp only [Option.some.injEq] at h1
        subst h1
        rcases h2 with h2 | h2 | ⟨t, ht, rp, h3, h4⟩
        · rw [hrel] at h2; cases h2
        · exact absurd h2 hne
        · exact absurd h4 (hall t ht rp h3)
  · rintro ⟨t, ht, hcomp⟩
    apply hkeep
    intro hrev
    obtain ⟨nb', e, m, h1, h2, h3, h4⟩ := hinv.why id hrev
    rw [hnd nb' m] at h4
    rw [hev] at h1
    simp only [Option.some.injEq] at h1
    subst h1
    obtain ⟨rp, h5, h6⟩ := h4 t ht
    exact h6 (hcomp rp h5)
  · intro hf
    apply hkeep
    intro hrev
    obtain ⟨nb', e, m, h1, h2, h3, h4⟩ := hinv.why id hrev
    rw [hev] at h1
    simp only [Option.some.injEq] at h1
    subst h1
    rw [hf] at h2; cases h2

/-- **C71a.** Each iteration moves each event of the cluster by the solution the solver gave for that
event, and no other event: epicentre moved by the east and north components, depth reduced by the up
component, origin time increased by the time component; without a solution the event stays. -/
theorem solution_applied {a : Args K} (hg : GoodArgs a) {cat r : Catalog K} (hs : cat.Sound) (hn : NoAt cat)
    {log : List (IterLog K)} (h : relocate a cat = .ok (r, log)) {i : Nat} {x y : IterLog K}
    (hx : log[i]? = some x) (hy : log[i + 1]? = some y) :
    ∃ ans, x.answer = some ans ∧ ∀ k ev, x.after.events.find? k = some ev →
      ∃ ev', y.before.events.find? k = some ev' ∧
      (k ∈ a.cluster.map (·.1) →
        (ans.changes k = none → (ev'.time, ev'.latitude, ev'.longitude, ev'.depth) =
          (ev.time, ev.latitude, ev.longitude, ev.depth)) ∧
        (∀ d, ans.changes k = some d → ev'.isRelocated = true ∧
          ev'.time = ev.time + a.env.secToDur d.t ∧ ev'.depth = ev.depth - d.z ∧
          (ev'.latitude, ev'.longitude) = a.env.coords d.x d.y ev.latitude ev.longitude ev.depth)) ∧
      (k ∉ a.cluster.map (·.1) → ev' = ev) := by
  have hrun := (relocate_run h).1
  have hrel := hrun.rel hg (Rel.refl hs hn) (Or.inl rfl)
  have hrx := hrel x (List.mem_of_getElem? hx)
  obtain ⟨_, ans, hans, hu⟩ := hrun.link i x y hx hy
  obtain ⟨h1, h2, h3⟩ := updateRelocatedEvents_spec hrx.2.sound
    (by rw [refIds_eq hg.cluster]; exact hg.cluster.nodup) hu
  rw [refIds_eq hg.cluster] at h2 h3
  refine ⟨ans, hans, ?_⟩
  intro k ev hev
  by_cases hk : k ∈ a.cluster.map (·.1)
  · refine ⟨_, (h3 k hk).event ev hev, fun _ => ⟨?_, ?_⟩, fun hc => absurd hk hc⟩
    · intro hnone; rw [hnone]
    · intro d hd; rw [hd]; exact ⟨rfl, rfl, rfl, rfl⟩
  · exact ⟨ev, by rw [h2.events k hk]; exact hev, fun hc => absurd hc hk, fun _ => rfl⟩

/-- **C71b.** A run starts from the given catalog and the events returned are those of the last
entry of the log, so that the returned hypocentre is the result of the moves of C71a and the
restorations of C49a. -/
theorem relocation_endpoints {a : Args K} (hg : GoodArgs a) {cat r : Catalog K} (hs : cat.Sound) (hn : NoAt cat)
    {log : List (IterLog K)} (h : relocate a cat = .ok (r, log)) :
    ∃ first last, log[0]? = some first ∧ log.getLast? = some last ∧ first.before = cat ∧
      (∀ k, (first.after.events.find? k).map place = (cat.events.find? k).map place) ∧
      ∀ k ev, r.events.find? k = some ev → last.after.events.find? k = some ev := by
  obtain ⟨hrun, last, hl, hret⟩ := relocate_run h
  obtain ⟨last', hl', hrel, g2, g3, g4, g5, g6, g7⟩ := relocate_summary hg hs hn h
  rw [hl] at hl'
  simp only [Option.some.injEq] at hl'
  subst hl'
  have hfirst : ∃ first, log[0]? = some first ∧ IterOk a 0 Catalog.init cat first := by
    cases hrun with
    | last _ hi _ _ => exact ⟨_, rfl, hi⟩
    | step hi _ _ _ => exact ⟨_, rfl, hi⟩
  obtain ⟨first, hf, hi⟩ := hfirst
  refine ⟨first, last, hf, hl, hi.before, ?_, ?_⟩
  · intro k
    obtain ⟨_, s, hinv, hr, _, hres⟩ := hi.spec hg (Rel.refl hs hn) (Or.inl rfl)
    rw [hres.events k, hinv.keep.events k]
    rw [hr, reverted_first hg hi (Rel.refl hs hn)]; simp
  · intro k ev hev
    rw [g3] at hev
    split at hev
    · exact hev
    · cases hev

/-! ## Concrete cases -/

namespace Example

/-- the solver moves event `k` north by `step it` degrees and 1 s later -/
def solver (k : Nat) (step : Nat → ℚ) : SolverAnswers ℚ :=
  { prepare := fun _ _ _ _ => .ok ()
    solve := fun it _ _ => some ⟨fun j => if j = k then some ⟨0, step it, 0, 1⟩ else none, fun _ _ _ => true⟩ }

def nb2 : Neighbours := ⟨2, [(1, [("N.A.", "Pg")])]⟩

/-- two iterations: event 1 first moves by one degree, then out of the travel-time table -/
def args : Args ℚ :=
  ⟨env, ⟨2, 1, 3, 0, 0, 0, 0⟩, opt, xc, [(1, nb), (2, nb2)], solver 1 (fun it => if it = 0 then 1 else 5000)⟩

theorem args_good : GoodArgs args := ⟨⟨by decide, by decide⟩, by decide⟩

theorem sound_of {c : Catalog ℚ} (h : c.Reachable) (h1 : ∀ kp ∈ c.phases, (c.events.find? kp.1).isSome = true)
    (h2 : ∀ kp ∈ c.phases, (c.stations.find? kp.2.stationId).isSome = true) : c.Sound := ⟨h.wf, h1, h2⟩

theorem cat_sound : cat.Sound := sound_of cat_reachable (by decide +kernel) (by decide +kernel)

theorem noAt_of {c : Catalog ℚ} (h : ∀ kp ∈ c.phases, '@' ∉ kp.2.type.toList) : NoAt c :=
  fun k p hp => h (k, p) (Catalog.mem_phasesOf.1 hp)

theorem cat_noAt : NoAt cat := noAt_of (by decide +kernel)

/-- what is observed of an event, and of an iteration -/
structure Seen where
  id : Nat
  latitude : ℚ
  time : Int
  marked : Bool
deriving DecidableEq

structure Done where
  reverted : List Nat
  damping : ℚ
  solved : Bool
deriving DecidableEq

def seen (r : Catalog ℚ) : List Seen := r.events.map (fun kv => ⟨kv.1, kv.2.latitude, kv.2.time, kv.2.isRelocated⟩)

def doneIn (log : List (IterLog ℚ)) : List Done := log.map (fun e => ⟨e.reverted, e.damping, e.answer.isSome⟩)

def check (x : Outcome (Catalog ℚ × List (IterLog ℚ))) (evs : List Seen) (its : List Done) : Bool :=
  match x with
  | .ok (r, log) => decide (seen r = evs) && decide (doneIn log = its)
  | _ => false

theorem check_true {x : Outcome (Catalog ℚ × List (IterLog ℚ))} {evs its} (h : check x evs its = true) :
    ∃ r log, x = .ok (r, log) ∧ seen r = evs ∧ doneIn log = its := by
  match x, h with
  | .ok (r, log), h =>
    simp only [check, Bool.and_eq_true, decide_eq_true_eq] at h
    exact ⟨r, log, rfl, h⟩

theorem seen_mem {r : Catalog ℚ} {evs : List Seen} (h : seen r = evs) {x : Seen} (hx : x ∈ evs) (hw : r.events.NodupKeys) :
    ∃ e, r.events.find? x.id = some e ∧ e.latitude = x.latitude := by
  rw [← h] at hx
  unfold seen at hx
  rw [List.mem_map] at hx
  obtain ⟨kv, hkv, rfl⟩ := hx
  exact ⟨kv.2, AMap.find?_of_mem hw hkv, rfl⟩

/-- the theorems of this file apply to a run in which the event moves to 47 degrees, then to 5047 degrees
outside the table, and is restored to 47 degrees and returned; the damping goes from 1 to 3 -/
example : ∃ r log, relocate args cat = .ok (r, log) ∧
    seen r = [⟨1, 47, 11000000, true⟩] ∧
    doneIn log = [⟨[], 1, true⟩, ⟨[], 3, true⟩, ⟨[1], 5, false⟩] :=
  check_true (by decide +kernel)

/-- event 2 is in the cluster only as a neighbour of event 1 -/
def lonely : Args ℚ :=
  ⟨env, ⟨1, 1, 1, 0, 0, 0, 0⟩, opt, xc, [(1, nb), (2, ⟨2, []⟩)], solver 2 (fun _ => 5000)⟩

end Example

/-- **C49 as stated is false for an event that is in the cluster only as neighbour of others** (its own
list of pairs is empty, as clusters keep one direction of each pair): moved to a place without travel
times it is not restored, but returned from there. -/
theorem neighbour_only_event_stays_outside :
    ∃ (a : Args ℚ) (cat : Catalog ℚ) (r : Catalog ℚ) (log : List (IterLog ℚ)) (e e' : Event ℚ),
      GoodArgs a ∧ cat.Sound ∧ NoAt cat ∧ relocate a cat = .ok (r, log) ∧
      cat.events.find? 2 = some e ∧ r.events.find? 2 = some e' ∧
      (∀ st ph, (a.env.ttt e st ph).isSome = true) ∧ (∀ st ph, a.env.ttt e' st ph = none) := by
  obtain ⟨r, log, h1, h2, h3⟩ := Example.check_true (x := relocate Example.lonely Example.cat)
    (evs := [⟨2, 5046, 21000000, true⟩]) (its := [⟨[], 1, true⟩, ⟨[], 1, false⟩]) (by decide +kernel)
  have hg : GoodArgs Example.lonely := ⟨⟨by decide, by decide⟩, by decide⟩
  have hr := Example.seen_mem h2 (List.mem_singleton.2 rfl)
    (relocate_content hg Example.cat_sound Example.cat_noAt h1).1.eventsUnique
  obtain ⟨e', he', hlat⟩ := hr
  refine ⟨Example.lonely, Example.cat, r, log, Example.ev 2 20000000 46, e',
    hg, Example.cat_sound, Example.cat_noAt, h1, by decide +kernel, he', ?_, ?_⟩
  · intro st ph
    have : (Example.ev 2 20000000 46).latitude < 1000 := by norm_num [Example.ev]
    simp [Example.lonely, Example.env, this]
  · intro st ph
    have : ¬ (e'.latitude < 1000) := by rw [hlat]; norm_num
    simp [Example.lonely, Example.env, this]

namespace Example

def marked : Catalog ℚ :=
  ((((Catalog.init.addStation st).addEvent (ev 1 10000000 46) true).1.addEvent
    { ev 2 20000000 46 with isRelocated := true } true).1.addPhase (ph 1 15000000)).addPhase (ph 2 23000000)

theorem marked_sound : marked.Sound := by
  refine sound_of ?_ (by decide +kernel) (by decide +kernel)
  exact .addPhase _ (.addPhase _ (.addEvent _ _ (by decide) (.addEvent _ _ (by decide) (.addStation _ .init))))

theorem marked_noAt : NoAt marked := noAt_of (by decide +kernel)

end Example

/-- **C47 as stated is false for catalogs with marks from an earlier relocation**: an event that is
marked on input is returned although the solver gave no solution for it in any iteration. -/
theorem marked_event_returned :
    ∃ (a : Args ℚ) (cat : Catalog ℚ) (r : Catalog ℚ) (log : List (IterLog ℚ)),
      GoodArgs a ∧ cat.Sound ∧ NoAt cat ∧ relocate a cat = .ok (r, log) ∧
      (r.events.find? 2).isSome = true ∧ ¬ KeptSolution log 2 ∧ 2 ∉ a.cluster.map (·.1) := by
  let a : Args ℚ := ⟨Example.env, ⟨1, 1, 1, 0, 0, 0, 0⟩, Example.opt, Example.xc, [(1, Example.nb)], Example.solver 1 (fun _ => 1)⟩
  have hg : GoodArgs a := ⟨⟨by decide, by decide⟩, by decide⟩
  obtain ⟨r, log, h1, h2, h3⟩ := Example.check_true (x := relocate a Example.marked)
    (evs := [⟨2, 46, 20000000, true⟩, ⟨1, 47, 11000000, true⟩]) (its := [⟨[], 1, true⟩, ⟨[], 1, false⟩]) (by decide +kernel)
  have hnk : 2 ∉ a.cluster.map (·.1) := by decide
  have hmark : Marked Example.marked 2 := ⟨{ Example.ev 2 20000000 46 with isRelocated := true }, by decide +kernel, rfl⟩
  refine ⟨a, Example.marked, r, log, hg, Example.marked_sound, Example.marked_noAt, h1, ?_, ?_, hnk⟩
  · rw [relocate_returns hg Example.marked_sound Example.marked_noAt h1]
    exact Or.inr ⟨hnk, hmark⟩
  · rintro ⟨i, x, ans, hx, ha, hc, _⟩
    have := (relocation_parameters h1).2 i x hx
    obtain ⟨_, hs⟩ := this.2.2.2.2 ans ha
    simp only [a, Example.solver, Option.some.injEq] at hs
    rw [← hs] at hc
    simp at hc

end Verif.Relocate
