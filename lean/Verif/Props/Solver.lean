import Verif.Proofs.SolverPrepare
import Verif.Props.Stats
import Mathlib.Algebra.Order.Field.Rat
import Mathlib.Tactic.Positivity

/-!
# C19–C22: observations, system preparation, residual weights and changes of the solver

Quantified over every history of `addEvent`, `addStation`, `addObservation` and
`addObservationParams` calls, every iteration order of the unordered maps (`io`, `ip`), every
partial sorting routine meeting the `std::nth_element` contract and every solution vector.
-/

set_option linter.unusedSectionVars false
set_option linter.unusedSimpArgs false

namespace Verif.Solver
variable {K : Type} [Field K] [LinearOrder K]

/-! ## C19: the first observation wins -/

/-- **C19a.** The observations reported back are exactly the first one of each event pair, station and
phase, with the values given then. -/
theorem first_observation_wins_partial (ops : List (SolverOp K)) (hb : Fits ops) (hs : NoSeparator ops)
    (io : List (Nat × Obs K)) (hio : io.Perm (run ops).observations) :
    ∃ L, (run ops).getDoubleDifferences io = .ok L ∧
      L.Perm ((firstBy ObsArg.quad (obsOf ops)).map view) := by
  have inv := inv_run ops hb
  generalize run ops = s at *
  have hioM := hio.trans (perm_obsList inv)
  rw [← firstBy_quad hs]
  let back : Nat × Obs K → DoubleDifference K := fun x =>
    match s.doubleDifference x with
    | .ok v => v
    | _ => ⟨0, 0, [], [], 0, false, 0⟩
  have hback : ∀ i o, o ∈ firstBy okey (obsOf ops) → s.doubleDifference (i, toObs ops o) = .ok (view o) := by
    intro i o ho
    have ho' := firstBy_subset _ _ ho
    exact doubleDifference_toObs hb inv ho' (hs.1 o ho') i
  refine ⟨io.map back, ?_, ?_⟩
  · apply mapM_ok
    intro x hx
    obtain ⟨o, h1, h2⟩ := mem_obsList.1 (hioM.subset hx)
    obtain ⟨i, v⟩ := x
    simp only at h2; subst h2
    have := hback i o (List.mem_of_getElem? h1)
    simp only [back, this]
  · refine (hioM.map back).trans ?_
    have : (obsList ops).map back = (firstBy okey (obsOf ops)).map view := by
      apply List.ext_getElem
      · simp [obsList]
      · intro i h1 h2
        simp only [obsList, List.getElem_map, List.getElem_mapIdx]
        have := hback i _ (List.getElem_mem (l := firstBy okey (obsOf ops)) (by simpa using h2))
        simp only [back, this]
    rw [this]

/-- **C19b.** Meaning of `firstBy`: one entry per key, and the entry of a key is the first element of
the history with that key. -/
theorem first_of_each {α β : Type} [DecidableEq β] (key : α → β) (l : List α) :
    ((firstBy key l).map key).Nodup ∧
    ∀ x, x ∈ firstBy key l ↔ l.find? (fun y => decide (key y = key x)) = some x :=
  ⟨firstBy_nodup key l, mem_firstBy_iff key l⟩

/-- **C19c.** The number of stored observations (rows of the system) is the number of distinct ones. -/
theorem rows_are_distinct_observations_partial (ops : List (SolverOp K)) (hb : Fits ops) (hs : NoSeparator ops) :
    (run ops).observations.length = ((obsOf ops).map ObsArg.quad).toFinset.card := by
  rw [(inv_run ops hb).obsLen, firstBy_quad hs, ← IdToIndex.length_firstUses, ← firstBy_map, List.length_map]

/-- **C19, negation of the general claim.** With the separator `@` inside a phase and a station name
two different observations are taken for the same one and the second is lost. -/
theorem observation_lost : ∃ o o' : ObsArg ℚ, o.quad ≠ o'.quad ∧
    (run [.obs o, .obs o']).observations.length = 1 :=
  ⟨⟨1, 2, "B".toList, "P@A".toList, 1, 1, false, 0⟩, ⟨1, 2, "A@B".toList, "P".toList, 2, 1, false, 0⟩,
    by decide +kernel, by decide +kernel⟩

/-- a small history used in the examples: event 10 is fixed, 20 is free; the same observation twice -/
def sample : List (SolverOp ℚ) :=
  [.event 10 46 8 5, .event 20 46 8 6, .station "A".toList 46 9 0,
   .obs ⟨10, 20, "A".toList, "P".toList, 3, 1, false, 0⟩,
   .obs ⟨20, 10, "A".toList, "P".toList, 1, 2, true, 9/10⟩,
   .obs ⟨10, 20, "A".toList, "P".toList, 7, 5, false, 0⟩,
   .params ⟨10, "A".toList, "P".toList, false, 5, 0, 1, 2, 3⟩,
   .params ⟨20, "A".toList, "P".toList, true, 4, 1/10, 4, 5, 6⟩]

example : Fits sample ∧ NoSeparator sample ∧ Complete sample := by
  refine ⟨by unfold Fits; decide +kernel, ⟨by decide +kernel, by decide +kernel⟩, ?_⟩
  intro o ho
  have : o ∈ [⟨10, 20, "A".toList, "P".toList, 3, 1, false, 0⟩, ⟨20, 10, "A".toList, "P".toList, 1, 2, true, 9/10⟩,
      (⟨10, 20, "A".toList, "P".toList, 7, 5, false, 0⟩ : ObsArg ℚ)] := ho
  simp only [List.mem_cons, List.not_mem_nil, or_false] at this
  rcases this with rfl | rfl | rfl <;> decide +kernel

example : (firstBy ObsArg.quad (obsOf sample)).map (·.timeDiff) = [3, 1] := by decide +kernel
example : (run sample).getDoubleDifferences (run sample).observations =
    .ok [⟨20, 10, "A".toList, "P".toList, 1, true, 9/10⟩, ⟨10, 20, "A".toList, "P".toList, 3, false, 0⟩] ∨
    (run sample).getDoubleDifferences (run sample).observations =
    .ok [⟨10, 20, "A".toList, "P".toList, 3, false, 0⟩, ⟨20, 10, "A".toList, "P".toList, 1, true, 9/10⟩] := by
  decide +kernel

/-! ## C20: system preparation -/

variable [IsStrictOrderedRing K]

/-- **C20.** For every complete history the system is prepared without any exception or access outside
the arrays, and it is the system specified by `IsSystemOf`. The only other outcome is that some
residual weight is not a number, which needs residual down-weighting and residuals whose median
absolute deviation is zero (see `residual_weight_nan`). -/
theorem system_prepared (ops : List (SolverOp K)) (hb : Fits ops) (hs : NoSeparator ops)
    (hc : Complete ops) (nth : NthElement (id : K → K)) (ttConstraint residualDownWeight : K)
    (io : List (Nat × Obs K)) (ip : List ((Nat × Nat) × ObsParams K))
    (hio : io.Perm (run ops).observations) (hip : ip.Perm (run ops).obsParams) :
    (∃ p, (run ops).prepare nth ttConstraint residualDownWeight io ip = .ok (some p) ∧
      IsSystemOf ops nth ttConstraint residualDownWeight p) ∨
    ((run ops).prepare nth ttConstraint residualDownWeight io ip = .ok none ∧ residualDownWeight > 0 ∧
      ∃ res : List K, res.length = (firstBy ObsArg.quad (obsOf ops)).length ∧
        (∀ (i : Nat) (o : ObsArg K) (p1 p2 : ParArg K), (firstBy ObsArg.quad (obsOf ops))[i]? = some o →
          paramsOf ops o.e1 o.sta o.phase = some p1 → paramsOf ops o.e2 o.sta o.phase = some p2 →
          res[i]? = some (o.timeDiff - (p1.tt - p2.tt))) ∧
        Stats.computeMAD nth res (Stats.computeMedian nth res) = 0) := by
  rcases prepare_spec ops hb hs hc nth ttConstraint residualDownWeight io ip hio hip with
    ⟨p, h1, h2, -⟩ | ⟨h1, h2, res, h3, h4, h5, -⟩
  · exact .inl ⟨p, h1, h2⟩
  · exact .inr ⟨h1, h2, res, h3, h4, h5⟩

/-- Without residual down-weighting preparation always succeeds. -/
theorem system_prepared_unweighted (ops : List (SolverOp K)) (hb : Fits ops) (hs : NoSeparator ops)
    (hc : Complete ops) (nth : NthElement (id : K → K)) (ttConstraint : K)
    (io : List (Nat × Obs K)) (ip : List ((Nat × Nat) × ObsParams K))
    (hio : io.Perm (run ops).observations) (hip : ip.Perm (run ops).obsParams) :
    ∃ p, (run ops).prepare nth ttConstraint 0 io ip = .ok (some p) ∧ IsSystemOf ops nth ttConstraint 0 p := by
  rcases system_prepared ops hb hs hc nth ttConstraint 0 io ip hio hip with h | ⟨-, h, -⟩
  · exact h
  · exact absurd h (lt_irrefl _)

/-- The prepared system satisfies the hypothesis of the theorems about the operator (C16, C17). -/
theorem prepared_in_range {ops : List (SolverOp K)} {nth : NthElement (id : K → K)} {c r : K} {p : Prepared K}
    (h : IsSystemOf ops nth c r p) : p.dd.EventsInRange :=
  fun ob hob e he => ((h.inRange ob hob).2 e he).1

/-- **C20, the hypothesis is needed.** An observation without parameters makes preparation throw. -/
theorem preparation_needs_params : ∃ ops : List (SolverOp ℚ),
    (run ops).prepare (.sorting _) 0 0 (run ops).observations (run ops).obsParams = .throws :=
  ⟨[.event 1 0 0 0, .event 2 0 0 0, .obs ⟨1, 2, "A".toList, "P".toList, 1, 1, false, 0⟩], by
    simp [prepare, run, step, addEvent, addObservation, init, fillG, ttNum, fillRow, paramsAt, Outcome.ofOption,
      AMap.insertNew, List.foldlM_cons]⟩

example : (match (run sample).prepare (.sorting _) 1 0 (run sample).observations (run sample).obsParams with
    | .ok (some p) => decide (p.dd.nObs = 2 ∧ p.dd.nTT = 1 ∧ p.dd.nEvts = 2 ∧ p.dd.nPhStas = 1 ∧
        (List.range 3).map p.dd.d = [2, 2, 1/10] ∧ (List.range 3).map p.dd.W = [1, 2, 3/2] ∧
        (List.range 3).map p.dd.ev1 = [none, some 1, some 1] ∧
        (List.range 3).map p.dd.ev2 = [some 1, none, none] ∧
        (List.range 4).map (p.dd.G 1) = [4, 5, 6, 1])
    | _ => false) = true := by decide +kernel

/-! ## C21: residual weights -/

/-- **C21.** With a positive cut-off and residuals whose median absolute deviation is not zero, the
weight of a residual is a number in [0,1], 1 for residual zero, 0 exactly from `alpha·MAD/0.67449` on,
and never increases with the absolute residual. -/
theorem residual_weights_partial (nth : NthElement (id : K → K)) (residuals : List K) {alpha : K} (ha : 0 < alpha)
    (hm : Stats.computeMAD nth residuals (Stats.computeMedian nth residuals) ≠ 0) :
    ∃ w : K → K, computeResidualWeights nth residuals alpha = residuals.map (fun r => .num (w r)) ∧
      (∀ r, 0 ≤ w r ∧ w r ≤ 1) ∧ w 0 = 1 ∧
      (∀ r, w r = 0 ↔ alpha * Stats.computeMAD nth residuals (Stats.computeMedian nth residuals) / (67449 / 100000) ≤ |r|) ∧
      (∀ r r', |r| ≤ |r'| → w r' ≤ w r) := by
  have hmad : 0 < Stats.computeMAD nth residuals (Stats.computeMedian nth residuals) :=
    lt_of_le_of_ne (Stats.mad_correct nth residuals _).2.1 (Ne.symm hm)
  have hg : (0 : K) < madGn := by unfold madGn; positivity
  have hc : 0 < alpha * Stats.computeMAD nth residuals (Stats.computeMedian nth residuals) / madGn := by positivity
  have hdef : (madGn : K) = 67449 / 100000 := rfl
  refine ⟨fun r => (max (1 - (r / (alpha * Stats.computeMAD nth residuals (Stats.computeMedian nth residuals) / madGn)) ^ 2) 0) ^ 2,
    ?_, ?_, ?_, ?_, ?_⟩
  · unfold computeResidualWeights
    by_cases he : residuals = []
    · subst he; rfl
    · rw [if_neg (by simpa using he)]
      apply List.map_congr_left
      intro r _
      exact residualWeight_eq (ne_of_gt ha) hm r
  all_goals rw [← hdef] at *
  all_goals generalize alpha * Stats.computeMAD nth residuals (Stats.computeMedian nth residuals) / madGn = c at *
  · intro r
    have h1 : 0 ≤ max (1 - (r / c) ^ 2) 0 := le_max_right _ _
    have h2 : max (1 - (r / c) ^ 2) 0 ≤ 1 := max_le (by have := sq_nonneg (r / c); linarith) zero_le_one
    exact ⟨sq_nonneg _, by nlinarith⟩
  · simp
  · intro r
    simp only [ne_eq, OfNat.ofNat_ne_zero, not_false_eq_true, pow_eq_zero_iff]
    rw [max_eq_right_iff, sub_nonpos, one_le_sq_iff_one_le_abs, abs_div, abs_of_pos hc, le_div_iff₀ hc, one_mul]
  · intro r r' h
    have h1 : 0 ≤ max (1 - (r' / c) ^ 2) 0 := le_max_right _ _
    have h2 : (r / c) ^ 2 ≤ (r' / c) ^ 2 := by
      rw [sq_le_sq, abs_div, abs_div]
      exact div_le_div_of_nonneg_right h (abs_nonneg c)
    have h3 : max (1 - (r' / c) ^ 2) 0 ≤ max (1 - (r / c) ^ 2) 0 := max_le_max (by linarith) le_rfl
    exact pow_le_pow_left₀ h1 h3 2

/-- **C21, negation of the rest.** When the median absolute deviation is zero, the weight of a zero
residual is NaN and that of any other residual is 0. -/
theorem residual_weight_nan (alpha r : K) :
    residualWeight alpha 0 r = if r = 0 then .nan else .num 0 := by
  unfold residualWeight
  by_cases hr : r = 0
  · subst hr
    simp [Fl.div, Fl.square, Fl.mul, Fl.sub, Fl.neg, Fl.add, Fl.max, Fl.lt]
  · rw [if_neg hr]
    simp [Fl.div, Fl.square, Fl.mul, Fl.sub, Fl.neg, Fl.add, Fl.max, Fl.lt, hr]

/-- More than half of the residuals equal: their weights are all NaN (here with three residuals). -/
theorem residual_weights_nan : ∃ residuals : List ℚ,
    computeResidualWeights (.sorting _) residuals 5 = [.nan, .num 0, .nan] :=
  ⟨[0, 3, 0], by decide +kernel⟩

example : (0 : ℚ) < 5 ∧
    Stats.computeMAD (.sorting _) [0, 3, -1] (Stats.computeMedian (.sorting _) [0, 3, (-1 : ℚ)]) ≠ 0 := by decide +kernel
example : computeResidualWeights (.sorting _) [0, 3, (-1 : ℚ)] 5 ≠ [.num 1, .num 1, .num 1] := by decide +kernel

/-! ## C22: reported changes -/

theorem weightsAt_ne_nil {n : Nat} {W : Nat → K} {ev1 ev2 : Nat → Option Nat} {phSta : Nat → Nat} {e ph : Nat} :
    weightsAt n W ev1 ev2 phSta e ph ≠ [] ↔
      ∃ i < n, W i ≠ 0 ∧ phSta i = ph ∧ (ev1 i = some e ∨ ev2 i = some e) := by
  unfold weightsAt
  have nn : ∀ l : List K, l ≠ [] ↔ ∃ x, x ∈ l := by
    intro l; cases l with
    | nil => simp
    | cons a l => simp only [ne_eq, reduceCtorEq, not_false_eq_true, true_iff]; exact ⟨a, by simp⟩
  rw [nn]
  constructor
  · rintro ⟨x, hx⟩
    obtain ⟨i, hi, hx⟩ := List.mem_flatMap.1 hx
    refine ⟨i, List.mem_range.1 hi, ?_⟩
    by_cases hc : W i ≠ 0 ∧ phSta i = ph
    · rw [if_pos hc] at hx
      refine ⟨hc.1, hc.2, ?_⟩
      rcases List.mem_append.1 hx with hx | hx
      · left; by_contra h; rw [if_neg h] at hx; cases hx
      · right; by_contra h; rw [if_neg h] at hx; cases hx
    · rw [if_neg hc] at hx; cases hx
  · rintro ⟨i, hi, hw, hp, he⟩
    refine ⟨W i, List.mem_flatMap.2 ⟨i, List.mem_range.2 hi, ?_⟩⟩
    rw [if_pos ⟨hw, hp⟩]
    rcases he with he | he
    · exact List.mem_append_left _ (by simp [he])
    · exact List.mem_append_right _ (by simp [he])

theorem find?_filterMap_keys {A B C : Type} [DecidableEq A] (f : A → Option C) (l : AMap A B) (k : A) :
    AMap.find? (l.filterMap (fun x => (f x.1).map (fun y => (x.1, y)))) k =
      if k ∈ AMap.keys l then f k else none := by
  induction l with
  | nil => rfl
  | cons x l ih =>
    obtain ⟨a, b⟩ := x
    rw [List.filterMap_cons]
    cases hf : f a with
    | none =>
      simp only [hf, Option.map_none, ih, AMap.keys_cons, List.mem_cons]
      by_cases hk : k = a
      · subst hk; simp [hf]
      · simp [hk]
    | some y =>
      simp only [hf, Option.map_some, AMap.find?_cons, ih, AMap.keys_cons, List.mem_cons]
      by_cases hk : a = k
      · subst hk; simp [hf]
      · have : ¬ k = a := fun h => hk h.symm
        simp [hk, this]

theorem loadSolutions_find? (st : StatsMap K) (m : Nat → Fl K) (e : Nat) :
    (loadSolutions st m).find? e =
      if (∃ x ∈ st, x.2.1 > 0 ∧ x.1.1 = e) then fetchDelta m e else none := by
  unfold loadSolutions
  simp only
  rw [find?_filterMap_keys]
  have key : ∀ (st : StatsMap K), e ∈ AMap.keys (st.foldl (fun (acc : AMap Nat (Delta K)) x =>
      if x.2.1 > 0 then acc.set x.1.1 ⟨.num 0, .num 0, .num 0, .num 0⟩ else acc) []) ↔
      ∃ x ∈ st, x.2.1 > 0 ∧ x.1.1 = e := by
    intro st
    induction st using List.reverseRecOn with
    | nil => simp
    | append_singleton l x ih =>
      rw [List.foldl_append, List.foldl_cons, List.foldl_nil]
      by_cases h : x.2.1 > 0
      · rw [if_pos h, AMap.mem_keys_set, ih]
        constructor
        · rintro (h1 | ⟨y, h1, h2⟩)
          · exact ⟨x, by simp, h, h1.symm⟩
          · exact ⟨y, by simp [h1], h2⟩
        · rintro ⟨y, h1, h2, h3⟩
          rcases List.mem_append.1 h1 with h1 | h1
          · exact .inr ⟨y, h1, h2, h3⟩
          · simp only [List.mem_singleton] at h1; subst h1; exact .inl h3.symm
      · rw [if_neg h, ih]
        constructor
        · rintro ⟨y, h1, h2⟩; exact ⟨y, by simp [h1], h2⟩
        · rintro ⟨y, h1, h2, h3⟩
          rcases List.mem_append.1 h1 with h1 | h1
          · exact ⟨y, h1, h2, h3⟩
          · simp only [List.mem_singleton] at h1; subst h1; exact absurd h2 h
  by_cases h : ∃ x ∈ st, x.2.1 > 0 ∧ x.1.1 = e
  · rw [if_pos ((key st).2 h), if_pos h]
  · rw [if_neg (fun hc => h ((key st).1 hc)), if_neg h]

/-- A row with non-zero weight in which the event is free. -/
def UsedIn (ops : List (SolverOp K)) (p : Prepared K) (evId : Nat) (o : ObsArg K) (i : Nat) : Prop :=
  (firstBy ObsArg.quad (obsOf ops))[i]? = some o ∧ p.dd.W i ≠ 0 ∧
  ((o.e1 = evId ∧ ∃ q, paramsOf ops o.e1 o.sta o.phase = some q ∧ q.free = true) ∨
   (o.e2 = evId ∧ ∃ q, paramsOf ops o.e2 o.sta o.phase = some q ∧ q.free = true))

theorem toIdx_inj {T : Type} [DecidableEq T] {ids : List T} {x y : T} {i : Nat}
    (hb : ids.length ≤ IdToIndex.uintMod) (hx : (IdToIndex.run ids).toIdx x = .ok i)
    (hy : (IdToIndex.run ids).toIdx y = .ok i) : x = y := by
  have hbij := (IdToIndex.index_bijection ids (card_le_of_length hb)).2.2.2.1
  have h1 := (hbij x i).1 hx
  have h2 := (hbij y i).1 hy
  rw [h1] at h2
  simpa using h2

theorem stat_iff (ops : List (SolverOp K)) (hb : Fits ops) {nth : NthElement (id : K → K)} {c r : K} {p : Prepared K}
    (h : IsSystemOf ops nth c r p)
    (hst : ∀ e ph, p.stats.find? (e, ph) = statOf (weightsAt p.dd.nObs p.dd.W p.dd.ev1 p.dd.ev2 p.dd.phSta e ph))
    {evId e ph : Nat} (he : (run ops).evConv.toIdx evId = .ok e) :
    (∃ v, p.stats.find? (e, ph) = some v ∧ v.1 > 0) ↔
      ∃ i o, UsedIn ops p evId o i ∧ (run ops).phStaConv.toIdx (phStaKey o.phase o.sta) = .ok ph := by
  have inv := inv_run ops hb
  have hw : (∃ v, p.stats.find? (e, ph) = some v ∧ v.1 > 0) ↔
      weightsAt p.dd.nObs p.dd.W p.dd.ev1 p.dd.ev2 p.dd.phSta e ph ≠ [] := by
    rw [hst]
    cases weightsAt p.dd.nObs p.dd.W p.dd.ev1 p.dd.ev2 p.dd.phSta e ph <;> simp [statOf]
  rw [hw, weightsAt_ne_nil]
  constructor
  · rintro ⟨i, hi, hW, hph, hev⟩
    obtain ⟨o, ho⟩ : ∃ o, (firstBy ObsArg.quad (obsOf ops))[i]? = some o :=
      ⟨_, List.getElem?_eq_getElem (by rw [← h.rows]; exact hi)⟩
    obtain ⟨e1, e2, ph', p1, p2, w, g1, g2, g3, g4, g5, g6, g7, g8, -⟩ := h.observation i o ho
    refine ⟨i, o, ⟨ho, hW, ?_⟩, by rw [g3, ← g8, hph]⟩
    rw [inv.evConv] at he g1 g2
    rcases hev with hev | hev
    · left
      rw [g6] at hev
      cases hf : p1.free with
      | false => rw [hf] at hev; simp at hev
      | true =>
        rw [hf] at hev; simp only [if_true, Option.some.injEq] at hev
        subst hev
        exact ⟨toIdx_inj hb.ev g1 he, p1, g4, hf⟩
    · right
      rw [g7] at hev
      cases hf : p2.free with
      | false => rw [hf] at hev; simp at hev
      | true =>
        rw [hf] at hev; simp only [if_true, Option.some.injEq] at hev
        subst hev
        exact ⟨toIdx_inj hb.ev g2 he, p2, g5, hf⟩
  · rintro ⟨i, o, ⟨ho, hW, hev⟩, hph⟩
    obtain ⟨e1, e2, ph', p1, p2, w, g1, g2, g3, g4, g5, g6, g7, g8, -⟩ := h.observation i o ho
    refine ⟨i, by rw [h.rows]; exact (List.getElem?_eq_some_iff.1 ho).1, hW, ?_, ?_⟩
    · rw [g3] at hph; simp only [Outcome.ok.injEq] at hph; rw [g8, hph]
    · rcases hev with ⟨rfl, q, hq, hf⟩ | ⟨rfl, q, hq, hf⟩
      · left
        rw [g4] at hq; simp only [Option.some.injEq] at hq; subst hq
        rw [g1] at he; simp only [Outcome.ok.injEq] at he
        rw [g6, hf, ← he]; rfl
      · right
        rw [g5] at hq; simp only [Option.some.injEq] at hq; subst hq
        rw [g2] at he; simp only [Outcome.ok.injEq] at he
        rw [g7, hf, ← he]; rfl

theorem toIdx_ok_iff {T : Type} [DecidableEq T] (c : IdToIndex T) (x : T) (i : Nat) :
    c.toIdx x = .ok i ↔ c.fwd.find? x = some i := by
  unfold IdToIndex.toIdx
  cases c.fwd.find? x <;> simp [Outcome.ofOption]

/-- **C22.** A change is reported for an event exactly if the event is free in some observation with
non-zero weight and the four components of the solution for it are finite; the change is these four
components. -/
theorem event_changes (ops : List (SolverOp K)) (hb : Fits ops) (hs : NoSeparator ops)
    (hc : Complete ops) (nth : NthElement (id : K → K)) (ttConstraint residualDownWeight : K)
    (io : List (Nat × Obs K)) (ip : List ((Nat × Nat) × ObsParams K))
    (hio : io.Perm (run ops).observations) (hip : ip.Perm (run ops).obsParams) (p : Prepared K)
    (hp : (run ops).prepare nth ttConstraint residualDownWeight io ip = .ok (some p))
    (m : Nat → Fl K) (evId : Nat) (dl : Delta K) :
    (run ops).getEventChanges (loadSolutions p.stats m) evId = some dl ↔
      (∃ i o, UsedIn ops p evId o i) ∧
      ∃ e, (run ops).evConv.toIdx evId = .ok e ∧
        dl = ⟨m (e * 4), m (e * 4 + 1), m (e * 4 + 2), m (e * 4 + 3)⟩ ∧
        ∀ k < 4, (m (e * 4 + k)).isFinite = true := by
  rcases prepare_spec ops hb hs hc nth ttConstraint residualDownWeight io ip hio hip with
    ⟨p', h1, h2, h3, h4⟩ | ⟨h1, -⟩
  swap
  · rw [hp] at h1; simp at h1
  rw [hp] at h1
  simp only [Outcome.ok.injEq, Option.some.injEq] at h1
  subst h1
  have hfetch : ∀ e, fetchDelta m e = some dl ↔
      dl = ⟨m (e * 4), m (e * 4 + 1), m (e * 4 + 2), m (e * 4 + 3)⟩ ∧
        ∀ k < 4, (m (e * 4 + k)).isFinite = true := by
    intro e
    have hall : (∀ k < 4, (m (e * 4 + k)).isFinite = true) ↔ (m (e * 4)).isFinite = true ∧
        (m (e * 4 + 1)).isFinite = true ∧ (m (e * 4 + 2)).isFinite = true ∧ (m (e * 4 + 3)).isFinite = true := by
      constructor
      · intro h; exact ⟨h 0 (by omega), h 1 (by omega), h 2 (by omega), h 3 (by omega)⟩
      · rintro ⟨a, b, c, d⟩ k hk
        match k, hk with
        | 0, _ => exact a
        | 1, _ => exact b
        | 2, _ => exact c
        | 3, _ => exact d
    rw [hall]
    unfold fetchDelta
    simp only [Nat.add_zero]
    cases (m (e * 4)).isFinite <;> cases (m (e * 4 + 1)).isFinite <;> cases (m (e * 4 + 2)).isFinite <;>
      cases (m (e * 4 + 3)).isFinite <;> simp [eq_comm]
  unfold getEventChanges
  cases he : (run ops).evConv.fwd.find? evId with
  | none =>
    simp only [reduceCtorEq, false_iff, not_and]
    rintro - ⟨e, h, -⟩
    rw [toIdx_ok_iff, he] at h
    cases h
  | some e =>
    have he' := (toIdx_ok_iff _ _ _).2 he
    simp only
    rw [loadSolutions_find?]
    have hex : (∃ x ∈ p.stats, x.2.1 > 0 ∧ x.1.1 = e) ↔ ∃ i o, UsedIn ops p evId o i := by
      constructor
      · rintro ⟨⟨⟨e', ph⟩, v⟩, hx, hv, rfl⟩
        have hf := AMap.find?_of_mem h3 hx
        obtain ⟨i, o, hu, -⟩ := (stat_iff ops hb h2 h4 he').1 ⟨v, hf, hv⟩
        exact ⟨i, o, hu⟩
      · rintro ⟨i, o, hu⟩
        obtain ⟨e1, e2, ph, -, -, -, -, -, g3, -⟩ := h2.observation i o hu.1
        obtain ⟨v, hv1, hv2⟩ := (stat_iff ops hb h2 h4 he').2 ⟨i, o, hu, g3⟩
        exact ⟨((e, ph), v), AMap.mem_of_find? hv1, hv2, rfl⟩
    by_cases hu : ∃ x ∈ p.stats, x.2.1 > 0 ∧ x.1.1 = e
    · rw [if_pos hu, hfetch]
      constructor
      · intro h; exact ⟨hex.1 hu, e, he', h⟩
      · rintro ⟨-, e', h, h'⟩
        rw [he'] at h; simp only [Outcome.ok.injEq] at h; subst h
        exact h'
    · rw [if_neg hu]
      simp only [reduceCtorEq, false_iff, not_and]
      intro h; exact absurd (hex.2 h) hu

/-- **C22, phases.** A phase of an event is reported as used exactly if the event is free in some
observation of that station and phase with non-zero weight. -/
theorem event_phase_used (ops : List (SolverOp K)) (hb : Fits ops) (hs : NoSeparator ops)
    (hc : Complete ops) (nth : NthElement (id : K → K)) (ttConstraint residualDownWeight : K)
    (io : List (Nat × Obs K)) (ip : List ((Nat × Nat) × ObsParams K))
    (hio : io.Perm (run ops).observations) (hip : ip.Perm (run ops).obsParams) (p : Prepared K)
    (hp : (run ops).prepare nth ttConstraint residualDownWeight io ip = .ok (some p))
    (evId : Nat) (sta phase : List Char) (hph : '@' ∉ phase) :
    (run ops).isEventPhaseUsed p.stats evId sta phase = true ↔
      ∃ i o, UsedIn ops p evId o i ∧ o.sta = sta ∧ o.phase = phase := by
  rcases prepare_spec ops hb hs hc nth ttConstraint residualDownWeight io ip hio hip with
    ⟨p', h1, h2, h3, h4⟩ | ⟨h1, -⟩
  swap
  · rw [hp] at h1; simp at h1
  rw [hp] at h1
  simp only [Outcome.ok.injEq, Option.some.injEq] at h1
  subst h1
  have inv := inv_run ops hb
  have hmemo : ∀ i o, UsedIn ops p evId o i → o ∈ obsOf ops := fun i o h =>
    firstBy_subset _ _ (List.mem_of_getElem? h.1)
  unfold isEventPhaseUsed
  cases he : (run ops).evConv.fwd.find? evId with
  | none =>
    simp only [Bool.false_eq_true, false_iff]
    rintro ⟨i, o, hu, -⟩
    obtain ⟨e1, e2, ph, p1, p2, w, g1, g2, -⟩ := h2.observation i o hu.1
    rcases hu.2.2 with ⟨h, -⟩ | ⟨h, -⟩
    · rw [toIdx_ok_iff, h, he] at g1; cases g1
    · rw [toIdx_ok_iff, h, he] at g2; cases g2
  | some e =>
    cases hp' : (run ops).phStaConv.fwd.find? (phStaKey phase sta) with
    | none =>
      simp only [Bool.false_eq_true, false_iff]
      rintro ⟨i, o, hu, rfl, rfl⟩
      obtain ⟨e1, e2, ph, p1, p2, w, g1, g2, g3, -⟩ := h2.observation i o hu.1
      rw [toIdx_ok_iff, hp'] at g3; cases g3
    | some ph =>
      have hpi := (toIdx_ok_iff _ _ _).2 hp'
      have key := stat_iff ops hb h2 h4 (ph := ph) ((toIdx_ok_iff _ _ _).2 he)
      simp only
      refine Iff.trans (b := ∃ v, p.stats.find? (e, ph) = some v ∧ v.1 > 0) ?_ ?_
      · cases p.stats.find? (e, ph) <;> simp
      rw [key]
      constructor
      · rintro ⟨i, o, hu, hk⟩
        have ho := hmemo i o hu
        rw [inv.phConv] at hk hpi
        have := (phStaKey_inj (hs.1 o ho) hph).1 (toIdx_inj hb.ph hk hpi)
        exact ⟨i, o, hu, this.2, this.1⟩
      · rintro ⟨i, o, hu, rfl, rfl⟩
        exact ⟨i, o, hu, hpi⟩

example : (match (run sample).prepare (.sorting _) 1 0 (run sample).observations (run sample).obsParams with
    | .ok (some p) =>
        decide ((run sample).getEventChanges (loadSolutions p.stats (fun i => .num i)) 20 =
            some ⟨.num 4, .num 5, .num 6, .num 7⟩ ∧
          (run sample).getEventChanges (loadSolutions p.stats (fun i => .num i)) 10 = none ∧
          (run sample).getEventChanges (loadSolutions p.stats (fun i => if i = 6 then .nan else .num i)) 20 = none ∧
          (run sample).isEventPhaseUsed p.stats 20 "A".toList "P".toList = true ∧
          (run sample).isEventPhaseUsed p.stats 10 "A".toList "P".toList = false)
    | _ => false) = true := by decide +kernel

end Verif.Solver
