import Verif.Spec.ListOrg

/-!
# Proofs about `sclistorg`
-/

namespace Verif.ListOrgSpec
open Verif.ListOrg Verif.Region

theorem among_iff (inc excl : Option (List String)) (x : Option String) :
    (notIncluded inc x = false ∧ excluded excl x = false) ↔ Among inc excl x := by
  unfold notIncluded excluded Among
  rcases inc with _ | l <;> rcases excl with _ | l' <;> rcases x with _ | x <;> simp
  · constructor
    · rintro h s hs rfl; exact h hs
    · intro h hx; exact h x hx rfl
  · intro _
    constructor
    · rintro h s hs rfl; exact h hs
    · intro h hx; exact h x hx rfl

theorem less_ok {K : Type} [LT K] [DecidableLT K] {a b : Option K} {r : Bool} (h : less a b = .ok r) :
    ∃ x y, a = some x ∧ b = some y ∧ r = decide (x < y) := by
  unfold less at h
  rcases a with _ | x <;> rcases b with _ | y <;> simp at h
  exact ⟨x, y, rfl, rfl, h.symm⟩

/-- the result of `worse`, in terms of ranks -/
theorem worse_ok {t : String} {best : Option Origin} {org : Origin} {r : Bool} (h : worse t best org = .ok r) :
    (r = true → (t ∈ ["maxPhases", "minPhases", "maxRMS", "minRMS"] ∧ rank t org = none) ∨
      ∃ c x y, best = some c ∧ rank t org = some x ∧ rank t c = some y ∧ x < y) ∧
    (r = false → (t ∈ ["maxPhases", "minPhases", "maxRMS", "minRMS"] → rank t org ≠ none) ∧
      ∀ c, best = some c → ∃ x y, rank t c = some x ∧ rank t org = some y ∧ x ≤ y) := by
  have key : ∀ {K : Type} (_ : LT K) (_ : DecidableLT K) (f : K → ℚ) (g : Origin → Option K) (inc : Bool)
      (_ : ∀ x y : K, x < y ↔ if inc then f x < f y else f y < f x) (c : Origin) (_ : best = some c)
      (_ : (if inc then less (g org) (g c) else less (g c) (g org)) = Outcome.ok r),
      ∃ x y, (g org).map f = some x ∧ (g c).map f = some y ∧ (r = true ↔ x < y) := by
    intro K _ _ f g inc hf c hc hl
    rcases inc with _ | _
    · obtain ⟨x, y, hx, hy, hr⟩ := less_ok hl
      refine ⟨f y, f x, by simp [hy], by simp [hx], ?_⟩
      rw [hr, decide_eq_true_iff, hf]; simp
    · obtain ⟨x, y, hx, hy, hr⟩ := less_ok hl
      refine ⟨f x, f y, by simp [hx], by simp [hy], ?_⟩
      rw [hr, decide_eq_true_iff, hf]; simp
  have fin : ∀ (c : Origin), best = some c → (∃ x y, rank t org = some x ∧ rank t c = some y ∧ (r = true ↔ x < y)) →
      (r = true → (t ∈ ["maxPhases", "minPhases", "maxRMS", "minRMS"] ∧ rank t org = none) ∨
        ∃ c x y, best = some c ∧ rank t org = some x ∧ rank t c = some y ∧ x < y) ∧
      (r = false → (t ∈ ["maxPhases", "minPhases", "maxRMS", "minRMS"] → rank t org ≠ none) ∧
        ∀ c, best = some c → ∃ x y, rank t c = some x ∧ rank t org = some y ∧ x ≤ y) := by
    rintro c hc ⟨x, y, hx, hy, hr⟩
    constructor
    · intro h; exact .inr ⟨c, x, y, hc, hx, hy, hr.1 h⟩
    · intro h
      refine ⟨fun _ => by simp [hx], fun c' hc' => ?_⟩
      rw [hc] at hc'; cases hc'
      refine ⟨y, x, hy, hx, ?_⟩
      by_contra hlt
      have := hr.2 (lt_of_not_ge hlt)
      simp [h] at this
  unfold worse at h
  split_ifs at h with h1 h2 h3 h4 h5 h6 h7 h8 h9 h10
  · subst h1
    rcases best with _ | c
    · cases h; simp
    · exact fin c rfl (by have := key _ _ (fun t : Int => (t : ℚ)) (·.creationTime) true (by intro x y; simp) c rfl h; simpa only [rank] using this)
  · subst h2
    rcases best with _ | c
    · cases h; simp
    · exact fin c rfl (by have := key _ _ (fun t : Int => -(t : ℚ)) (·.creationTime) false (by intro x y; simp) c rfl h; simpa only [rank] using this)
  · subst h3
    cases h
    simp only [Option.isNone_iff_eq_none] at h4
    simp [rank, h4]
  · subst h3
    rcases best with _ | c
    · cases h; simp [rank, Option.isNone_iff_eq_none] at h4 ⊢; assumption
    · exact fin c rfl (by have := key _ _ (fun t : Nat => (t : ℚ)) (·.phases) true (by intro x y; simp) c rfl h; simpa only [rank] using this)
  · subst h5
    cases h
    simp only [Option.isNone_iff_eq_none] at h6
    simp [rank, h6]
  · subst h5
    rcases best with _ | c
    · cases h; simp [rank, Option.isNone_iff_eq_none] at h6 ⊢; assumption
    · exact fin c rfl (by have := key _ _ (fun t : Nat => -(t : ℚ)) (·.phases) false (by intro x y; simp) c rfl h; simpa only [rank] using this)
  · subst h7
    cases h
    simp only [Option.isNone_iff_eq_none] at h8
    simp [rank, h8]
  · subst h7
    rcases best with _ | c
    · cases h; simp [rank, Option.isNone_iff_eq_none] at h8 ⊢; assumption
    · have := key _ _ (fun t : ℚ => t) (·.rms) true (by intro x y; simp) c rfl h
      simp only [Option.map_id'] at this
      exact fin c rfl (by simpa only [rank] using this)
  · subst h9
    cases h
    simp only [Option.isNone_iff_eq_none] at h10
    simp [rank, h10]
  · subst h9
    rcases best with _ | c
    · cases h; simp [rank, Option.isNone_iff_eq_none] at h10 ⊢; assumption
    · exact fin c rfl (by have := key _ _ (fun t : ℚ => -t) (·.rms) false (by intro x y; simp) c rfl h; simpa only [rank] using this)
  · cases h
    have hr : ∀ c, rank t c = some 0 := by
      intro c
      unfold rank
      split <;> first | rfl | simp_all
    constructor
    · intro h; cases h
    · intro _
      refine ⟨fun _ => by simp [hr], fun c _ => ⟨0, 0, hr _, hr _, le_refl _⟩⟩

theorem outside_ok {o : Options} {org : Origin} {r : Bool} (hL : Longitudes o org) (h : outside o.area org = .ok r) :
    r = false ↔ ∀ a, o.area = some a → a.minLat ≤ org.latitude ∧ org.latitude ≤ a.maxLat ∧ OnEastwardArc a.minLon a.maxLon org.longitude := by
  unfold outside at h
  rcases ha : o.area with _ | a
  · rw [ha] at h; cases h; simp
  · rw [ha] at h
    obtain ⟨l1, l2, l3, l4⟩ := hL a ha
    have hreg := rect_region_partial a.minLat a.minLon a.maxLat a.maxLon org.latitude org.longitude l1 l2 l3 l4
    simp only [Option.some.injEq, forall_eq']
    rw [← hreg]
    unfold Origin.place at h
    rcases hd : org.depth with _ | d
    · simp [hd] at h
    · simp only [hd, Option.map_some] at h
      unfold rectInside
      by_cases h1 : org.latitude < a.minLat ∨ org.latitude > a.maxLat
      · rw [if_pos h1] at h ⊢
        cases h; simp
      · rw [if_neg h1] at h ⊢
        simp only [Outcome.ok.injEq] at h
        rw [← h]
        simp only [decide_eq_false_iff_not, decide_eq_true_iff, gt_iff_lt, not_lt]

/-- what happens to one origin -/
theorem consider_ok {lower : String → String} {o : Options} {best best' : Option Origin} {org : Origin} (hL : Longitudes o org)
    (h : consider lower o best org = .ok best') :
    (best' = best ∧ (¬ Candidate lower o org ∨
      ∃ c x y, best = some c ∧ rank o.orgType org = some x ∧ rank o.orgType c = some y ∧ x < y)) ∨
    (best' = some org ∧ Candidate lower o org ∧
      ∀ c, best = some c → ∃ x y, rank o.orgType c = some x ∧ rank o.orgType org = some y ∧ x ≤ y) := by
  unfold consider at h
  by_cases c1 : o.automaticOnly = true ∧ org.evalMode ≠ some .automatic
  · rw [if_pos c1] at h; cases h
    exact .inl ⟨rfl, .inl fun hc => c1.2 (hc.1.1 c1.1)⟩
  rw [if_neg c1] at h
  by_cases c2 : o.manualOnly = true ∧ org.evalMode ≠ some .manual
  · rw [if_pos c2] at h; cases h
    exact .inl ⟨rfl, .inl fun hc => c2.2 (hc.1.2.1 c2.1)⟩
  rw [if_neg c2] at h
  rcases hw : worse o.orgType best org with w | _ | _
  rotate_left
  · rw [hw] at h; cases h
  · rw [hw] at h; cases h
  obtain ⟨w1, w2⟩ := worse_ok hw
  rw [hw, Outcome.bind_ok] at h
  rcases w with _ | _
  rotate_left
  · simp only [if_true, Outcome.pure_eq, Outcome.ok.injEq] at h
    refine .inl ⟨h.symm, ?_⟩
    rcases w1 rfl with ⟨a, b⟩ | hc
    · exact .inl fun hc => hc.2 a b
    · exact .inr hc
  obtain ⟨w3, w4⟩ := w2 rfl
  simp only [Bool.false_eq_true, if_false] at h
  have hA : ∀ {inc excl : Option (List String)} {x : Option String}, (notIncluded inc x = true ∨ excluded excl x = true) →
      ¬ Among inc excl x := by
    intro inc excl x hx ha
    obtain ⟨a, b⟩ := (among_iff inc excl x).2 ha
    rcases hx with hx | hx <;> simp_all
  split_ifs at h with d1 d2 d3 d4 d5 d6 d7 d8
  · cases h; exact .inl ⟨rfl, .inl fun hc => hA (.inl d1) hc.1.2.2.1⟩
  · cases h; exact .inl ⟨rfl, .inl fun hc => hA (.inr d2) hc.1.2.2.1⟩
  · cases h; exact .inl ⟨rfl, .inl fun hc => hA (.inl d3) hc.1.2.2.2.1⟩
  · cases h; exact .inl ⟨rfl, .inl fun hc => hA (.inr d4) hc.1.2.2.2.1⟩
  · cases h; exact .inl ⟨rfl, .inl fun hc => hA (.inl d5) hc.1.2.2.2.2.1⟩
  · cases h; exact .inl ⟨rfl, .inl fun hc => hA (.inr d6) hc.1.2.2.2.2.1⟩
  · cases h; exact .inl ⟨rfl, .inl fun hc => hA (.inl d7) hc.1.2.2.2.2.2.1⟩
  · cases h; exact .inl ⟨rfl, .inl fun hc => hA (.inr d8) hc.1.2.2.2.2.2.1⟩
  rcases ho : outside o.area org with r | _ | _
  rotate_left
  · rw [ho] at h; cases h
  · rw [ho] at h; cases h
  have hO := outside_ok hL ho
  rw [ho, Outcome.bind_ok] at h
  rcases r with _ | _
  · simp only [Bool.false_eq_true, if_false, Outcome.pure_eq, Outcome.ok.injEq] at h
    refine .inr ⟨h.symm, ⟨⟨?_, ?_, (among_iff ..).1 ⟨by simpa using d1, by simpa using d2⟩, (among_iff ..).1 ⟨by simpa using d3, by simpa using d4⟩,
      (among_iff ..).1 ⟨by simpa using d5, by simpa using d6⟩, (among_iff ..).1 ⟨by simpa using d7, by simpa using d8⟩, hO.1 rfl⟩, w3⟩, w4⟩
    · intro ha; by_contra hb; exact c1 ⟨ha, hb⟩
    · intro ha; by_contra hb; exact c2 ⟨ha, hb⟩
  · simp only [if_true, Outcome.pure_eq, Outcome.ok.injEq] at h
    refine .inl ⟨h.symm, .inl fun hc => ?_⟩
    have := hO.2 hc.1.2.2.2.2.2.2
    cases this

/-- one more origin -/
theorem answer_step {lower : String → String} {o : Options} {seen : List Origin} {best best' : Option Origin} {org : Origin}
    (hL : Longitudes o org) (hb : Answer lower o seen best) (h : consider lower o best org = .ok best') :
    Answer lower o (seen ++ [org]) best' := by
  rcases consider_ok hL h with ⟨rfl, hc⟩ | ⟨rfl, hc, hr⟩
  · rcases best' with _ | c
    · rcases hc with hc | ⟨c, _, _, h0, _⟩
      · intro x hx
        rcases List.mem_append.1 hx with hx | hx
        · exact hb x hx
        · rw [List.mem_singleton.1 hx]; exact hc
      · cases h0
    · obtain ⟨l, r, rfl, h1, h2, h3⟩ := hb
      refine ⟨l, r ++ [org], by simp, h1, h2, ?_⟩
      intro x hx hxc
      rcases List.mem_append.1 hx with hx | hx
      · exact h3 x hx hxc
      · rw [List.mem_singleton.1 hx] at hxc ⊢
        rcases hc with hc | ⟨c', a, b, h0, ha, hb, hab⟩
        · exact absurd hxc hc
        · cases h0; exact ⟨a, b, ha, hb, hab⟩
  · refine ⟨seen, [], rfl, hc, ?_, by simp⟩
    intro x hx hxc
    rcases best with _ | c
    · exact absurd hxc (hb x hx)
    · obtain ⟨l, r, rfl, h1, h2, h3⟩ := hb
      obtain ⟨u, v, hu, hv, huv⟩ := hr c rfl
      rcases List.mem_append.1 hx with hx | hx
      · obtain ⟨a, b, ha, hb, hab⟩ := h2 x hx hxc
        rw [hu] at hb; cases hb
        exact ⟨a, v, ha, hv, hab.trans huv⟩
      · rcases List.mem_cons.1 hx with rfl | hx
        · exact ⟨u, v, hu, hv, huv⟩
        · obtain ⟨a, b, ha, hb, hab⟩ := h3 x hx hxc
          rw [hu] at hb; cases hb
          exact ⟨a, v, ha, hv, hab.le.trans huv⟩

theorem answer_fold {lower : String → String} {o : Options} :
    ∀ (rest seen : List Origin) (best r : Option Origin), (∀ x ∈ rest, Longitudes o x) → Answer lower o seen best →
      rest.foldlM (consider lower o) best = .ok r → Answer lower o (seen ++ rest) r
  | [], seen, best, r, _, hb, h => by
    cases h; simpa using hb
  | org :: rest, seen, best, r, hL, hb, h => by
    rw [List.foldlM_cons] at h
    rcases hc : consider lower o best org with b | _ | _
    rotate_left
    · rw [hc] at h; cases h
    · rw [hc] at h; cases h
    rw [hc, Outcome.bind_ok] at h
    have := answer_fold rest (seen ++ [org]) b r (fun x hx => hL x (.tail _ hx)) (answer_step (hL org (.head _)) hb hc) h
    simpa using this

theorem findOrigin_answer {lower : String → String} {db : Database} {o : Options} {ev : Event} {r : Option Origin}
    (hL : ∀ x ∈ sources db o ev, Longitudes o x) (h : findOrigin lower db o ev = .ok r) : Answer lower o (sources db o ev) r := by
  have := answer_fold (sources db o ev) [] none r hL (by intro x hx; cases hx) h
  simpa using this

theorem answer_unique {lower : String → String} {o : Options} {l : List Origin} {r r' : Option Origin}
    (h : Answer lower o l r) (h' : Answer lower o l r') : r = r' := by
  have key : ∀ {a b : Origin}, Answer lower o l (some a) → Answer lower o l (some b) → a = b := by
    rintro a b ⟨p, q, e, h1, h2, h3⟩ ⟨p', q', e', h1', h2', h3'⟩
    rw [e] at e'
    rcases List.append_eq_append_iff.1 e' with ⟨s, e1, e2⟩ | ⟨s, e1, e2⟩
    · rcases s with _ | ⟨c, s⟩
      · simp at e2; exact e2.1
      · simp only [List.cons_append, List.cons.injEq] at e2
        obtain ⟨rfl, e2⟩ := e2
        obtain ⟨x, y, hx, hy, hxy⟩ := h3 b (by rw [e2]; simp) h1'
        obtain ⟨u, v, hu, hv, huv⟩ := h2' a (by rw [e1]; simp) h1
        rw [hx] at hv; rw [hy] at hu; cases hv; cases hu
        exact absurd hxy (not_lt.2 huv)
    · rcases s with _ | ⟨c, s⟩
      · simp at e2; exact e2.1.symm
      · simp only [List.cons_append, List.cons.injEq] at e2
        obtain ⟨rfl, e2⟩ := e2
        obtain ⟨x, y, hx, hy, hxy⟩ := h3' a (by rw [e2]; simp) h1
        obtain ⟨u, v, hu, hv, huv⟩ := h2 b (by rw [e1]; simp) h1'
        rw [hx] at hv; rw [hy] at hu; cases hv; cases hu
        exact absurd hxy (not_lt.2 huv)
  rcases r with _ | a <;> rcases r' with _ | b
  · rfl
  · obtain ⟨p, q, rfl, h1, -⟩ := h'
    exact absurd h1 (h b (by simp))
  · obtain ⟨p, q, rfl, h1, -⟩ := h
    exact absurd h1 (h' a (by simp))
  · rw [key h h']

/-! ## The end is reached -/

/-- what holds of the best origin so far, so that it can be compared -/
def Comparable (o : Options) (b : Origin) : Prop :=
  Complete o b ∧ (o.orgType ∈ ["maxPhases", "minPhases", "maxRMS", "minRMS"] → rank o.orgType b ≠ none)

theorem less_defined {K : Type} [LT K] [DecidableLT K] {a b : Option K} (ha : a ≠ none) (hb : b ≠ none) : ∃ r, less a b = .ok r := by
  rcases a with _ | a
  · exact absurd rfl ha
  rcases b with _ | b
  · exact absurd rfl hb
  exact ⟨_, rfl⟩

theorem worse_defined {o : Options} {best : Option Origin} {org : Origin} (h : Complete o org) (hb : ∀ b, best = some b → Comparable o b) :
    ∃ r, worse o.orgType best org = .ok r := by
  unfold worse
  rcases best with _ | b
  · split_ifs <;> exact ⟨_, rfl⟩
  obtain ⟨⟨-, b2⟩, b3⟩ := hb b rfl
  have h2 := h.2
  split_ifs with h1 h2 h3 h4 h5 h6 h7 h8 h9 h10
  · exact less_defined (h.2 (.inl h1)) (b2 (.inl h1))
  · exact less_defined (b2 (.inr h2)) (h.2 (.inr h2))
  · exact ⟨_, rfl⟩
  · rw [h3] at b3
    refine less_defined (by simpa using h4) ?_
    intro e; exact b3 (by simp) (by simp [rank, e])
  · exact ⟨_, rfl⟩
  · rw [h5] at b3
    refine less_defined ?_ (by simpa using h6)
    intro e; exact b3 (by simp) (by simp [rank, e])
  · exact ⟨_, rfl⟩
  · rw [h7] at b3
    refine less_defined (by simpa using h8) ?_
    intro e; exact b3 (by simp) (by simp [rank, e])
  · exact ⟨_, rfl⟩
  · rw [h9] at b3
    refine less_defined ?_ (by simpa using h10)
    intro e; exact b3 (by simp) (by simp [rank, e])
  · exact ⟨_, rfl⟩

theorem outside_defined {o : Options} {org : Origin} (h : Complete o org) : ∃ r, outside o.area org = .ok r := by
  unfold outside Origin.place
  rcases ha : o.area with _ | a
  · exact ⟨_, rfl⟩
  · have := h.1 (by simp [ha])
    rcases hd : org.depth with _ | d
    · exact absurd hd this
    · dsimp only [Option.map_some]
      split_ifs <;> exact ⟨_, rfl⟩

theorem consider_defined {lower : String → String} {o : Options} {best : Option Origin} {org : Origin} (h : Complete o org)
    (hb : ∀ b, best = some b → Comparable o b) :
    ∃ best', consider lower o best org = .ok best' ∧ ∀ b, best' = some b → Comparable o b := by
  obtain ⟨w, hw⟩ := worse_defined h hb
  obtain ⟨r, hr⟩ := outside_defined h
  have w2 := (worse_ok hw).2
  unfold consider
  by_cases c1 : o.automaticOnly = true ∧ org.evalMode ≠ some .automatic
  · rw [if_pos c1]; exact ⟨_, rfl, hb⟩
  rw [if_neg c1]
  by_cases c2 : o.manualOnly = true ∧ org.evalMode ≠ some .manual
  · rw [if_pos c2]; exact ⟨_, rfl, hb⟩
  rw [if_neg c2, hw, Outcome.bind_ok]
  rcases w with _ | _
  · have hc : Comparable o org := ⟨h, (w2 rfl).1⟩
    rw [hr]
    simp only [Bool.false_eq_true, if_false]
    split_ifs
    all_goals first
      | exact ⟨_, rfl, hb⟩
      | (rw [Outcome.bind_ok]
         rcases r with _ | _
         · exact ⟨_, rfl, fun b e => by cases e; exact hc⟩
         · exact ⟨_, rfl, hb⟩)
  · exact ⟨_, rfl, hb⟩

theorem fold_defined {lower : String → String} {o : Options} :
    ∀ (l : List Origin) (best : Option Origin), (∀ x ∈ l, Complete o x) → (∀ b, best = some b → Comparable o b) →
      ∃ r, l.foldlM (consider lower o) best = .ok r
  | [], best, _, _ => ⟨best, rfl⟩
  | org :: l, best, h, hb => by
    obtain ⟨b, e, hb'⟩ := consider_defined (lower := lower) (h org (.head _)) hb
    obtain ⟨r, hr⟩ := fold_defined (lower := lower) l b (fun x hx => h x (.tail _ hx)) hb'
    exact ⟨r, by rw [List.foldlM_cons, e, Outcome.bind_ok, hr]⟩

theorem listed_complete {lower : String → String} {db : Database} {o : Options} :
    ∀ evs : List Event, (∀ ev ∈ evs, ∀ x ∈ sources db o ev, Complete o x) → (listed lower db o evs).2 = true
  | [], _ => rfl
  | ev :: evs, h => by
    obtain ⟨r, hr⟩ : ∃ r, findOrigin lower db o ev = .ok r :=
      fold_defined _ none (h ev (.head _)) (by intro b e; cases e)
    have ih := listed_complete (lower := lower) evs (fun e he => h e (.tail _ he))
    rcases r with _ | org <;> simp only [listed, hr] <;> exact ih

/-! ## The list -/

theorem keep_iff (o : Options) (ev : Event) : keep o ev = true ↔ EventWanted o ev := by
  unfold keep EventWanted
  rcases o.modifiedAfter with _ | t <;> rcases o.evtypes with _ | l <;> rcases ev.modificationTime with _ | m <;> simp

open Classical in
theorem listed_eq {lower : String → String} {db : Database} {o : Options} :
    ∀ evs : List Event, (∀ ev ∈ evs, ∀ x ∈ sources db o ev, Longitudes o x) →
      ∃ (answer : Event → Option Origin) (done rest : List Event), evs = done ++ rest ∧
        ((listed lower db o evs).2 = true → rest = []) ∧
        (∀ ev ∈ done, Answer lower o (sources db o ev) (answer ev)) ∧
        (listed lower db o evs).1 = done.filterMap (fun ev => (answer ev).map (fun org => (ev, org)))
  | [], _ => ⟨fun _ => none, [], [], rfl, fun _ => rfl, by simp, rfl⟩
  | ev :: evs, hL => by
    obtain ⟨answer, done, rest, e, h1, h2, h3⟩ := listed_eq (lower := lower) evs (fun e he => hL e (.tail _ he))
    rcases hr : findOrigin lower db o ev with r | _ | _
    rotate_left
    · exact ⟨fun _ => none, [], ev :: evs, rfl, by simp [listed, hr], by simp, by simp [listed, hr]⟩
    · exact ⟨fun _ => none, [], ev :: evs, rfl, by simp [listed, hr], by simp, by simp [listed, hr]⟩
    have ha := findOrigin_answer (hL ev (.head _)) hr
    have hsame : ∀ e ∈ done, (if e = ev then r else answer e) = answer e := by
      intro e he
      split_ifs with hev
      · subst hev; exact answer_unique ha (h2 e he)
      · rfl
    have hmap : done.filterMap (fun e => (if e = ev then r else answer e).map (fun org => (e, org))) =
        done.filterMap (fun e => (answer e).map (fun org => (e, org))) :=
      List.filterMap_congr (fun e he => by rw [hsame e he])
    refine ⟨fun e => if e = ev then r else answer e, ev :: done, rest, by simp [e], ?_, ?_, ?_⟩
    · rcases r with _ | org <;> simpa [listed, hr] using h1
    · intro e he
      rcases List.mem_cons.1 he with rfl | he
      · simpa using ha
      · show Answer lower o (sources db o e) (if e = ev then r else answer e)
        rw [hsame e he]; exact h2 e he
    · rcases r with _ | org
      · rw [List.filterMap_cons_none (by simp), hmap]
        simpa [listed, hr] using h3
      · rw [List.filterMap_cons_some (b := (ev, org)) (by simp), hmap]
        simpa [listed, hr] using h3

end Verif.ListOrgSpec
