import Verif.Spec.DistanceReport
import Verif.Proofs.DDFile
import Verif.Props.Solver
import Verif.Props.Stats

/-! Helper lemmas for C109. -/

set_option linter.unusedSimpArgs false
set_option linter.unusedSectionVars false

namespace Verif.DistanceReport
open Verif.Solver Verif.DDFile Verif.Stats

section groups
variable {A : Type}

theorem groups_flatten (q : Nat) (l : List A) : (groups q l).flatten = l := by
  induction l using groups.induct q with
  | case1 => simp [groups]
  | case2 a l ih => rw [groups, List.flatten_cons, ih]; simp

theorem groups_ne (q : Nat) (l : List A) : ∀ g ∈ groups q l, g ≠ [] := by
  induction l using groups.induct q with
  | case1 => simp [groups]
  | case2 a l ih =>
    rw [groups]
    intro g hg
    rcases List.mem_cons.1 hg with rfl | hg
    · simp
    · exact ih g hg

theorem groups_le (q : Nat) (l : List A) : ∀ g ∈ groups q l, g.length ≤ q + 1 := by
  induction l using groups.induct q with
  | case1 => simp [groups]
  | case2 a l ih =>
    rw [groups]
    intro g hg
    rcases List.mem_cons.1 hg with rfl | hg
    · simp
    · exact ih g hg

theorem groups_eq_nil {q : Nat} {l : List A} (h : groups q l = []) : l = [] := by
  cases l with
  | nil => rfl
  | cons a l => rw [groups] at h; cases h

theorem groups_full (q : Nat) (l : List A) : ∀ g ∈ (groups q l).dropLast, g.length = q + 1 := by
  induction l using groups.induct q with
  | case1 => simp [groups]
  | case2 a l ih =>
    rw [groups]
    intro g hg
    cases hr : groups q (l.drop q) with
    | nil => rw [hr] at hg; simp at hg
    | cons g' gs =>
      have hne : l.drop q ≠ [] := by
        intro h; rw [h, groups] at hr; cases hr
      have hlen : q < l.length := by
        by_contra h
        exact hne (List.drop_eq_nil_of_le (by omega))
      rw [hr, List.dropLast_cons_cons] at hg
      rcases List.mem_cons.1 hg with rfl | hg
      · simp; omega
      · rw [hr] at ih; exact ih g hg

theorem groups_count (q : Nat) (l : List A) : (groups q l).length * (q + 1) < l.length + (q + 1) := by
  induction l using groups.induct q with
  | case1 => simp [groups]
  | case2 a l ih =>
    rw [groups]
    simp only [List.length_cons, List.length_drop] at ih ⊢
    rw [Nat.add_mul, Nat.one_mul]
    rcases Nat.lt_or_ge q l.length with h | h
    · omega
    · have : l.drop q = [] := List.drop_eq_nil_of_le h
      rw [this, groups]
      simp

/-- the last group has what remains -/
theorem groups_last (q : Nat) (l : List A) (h : l.length % (q + 1) ≠ 0) :
    ∃ g ∈ groups q l, g.length = l.length % (q + 1) := by
  induction l using groups.induct q with
  | case1 => simp at h
  | case2 a l ih =>
    rw [groups]
    rcases Nat.lt_or_ge q l.length with hl | hl
    · have e : (a :: l).length % (q + 1) = (l.drop q).length % (q + 1) := by
        simp only [List.length_cons, List.length_drop]
        rw [show l.length + 1 = (l.length - q) + (q + 1) by omega, Nat.add_mod_right]
      rw [e] at h ⊢
      obtain ⟨g, hg, h'⟩ := ih h
      exact ⟨g, List.mem_cons_of_mem _ hg, h'⟩
    · refine ⟨_, List.mem_cons_self .., ?_⟩
      rcases Nat.lt_or_ge l.length q with h2 | h2
      · rw [Nat.mod_eq_of_lt (by simp; omega)]
        simp; omega
      · have : l.length = q := by omega
        simp [this] at h

theorem groups_sizes (q : Nat) (l : List A) : ∀ g ∈ groups q l,
    g.length = q + 1 ∨ (g.length = l.length % (q + 1) ∧ l.length % (q + 1) ≠ 0) := by
  induction l using groups.induct q with
  | case1 => simp [groups]
  | case2 a l ih =>
    rw [groups]
    intro g hg
    rcases Nat.lt_or_ge q l.length with hl | hl
    · have e : (a :: l).length % (q + 1) = (l.drop q).length % (q + 1) := by
        simp only [List.length_cons, List.length_drop]
        rw [show l.length + 1 = (l.length - q) + (q + 1) by omega, Nat.add_mod_right]
      rcases List.mem_cons.1 hg with rfl | hg
      · left; simp; omega
      · rw [e]; exact ih g hg
    · rw [List.drop_eq_nil_of_le hl, groups, List.mem_singleton] at hg
      subst hg
      rcases Nat.lt_or_ge l.length q with h2 | h2
      · right
        rw [Nat.mod_eq_of_lt (by simp; omega)]
        simp; omega
      · left; simp; omega

theorem groups_map {B : Type} (q : Nat) (f : A → B) (l : List A) : groups q (l.map f) = (groups q l).map (List.map f) := by
  induction l using groups.induct q with
  | case1 => simp [groups]
  | case2 a l ih =>
    rw [List.map_cons, groups, groups, List.map_cons, ← List.map_drop, ih, ← List.map_take]
    simp

/-- there is only one way to cut a list into groups of the same size -/
theorem groups_unique (q : Nat) : ∀ gs : List (List A), (∀ g ∈ gs, g ≠ []) → (∀ g ∈ gs.dropLast, g.length = q + 1) →
    (∀ g ∈ gs, g.length ≤ q + 1) → gs = groups q gs.flatten := by
  intro gs
  induction gs with
  | nil => intro _ _ _; simp [groups]
  | cons g gs ih =>
    intro h1 h2 h3
    obtain ⟨a, g', rfl⟩ := List.exists_cons_of_ne_nil (h1 g (by simp))
    have hle := h3 (a :: g') (by simp)
    simp only [List.length_cons] at hle
    rw [List.flatten_cons, List.cons_append, groups]
    cases gs with
    | nil =>
      simp only [List.flatten_nil, List.append_nil]
      rw [List.take_of_length_le (by omega), List.drop_eq_nil_of_le (by omega), groups]
    | cons g2 gs =>
      have hl := h2 (a :: g') (by simp [List.dropLast])
      simp only [List.length_cons, Nat.add_right_cancel_iff] at hl
      rw [List.take_left' hl, List.drop_left' hl, ← ih (fun g hg => h1 g (by simp [hg])) (fun g hg => h2 g (by
        rw [List.dropLast_cons_of_ne_nil (by simp)]; simp [hg])) (fun g hg => h3 g (by simp [hg]))]

theorem mapM_cases {B : Type} {f : A → Outcome B} {R : A → B → Prop} : ∀ (l : List A),
    (∀ x ∈ l, f x = .ub ∨ ∃ y, f x = .ok y ∧ R x y) →
    (l.mapM f = .ub ∧ ∃ x ∈ l, f x = .ub) ∨ ∃ ys, l.mapM f = .ok ys ∧ List.Forall₂ R l ys := by
  intro l
  induction l with
  | nil => intro _; exact .inr ⟨[], rfl, .nil⟩
  | cons a l ih =>
    intro h
    rw [List.mapM_cons]
    rcases h a (by simp) with ha | ⟨y, hy, hr⟩
    · exact .inl ⟨by rw [ha]; rfl, a, by simp, ha⟩
    · rcases ih (fun x hx => h x (by simp [hx])) with ⟨h1, x, hx, h2⟩ | ⟨ys, h1, h2⟩
      · exact .inl ⟨by rw [hy, h1]; rfl, x, by simp [hx], h2⟩
      · exact .inr ⟨y :: ys, by rw [hy, h1]; rfl, .cons hr h2⟩

end groups

variable {K : Type} [Field K] [LinearOrder K] [IsStrictOrderedRing K]

theorem summary_ok (nth : NthElement (id : K → K)) {values : List K} (h : 4 ≤ values.length) :
    ∃ s, fiveNumberSummary nth values = .ok s ∧ IsSummary values s := by
  have hs : SortedOf (values.insertionSort (· ≤ ·)) values :=
    ⟨List.pairwise_insertionSort _ _, List.perm_insertionSort _ _⟩
  exact ⟨_, five_numbers_partial nth values _ hs h, _, hs.1, hs.2, rfl⟩

/-- an observation with its index among the distinct ones -/
def At (ops : List (SolverOp K)) (x : ObsArg K × Nat) : Prop := (firstBy ObsArg.quad (obsOf ops))[x.2]? = some x.1

/-- its distance, and what is stored of it -/
def stored (D : ObsArg K × Nat → K) (ops : List (SolverOp K)) (x : ObsArg K × Nat) : K × Nat × Obs K :=
  (D x, x.2, toObs ops x.1)

theorem coeffs_stored (D : ObsArg K × Nat → K) (ops : List (SolverOp K)) (g : List (ObsArg K × Nat)) :
    ((g.map (stored D ops)).map (fun x => |x.2.2.xcorrCoeff|)).filter (· ≠ 0) =
      ((g.map Prod.fst).filter (fun o => o.xcorrCoeff ≠ 0)).map (fun o => |o.xcorrCoeff|) := by
  induction g with
  | nil => rfl
  | cons a g ih =>
    simp only [List.map_cons]
    have e : (stored D ops a).2.2.xcorrCoeff = a.1.xcorrCoeff := rfl
    rw [List.filter_cons, List.filter_cons, ih, e]
    by_cases h : a.1.xcorrCoeff = 0
    · simp [h]
    · simp [h]

/-- a group of observations -/
theorem lineOf_cases {ops : List (SolverOp K)} {nth nth' : NthElement (id : K → K)} {tc rd : K} {p : Prepared K}
    (hsys : IsSystemOf ops nth' tc rd p) {dist : K × K × K → K × K × K → K} {D : ObsArg K × Nat → K}
    {g : List (ObsArg K × Nat)} (hne : g ≠ []) (hg : ∀ x ∈ g, At ops x ∧ IsDistance dist ops x.1 (D x)) :
    (lineOf nth p (g.map (stored D ops)) = .ub ∧ (g.length ≤ 3 ∨
      (0 < ((g.map Prod.fst).filter (fun o => o.xcorrCoeff ≠ 0)).length ∧
        ((g.map Prod.fst).filter (fun o => o.xcorrCoeff ≠ 0)).length ≤ 3))) ∨
    ((4 ≤ g.length ∧ (((g.map Prod.fst).filter (fun o => o.xcorrCoeff ≠ 0)).length = 0 ∨
        4 ≤ ((g.map Prod.fst).filter (fun o => o.xcorrCoeff ≠ 0)).length)) ∧ ∃ l, lineOf nth p (g.map (stored D ops)) = .ok l ∧ IsGroup dist ops (g.map Prod.fst) l) := by
  obtain ⟨a, g', rfl⟩ := List.exists_cons_of_ne_nil hne
  have hline : lineOf nth p ((a :: g').map (stored D ops)) = line nth p (stored D ops a) (g'.map (stored D ops)) := rfl
  rw [hline]
  unfold line
  simp only [← List.map_cons (f := stored D ops)]
  rw [coeffs_stored]
  set g := a :: g' with hgd
  set cs := ((g.map Prod.fst).filter (fun o => o.xcorrCoeff ≠ 0)).map (fun o => |o.xcorrCoeff|) with hcs
  have hres : (g.map (stored D ops)).map (fun x => p.dd.d x.2.1) = g.map (fun x => p.dd.d x.2) := by
    rw [List.map_map]; rfl
  rw [hres]
  rcases Nat.lt_or_ge 3 g.length with h4 | h3
  · obtain ⟨s, hs, hsum⟩ := summary_ok nth (values := g.map (fun x => p.dd.d x.2)) (by rw [List.length_map]; exact h4)
    rw [hs]
    simp only [Outcome.bind_ok]
    have hfrom : ∃ o, (g.map Prod.fst).head? = some o ∧ IsDistance dist ops o (D a) :=
      ⟨a.1, by simp [hgd], (hg a (by simp [hgd])).2⟩
    have hlast : ∃ o, (g.map Prod.fst).getLast? = some o ∧
        IsDistance dist ops o ((((g.map (stored D ops)).getLast?.map (·.1)).getD (D a))) := by
      have hl : g.getLast? = some (g.getLast (by simp [hgd])) := List.getLast?_eq_getLast_of_ne_nil _
      refine ⟨(g.getLast (by simp [hgd])).1, by rw [List.getLast?_map, hl]; rfl, ?_⟩
      rw [List.getLast?_map, hl]
      exact (hg _ (List.getLast_mem _)).2
    have hr2 : List.Forall₂ (IsResidual ops) (g.map Prod.fst) (g.map (fun x => p.dd.d x.2)) := by
      rw [List.forall₂_map_left_iff, List.forall₂_map_right_iff, List.forall₂_same]
      intro x hx
      obtain ⟨e1, e2, ph, p1, p2, w, -, -, -, h1, h2, -, -, -, -, h4, -⟩ := hsys.observation x.2 x.1 (hg x hx).1
      exact ⟨p1, p2, h1, h2, h4⟩
    by_cases he : cs = []
    · right
      have he0 : ((g.map Prod.fst).filter (fun o => o.xcorrCoeff ≠ 0)).length = 0 := by
        have : cs.length = 0 := by rw [he]; rfl
        rwa [hcs, List.length_map] at this
      rw [he]
      simp only [List.isEmpty_nil, if_true]
      refine ⟨⟨h4, .inl he0⟩, _, rfl, hfrom, hlast, by simp, ⟨_, hr2, hsum⟩, ?_, by simp⟩
      simp only [true_iff]
      intro o ho
      by_contra hc
      have : |o.xcorrCoeff| ∈ cs := by
        rw [hcs]
        exact List.mem_map.2 ⟨o, List.mem_filter.2 ⟨ho, by simpa using hc⟩, rfl⟩
      rw [he] at this
      cases this
    · have he' : cs.isEmpty = false := by simpa using he
      rw [he']
      simp only [Bool.false_eq_true, if_false]
      have hlen : cs.length = ((g.map Prod.fst).filter (fun o => o.xcorrCoeff ≠ 0)).length := by simp [hcs]
      have hpos : 0 < cs.length := List.length_pos_iff.2 he
      rcases Nat.lt_or_ge 3 cs.length with c4 | c3
      · obtain ⟨c, hc, hcsum⟩ := summary_ok nth (values := cs) c4
        rw [hc]
        right
        refine ⟨⟨h4, .inr (hlen ▸ c4)⟩, _, rfl, hfrom, hlast, by simp, ⟨_, hr2, hsum⟩, ?_, ?_⟩
        · simp only [reduceCtorEq, false_iff, not_forall]
          obtain ⟨c0, hc0⟩ := List.exists_mem_of_ne_nil _ he
          rw [hcs] at hc0
          obtain ⟨o, ho, -⟩ := List.mem_map.1 hc0
          obtain ⟨h1, h2⟩ := List.mem_filter.1 ho
          exact ⟨o, h1, by simpa using h2⟩
        · intro n s' hns
          simp only [Option.some.injEq, Prod.mk.injEq] at hns
          obtain ⟨rfl, rfl⟩ := hns
          exact ⟨hlen, hcsum⟩
      · rw [five_numbers_ub nth cs hpos c3]
        exact .inl ⟨rfl, .inr ⟨hlen ▸ hpos, hlen ▸ c3⟩⟩
  · left
    rw [five_numbers_ub nth (g.map (fun x => p.dd.d x.2)) (by simp [hgd]) (by simpa using h3)]
    exact ⟨rfl, .inl h3⟩

end Verif.DistanceReport
