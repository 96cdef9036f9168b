import Verif.Spec.Trim
import Verif.Proofs.SelectionOrder

/-!
# Lemmas for C130
-/

set_option linter.unusedSectionVars false
set_option linter.unusedSimpArgs false
set_option linter.unusedVariables false

namespace Verif.Selection
open Verif.Catalog
variable {K : Type} [Field K] [LinearOrder K] [IsStrictOrderedRing K]
variable {g : Geometry K} {cfg : Config K} {refEv : Event K} {cat refCat cat' refCat' : Catalog K} {t t' : EventTree K}

/-! ## the nearest events -/

theorem deliver_beyond {E : List (K × Nat)} (h : ∀ x ∈ E, cfg.maxNeighbourDist < x.1) (nb : Neighbours) :
    KdTree.deliver (nearestVisit g cfg cat refEv refCat t) E (.ok nb) = .ok nb := by
  cases E with
  | nil => rfl
  | cons x E =>
    obtain ⟨d, i⟩ := x
    have : cfg.maxNeighbourDist < d := h (d, i) (by simp)
    simp [KdTree.deliver, nearestVisit, this]

theorem deliver_trim (hk : Known cat) (k : K × Nat → Bool) {E : List (K × Nat)} (hs : KdTree.Sorted E)
    (hd : ∀ x ∈ E, k x = false → cfg.maxNeighbourDist < x.1 ∨ offer g cfg cat refEv refCat (t.data x.2) x.1 = none) (nb : Neighbours) :
    KdTree.deliver (nearestVisit g cfg cat refEv refCat t) (E.filter k) (.ok nb) =
      KdTree.deliver (nearestVisit g cfg cat refEv refCat t) E (.ok nb) := by
  induction E generalizing nb with
  | nil => rfl
  | cons x E ih =>
    obtain ⟨d, i⟩ := x
    have hs' : KdTree.Sorted E := (List.pairwise_cons.1 hs).2
    have ih' := ih hs' (fun x hx => hd x (by simp [hx]))
    by_cases hmax : cfg.maxNeighbourDist < d
    · have hall : ∀ x ∈ (d, i) :: E, cfg.maxNeighbourDist < x.1 := by
        intro x hx
        rcases List.mem_cons.1 hx with rfl | hx
        · exact hmax
        · exact lt_of_lt_of_le hmax ((List.pairwise_cons.1 hs).1 x hx)
      rw [deliver_beyond hall, deliver_beyond (fun x hx => hall x (List.mem_of_mem_filter hx))]
    · by_cases hkx : k (d, i) = true
      · rw [List.filter_cons_of_pos hkx]
        simp only [KdTree.deliver]
        have : ∃ nb1 b, nearestVisit g cfg cat refEv refCat t (.ok nb) i d = (.ok nb1, b) := by
          simp only [nearestVisit, if_neg hmax, addNeighbour_offer hk]
          exact ⟨_, _, rfl⟩
        obtain ⟨nb1, b, hb⟩ := this
        rw [hb]
        simp only
        rw [ih']
      · rw [List.filter_cons_of_neg hkx, ih']
        rcases hd (d, i) (by simp) (by simpa using hkx) with h | h
        · exact absurd h hmax
        · simp only at h
          simp [KdTree.deliver, nearestVisit, if_neg hmax, addNeighbour_offer hk, h]

/-! ## the ellipsoids -/

/-- the entry changes nothing in these cells: it offers nothing or is in none of them -/
def Idle (g : Geometry K) (cfg : Config K) (cat : Catalog K) (refEv : Event K) (refCat : Catalog K) (t : EventTree K)
    (cs : List ((K × K) × Nat)) (x : K × Nat) : Prop :=
  offer g cfg cat refEv refCat (t.data x.2) x.1 = none ∨ ∀ c ∈ cs, matches' g refEv t c x = false

theorem scanCell_idle (hk : Known cat) (c : (K × K) × Nat) {pts : List (K × Nat)} (hi : ∀ x ∈ pts, Idle g cfg cat refEv refCat t [c] x)
    (nb : Neighbours) : ∃ p m, scanCell g cfg cat refEv refCat t c pts nb = .ok (p, nb, m) ∧ ∀ x ∈ p, x ∈ pts := by
  induction pts with
  | nil => exact ⟨[], false, rfl, by simp⟩
  | cons x pts ih =>
    obtain ⟨d, i⟩ := x
    obtain ⟨p, m, h1, h2⟩ := ih (fun x hx => hi x (by simp [hx]))
    simp only [scanCell]
    by_cases hc : (inRange c d && inCell g (eventPt refEv) c (t.pt i)) = true
    · rw [if_pos hc]
      have : offer g cfg cat refEv refCat (t.data i) d = none := by
        rcases hi (d, i) (by simp) with h | h
        · exact h
        · have := h c (by simp)
          simp only [matches'] at this
          rw [this] at hc; cases hc
      rw [addNeighbour_offer hk, this]
      simp only [h1]
      exact ⟨p, true, rfl, fun x hx => by simp [h2 x hx]⟩
    · rw [if_neg hc, h1]
      refine ⟨(d, i) :: p, m, rfl, fun x hx => ?_⟩
      rcases List.mem_cons.1 hx with rfl | hx
      · simp
      · simp [h2 x hx]

theorem sweep_idle (hk : Known cat) (cs : List ((K × K) × Nat)) {pts : List (K × Nat)}
    (hi : ∀ x ∈ pts, Idle g cfg cat refEv refCat t cs x) (nb : Neighbours) (m : Bool) :
    ∃ p m1 go, sweep g cfg cat refEv refCat t cs pts nb m = .ok (p, nb, m1, go) ∧ ∀ x ∈ p, x ∈ pts := by
  induction cs generalizing pts m with
  | nil => exact ⟨pts, m, true, rfl, fun x h => h⟩
  | cons c cs ih =>
    obtain ⟨p, m1, h1, h2⟩ := scanCell_idle (g := g) (cfg := cfg) (refEv := refEv) (refCat := refCat) (t := t) hk c (pts := pts)
      (fun x hx => (hi x hx).imp id (fun h c' hc' => by rw [List.mem_singleton] at hc'; subst hc'; exact h _ (by simp))) nb
    simp only [sweep, h1]
    split
    · exact ⟨p, _, false, rfl, h2⟩
    · obtain ⟨p', m2, go, h3, h4⟩ := ih (pts := p) (fun x hx => (hi x (h2 x hx)).imp id (fun h c' hc' => h c' (by simp [hc']))) (m || m1)
      exact ⟨p', m2, go, h3, fun x hx => h2 x (h4 x hx)⟩

theorem rounds_idle (hk : Known cat) (cs : List ((K × K) × Nat)) (fuel : Nat) {pts : List (K × Nat)}
    (hi : ∀ x ∈ pts, Idle g cfg cat refEv refCat t cs x) (nb : Neighbours) :
    ∃ e, rounds g cfg cat refEv refCat t cs fuel pts nb = .ok (nb, e) := by
  induction fuel generalizing pts with
  | zero => exact ⟨_, rfl⟩
  | succ fuel ih =>
    obtain ⟨p, m1, go, h1, h2⟩ := sweep_idle hk cs hi nb false
    simp only [rounds, h1]
    cases go with
    | false => exact ⟨_, rfl⟩
    | true =>
      cases m1 with
      | false => exact ⟨_, rfl⟩
      | true => exact ih (fun x hx => hi x (h2 x hx))

/-- A scan of the cell with and without entries that offer nothing. -/
theorem scanCell_trim (hk : Known cat) (k : K × Nat → Bool) (c : (K × K) × Nat) {pts : List (K × Nat)}
    (hd : ∀ x ∈ pts, k x = false → offer g cfg cat refEv refCat (t.data x.2) x.1 = none) (nb : Neighbours) :
    ∃ p1 nb1 m1 m2, scanCell g cfg cat refEv refCat t c pts nb = .ok (p1, nb1, m1) ∧
      scanCell g cfg cat refEv refCat t c (pts.filter k) nb = .ok (p1.filter k, nb1, m2) ∧
      (m2 = true → m1 = true) ∧ (∀ x ∈ p1, x ∈ pts) ∧ p1.length ≤ pts.length ∧ (m1 = true → p1.length < pts.length) ∧
      (p1.filter k).length ≤ (pts.filter k).length ∧ (m2 = true → (p1.filter k).length < (pts.filter k).length) ∧
      (m2 = false → p1.filter k = pts.filter k ∧ ∀ x ∈ pts.filter k, matches' g refEv t c x = false) := by
  induction pts with
  | nil => exact ⟨[], nb, false, false, rfl, rfl, by simp, by simp, by simp, by simp, by simp, by simp, by simp⟩
  | cons x pts ih =>
    obtain ⟨d, i⟩ := x
    obtain ⟨p1, nb1, m1, m2, h1, h2, h3, h4, h5, h6, h7, h8, h9⟩ := ih (fun x hx => hd x (by simp [hx]))
    by_cases hkx : k (d, i) = true
    · rw [List.filter_cons_of_pos hkx]
      simp only [scanCell]
      by_cases hc : (inRange c d && inCell g (eventPt refEv) c (t.pt i)) = true
      · rw [if_pos hc, if_pos hc, addNeighbour_offer hk]
        cases ho : offer g cfg cat refEv refCat (t.data i) d with
        | none =>
          simp only [h1, h2]
          exact ⟨p1, nb1, true, true, rfl, rfl, by simp, fun x hx => by simp [h4 x hx], by simp; omega, by simp; omega,
            by simp only [List.length_cons]; omega, by simp only [List.length_cons]; omega, by simp⟩
        | some ks =>
          exact ⟨pts, _, true, true, rfl, rfl, by simp, fun x hx => by simp [hx], by simp, by simp, by simp, by simp, by simp⟩
      · rw [if_neg hc, if_neg hc, h1, h2]
        refine ⟨(d, i) :: p1, nb1, m1, m2, rfl, by simp only [List.filter_cons_of_pos hkx], h3, ?_, by simpa using h5, by simpa using h6, ?_, ?_, ?_⟩
        · intro x hx
          rcases List.mem_cons.1 hx with rfl | hx
          · simp
          · simp [h4 x hx]
        · rw [List.filter_cons_of_pos hkx]; simpa using h7
        · rw [List.filter_cons_of_pos hkx]; simpa using h8
        · intro hm
          obtain ⟨e1, e2⟩ := h9 hm
          refine ⟨by rw [List.filter_cons_of_pos hkx, e1], fun x hx => ?_⟩
          rcases List.mem_cons.1 hx with rfl | hx
          · simpa [matches'] using hc
          · exact e2 x hx
    · rw [List.filter_cons_of_neg hkx]
      simp only [scanCell]
      by_cases hc : (inRange c d && inCell g (eventPt refEv) c (t.pt i)) = true
      · rw [if_pos hc, addNeighbour_offer hk, hd (d, i) (by simp) (by simpa using hkx)]
        simp only [h1]
        exact ⟨p1, nb1, true, m2, rfl, h2, by simp, fun x hx => by simp [h4 x hx], by simp; omega, by simp; omega, h7, h8, h9⟩
      · rw [if_neg hc, h1]
        refine ⟨(d, i) :: p1, nb1, m1, m2, rfl, ?_, h3, ?_, by simpa using h5, by simpa using h6, ?_, ?_, ?_⟩
        · rw [List.filter_cons_of_neg hkx]; exact h2
        · intro x hx
          rcases List.mem_cons.1 hx with rfl | hx
          · simp
          · simp [h4 x hx]
        · rw [List.filter_cons_of_neg hkx]; exact h7
        · rw [List.filter_cons_of_neg hkx]; exact h8
        · rw [List.filter_cons_of_neg hkx]; exact h9

/-- a match of an earlier cell is not forgotten -/
theorem sweep_match {cs : List ((K × K) × Nat)} {pts : List (K × Nat)} {nb : Neighbours} {m : Bool} (hm : m = true)
    {p : List (K × Nat)} {nb1 : Neighbours} {m1 go : Bool} (h : sweep g cfg cat refEv refCat t cs pts nb m = .ok (p, nb1, m1, go)) :
    m1 = true := by
  induction cs generalizing pts nb m with
  | nil =>
    simp only [sweep, Outcome.ok.injEq, Prod.mk.injEq] at h
    rw [← h.2.2.1]; exact hm
  | cons c cs ih =>
    simp only [sweep] at h
    cases hs : scanCell g cfg cat refEv refCat t c pts nb with
    | throws => simp [hs] at h
    | ub => simp [hs] at h
    | ok r =>
      obtain ⟨p', nb', m'⟩ := r
      simp only [hs] at h
      split at h
      · simp only [Outcome.ok.injEq, Prod.mk.injEq] at h
        rw [← h.2.2.1]; simp [hm]
      · exact ih (m := m || m') (by simp [hm]) h

/-- A pass over the cells with and without entries that offer nothing. -/
theorem sweep_trim (hk : Known cat) (k : K × Nat → Bool) (cs : List ((K × K) × Nat)) {pts : List (K × Nat)}
    (hd : ∀ x ∈ pts, k x = false → offer g cfg cat refEv refCat (t.data x.2) x.1 = none) (nb : Neighbours) {m m' : Bool}
    (hm : m' = true → m = true) :
    ∃ p1 nb1 m1 go1 p2 m2 go2, sweep g cfg cat refEv refCat t cs pts nb m = .ok (p1, nb1, m1, go1) ∧
      sweep g cfg cat refEv refCat t cs (pts.filter k) nb m' = .ok (p2, nb1, m2, go2) ∧ (∀ x ∈ p1, x ∈ pts) ∧
      p1.length ≤ pts.length ∧ (m1 = true → m = true ∨ p1.length < pts.length) ∧
      p2.length ≤ (pts.filter k).length ∧ (m2 = true → m' = true ∨ p2.length < (pts.filter k).length) ∧
      (go2 = true → go1 = true ∧ p2 = p1.filter k ∧ (m2 = true → m1 = true) ∧
        (m2 = false → p1.filter k = pts.filter k ∧ ∀ c ∈ cs, ∀ x ∈ pts.filter k, matches' g refEv t c x = false)) ∧
      (go2 = false → go1 = true → p1.filter k = []) := by
  induction cs generalizing pts nb m m' with
  | nil =>
    exact ⟨pts, nb, m, true, pts.filter k, m', true, rfl, rfl, fun x h => h, le_rfl, .inl, le_rfl, .inl,
      fun _ => ⟨rfl, rfl, hm, by simp⟩, by simp⟩
  | cons c cs ih =>
    obtain ⟨p1, nb1, m1, m2, h1, h2, h3, h4, h5, h6, h7, h8, h9⟩ := scanCell_trim hk k c hd nb
    simp only [sweep, h1, h2]
    by_cases hfull : 0 < cfg.maxNumNeigh ∧ cfg.maxNumNeigh ≤ nb1.amount
    · rw [if_pos (.inr hfull), if_pos (.inr hfull)]
      refine ⟨p1, nb1, _, false, p1.filter k, _, false, rfl, rfl, h4, h5, ?_, h7, ?_, by simp, by simp⟩
      · intro h; rw [Bool.or_eq_true] at h; exact h.imp id h6
      · intro h; rw [Bool.or_eq_true] at h; exact h.imp id h8
    · by_cases he : p1.filter k = []
      · rw [if_pos (c := p1.filter k = [] ∨ _) (.inl he)]
        by_cases he1 : p1 = []
        · rw [if_pos (.inl he1)]
          refine ⟨p1, nb1, _, false, p1.filter k, _, false, rfl, rfl, h4, h5, ?_, h7, ?_, by simp, by simp⟩
          · intro h; rw [Bool.or_eq_true] at h; exact h.imp id h6
          · intro h; rw [Bool.or_eq_true] at h; exact h.imp id h8
        · rw [if_neg (by rintro (h | h); exacts [he1 h, hfull h])]
          have hdud : ∀ x ∈ p1, k x = false → offer g cfg cat refEv refCat (t.data x.2) x.1 = none := fun x hx => hd x (h4 x hx)
          have hall : ∀ x ∈ p1, k x = false := by
            intro x hx
            by_contra hc
            have : x ∈ p1.filter k := List.mem_filter.2 ⟨hx, by simpa using hc⟩
            rw [he] at this; cases this
          obtain ⟨q1, nbq, mq, goq, -, -, -, a1, -, a3, a4, a5, -⟩ := ih (pts := p1) hdud nb1 (m := m || m1) (m' := false) (by simp)
          obtain ⟨q, mm, gg, b1, b2⟩ := sweep_idle (g := g) (cfg := cfg) (refEv := refEv) (refCat := refCat) (t := t) hk cs (pts := p1)
            (fun x hx => .inl (hdud x hx (hall x hx))) nb1 (m || m1)
          rw [b1] at a1
          simp only [Outcome.ok.injEq, Prod.mk.injEq] at a1
          obtain ⟨rfl, rfl, rfl, rfl⟩ := a1
          refine ⟨q, nb1, mm, gg, p1.filter k, _, false, b1, rfl, fun x hx => h4 x (b2 x hx), le_trans a4 h5, ?_, h7, ?_, by simp, ?_⟩
          · intro h
            rcases a5 h with h | h
            · rw [Bool.or_eq_true] at h
              rcases h with h | h
              · exact .inl h
              · exact .inr (lt_of_le_of_lt a4 (h6 h))
            · exact .inr (lt_of_lt_of_le h h5)
          · intro h; rw [Bool.or_eq_true] at h; exact h.imp id h8
          · intro _ _
            rw [List.filter_eq_nil_iff]
            intro x hx
            simpa using hall x (b2 x hx)
      · rw [if_neg (by rintro (h | h); exacts [he (by rw [h]; rfl), hfull h]),
          if_neg (by rintro (h | h); exacts [he h, hfull h])]
        have hmm : (m' || m2) = true → (m || m1) = true := by
          intro h; rw [Bool.or_eq_true] at h ⊢; exact h.imp hm h3
        obtain ⟨q1, nbq, mq, goq, q2, mq2, goq2, a1, a2, a3, a4, a5, a6, a7, a8, a9⟩ :=
          ih (pts := p1) (fun x hx => hd x (h4 x hx)) nb1 hmm
        refine ⟨q1, nbq, mq, goq, q2, mq2, goq2, a1, a2, fun x hx => h4 x (a3 x hx), le_trans a4 h5, ?_, le_trans a6 h7, ?_, ?_, a9⟩
        · intro h
          rcases a5 h with h | h
          · rw [Bool.or_eq_true] at h
            rcases h with h | h
            · exact .inl h
            · exact .inr (lt_of_le_of_lt a4 (h6 h))
          · exact .inr (lt_of_lt_of_le h h5)
        · intro h
          rcases a7 h with h | h
          · rw [Bool.or_eq_true] at h
            rcases h with h | h
            · exact .inl h
            · exact .inr (lt_of_le_of_lt a6 (h8 h))
          · exact .inr (lt_of_lt_of_le h h7)
        · intro hgo
          obtain ⟨e1, e2, e3, e4⟩ := a8 hgo
          refine ⟨e1, e2, e3, fun hmq => ?_⟩
          obtain ⟨f1, f2⟩ := e4 hmq
          have hm2 : m2 = false := by
            by_contra hc
            have hc' : (m' || m2) = true := by rw [Bool.or_eq_true]; right; simpa using hc
            have : mq2 = true := sweep_match (g := g) (cfg := cfg) (cat := cat) (refEv := refEv) (refCat := refCat) (t := t) hc' a2
            rw [hmq] at this; cases this
          obtain ⟨g1, g2⟩ := h9 hm2
          refine ⟨f1.trans g1, fun c' hc' x hx => ?_⟩
          rcases List.mem_cons.1 hc' with rfl | hc'
          · exact g2 x hx
          · exact f2 c' hc' x (by rw [g1]; exact hx)

/-- The round robin with and without entries that offer nothing. -/
theorem rounds_trim (hk : Known cat) (k : K × Nat → Bool) (cs : List ((K × K) × Nat)) (f1 f2 : Nat) {pts : List (K × Nat)}
    (hd : ∀ x ∈ pts, k x = false → offer g cfg cat refEv refCat (t.data x.2) x.1 = none) (nb : Neighbours)
    (h1 : pts.length < f1) (h2 : (pts.filter k).length < f2) :
    ∃ r r', rounds g cfg cat refEv refCat t cs f1 pts nb = .ok r ∧
      rounds g cfg cat refEv refCat t cs f2 (pts.filter k) nb = .ok r' ∧ r.1 = r'.1 := by
  induction f1 generalizing f2 pts nb with
  | zero => omega
  | succ f1 ih =>
    cases f2 with
    | zero => omega
    | succ f2 =>
      obtain ⟨p1, nb1, m1, go1, p2, m2, go2, a1, a2, a3, a4, a5, a6, a7, a8, a9⟩ := sweep_trim (g := g) (cfg := cfg) (refEv := refEv)
        (refCat := refCat) (t := t) hk k cs hd nb (m := false) (m' := false) (by simp)
      have hdud : ∀ x ∈ p1, k x = false → offer g cfg cat refEv refCat (t.data x.2) x.1 = none := fun x hx => hd x (a3 x hx)
      simp only [rounds, a1, a2]
      cases go2 with
      | false =>
        cases go1 with
        | false => exact ⟨_, _, rfl, rfl, rfl⟩
        | true =>
          cases m1 with
          | false => exact ⟨_, _, rfl, rfl, rfl⟩
          | true =>
            have he := a9 rfl rfl
            obtain ⟨e, h⟩ := rounds_idle (g := g) (cfg := cfg) (refEv := refEv) (refCat := refCat) (t := t) hk cs f1 (pts := p1)
              (fun x hx => .inl (hdud x hx (by
                by_contra hc
                have : x ∈ p1.filter k := List.mem_filter.2 ⟨hx, by simpa using hc⟩
                rw [he] at this; cases this))) nb1
            exact ⟨_, _, h, rfl, rfl⟩
      | true =>
        obtain ⟨e1, e2, e3, e4⟩ := a8 rfl
        subst e1 e2
        cases m2 with
        | false =>
          cases m1 with
          | false => exact ⟨_, _, rfl, rfl, rfl⟩
          | true =>
            obtain ⟨q1, q2⟩ := e4 rfl
            obtain ⟨e, h⟩ := rounds_idle (g := g) (cfg := cfg) (refEv := refEv) (refCat := refCat) (t := t) hk cs f1 (pts := p1)
              (fun x hx => by
                by_cases hkx : k x = true
                · exact .inr (fun c hc => q2 c hc x (by rw [← q1]; exact List.mem_filter.2 ⟨hx, hkx⟩))
                · exact .inl (hdud x hx (by simpa using hkx))) nb1
            exact ⟨_, _, h, rfl, rfl⟩
        | true =>
          rw [e3 rfl] at a5 ⊢
          simp only
          refine ih f2 hdud nb1 ?_ ?_
          · have := a5 rfl; simp at this; omega
          · have := a7 rfl; simp at this; omega

/-! ## the offers -/

/-- an event with too few usable phases offers nothing -/
theorem offer_none (hg : g.Nonneg cat refEv t) (hk : Known cat) (hmin : 0 < cfg.minPhase) {id : Nat} {d : K} (hu : UniquePhases cat id)
    (h : ¬ Eligible g cfg cat refEv refCat id d) : offer g cfg cat refEv refCat id d = none := by
  unfold offer
  by_cases hr : id = refEv.id
  · rw [if_pos hr]
  rw [if_neg hr]
  cases he : cat.events.find? id with
  | none => rfl
  | some event =>
    have heid := hk.key _ _ he
    simp only
    cases hm : matchPhases g cfg cat refEv refCat event d (cat.phasesOf event.id) [] with
    | throws => rfl
    | ub => rfl
    | ok found =>
      simp only
      split
      · rfl
      · rename_i hlen
        exfalso
        apply h
        obtain ⟨hs, hp⟩ := matchPhases_spec (cat.phasesOf event.id) [] found List.Pairwise.nil hm
        simp only [List.nil_append] at hp
        refine ⟨hr, event, he, found.map (·.2), ?_, ?_, by simpa using hlen, ?_⟩
        · rw [(hp.map _).nodup_iff]
          rw [heid]
          unfold UniquePhases at hu
          have : ((cat.phasesOf id).filterMap (entry g cfg cat refEv refCat event d)).map (·.2) =
              ((cat.phasesOf id).filter (fun p => (entry g cfg cat refEv refCat event d p).isSome)).map (fun p => (p.stationId, p.type)) := by
            have hall : ∀ p ∈ cat.phasesOf id, p ∈ cat.phasesOf event.id := by rw [heid]; exact fun p h => h
            generalize cat.phasesOf id = ps at hall
            induction ps with
            | nil => rfl
            | cons p ps ih =>
              have ih' := ih (fun q hq => hall q (by simp [hq]))
              cases hen : entry g cfg cat refEv refCat event d p with
              | none => simp [hen, ih']
              | some x =>
                have := (matchPhase_sound hen (hall p (by simp))).1
                simp [hen, ih', this]
          rw [this]
          exact hu.sublist (List.filter_sublist.map _)
        · intro hc
          have : found = [] := by simpa using hc
          subst this
          simp at hlen; omega
        · intro sp hsp
          obtain ⟨x, hx, rfl⟩ := List.mem_map.1 hsp
          obtain ⟨p, hpm, hpe⟩ := List.mem_filterMap.1 (hp.subset hx)
          exact (matchPhase_sound hpe hpm).2.1

theorem phasesOf_restrict (S : Nat → Bool) (id : Nat) : (restrict cat S).phasesOf id = if S id then cat.phasesOf id else [] := by
  unfold Catalog.phasesOf restrict
  simp only [List.filter_filter]
  by_cases hS : S id = true
  · rw [if_pos hS]
    congr 1
    apply List.filter_congr
    intro kp _
    by_cases h : kp.1 = id
    · simp [h, hS]
    · simp [h]
  · rw [if_neg hS]
    rw [List.filter_eq_nil_iff.2]
    · rfl
    · intro kp _
      by_cases h : kp.1 = id
      · simp [h, hS]
      · simp [h]

theorem find_restrict (S : Nat → Bool) (id : Nat) : (restrict cat S).events.find? id = if S id then cat.events.find? id else none :=
  find?_filter_key cat.events S id

theorem known_restrict (hk : Known cat) (S : Nat → Bool) : Known (restrict cat S) := by
  refine ⟨fun id p hp => ?_, fun id e he => ?_⟩
  · rw [phasesOf_restrict] at hp
    split at hp
    · exact hk.stations id p hp
    · cases hp
  · rw [find_restrict] at he
    split at he
    · exact hk.key id e he
    · cases he

/-- the catalog without some events makes the offers of the others -/
theorem offers_restrict (hk : Known cat) (hmin : 0 < cfg.minPhase) (S : Nat → Bool) :
    Offers g cfg refEv cat refCat (restrict cat S) refCat (fun id => S id = true) := by
  refine ⟨hk, known_restrict hk S, fun id d hS => ?_, fun id d hS => ?_, fun id d ks _ h => ?_⟩
  · have : offer g cfg cat refEv refCat id d = offer g cfg (restrict cat S) refEv refCat id d := by
      unfold offer
      rw [find_restrict, if_pos hS]
      cases he : cat.events.find? id with
      | none => rfl
      | some e =>
        have hie : e.id = id := hk.key _ _ he
        simp only [hie]
        rw [phasesOf_restrict, if_pos hS]
        rw [matchPhases_congr (cat' := restrict cat S) (refCat' := refCat)]
        intro p
        exact entry_same (fun s => rfl) (fun sp => rfl) p
    rw [this]
    cases offer g cfg (restrict cat S) refEv refCat id d with
    | none => simp [OfferSame]
    | some ks => simp [OfferSame]
  · unfold offer
    rw [find_restrict, if_neg hS]
    split <;> rfl
  · unfold offer at h
    split at h
    · cases h
    · split at h
      · cases h
      · split at h
        · split at h
          · cases h
          · rename_i hlen
            simp only [Option.some.injEq] at h
            subst h
            rename_i found _
            have : found ≠ [] := by
              rintro rfl
              simp at hlen
              omega
            have hk := kept_ne_nil (cfg := cfg) this
            simpa using hk
        · cases h

/-! ## one selection -/

/-- the events of the index that are left out offer nothing where they are -/
def Unused (g : Geometry K) (cfg : Config K) (cat : Catalog K) (refEv : Event K) (refCat : Catalog K) (t : EventTree K) (S : Nat → Bool) : Prop :=
  ∀ x ∈ t.points, S x.2 = false → InReach g cfg (eventPt refEv) x.1 →
    offer g cfg cat refEv refCat x.2 (g.dist x.1 (eventPt refEv)) = none

variable {S : Nat → Bool}

theorem not_mem_empty (r id : Nat) (sp : StaPhase) : sp ∉ (Neighbours.empty r).phasesOf id := by
  simp [Neighbours.empty, Neighbours.phasesOf]

/-- none of them is selected -/
theorem select_kept (hk : Known cat) (ht : t.WF) (hu : Unused g cfg cat refEv refCat t S) {pop : KdTree.Pop K} {nb : Neighbours}
    (h : selectNeighbours g cfg cat refEv refCat pop t = .ok nb) : ∀ j ∈ nb.ids, S j = true := by
  intro j hj
  by_cases hm : NearestMode cfg
  · rw [select_nearest hm] at h
    obtain ⟨T, rest, h1, -, h3, h4, -⟩ := nearest_spec False hk.key ht (by simp) h
    obtain ⟨c1, c2, c3⟩ := tryAll_offer hk T (clean_empty _) h3
    obtain ⟨sp, hsp⟩ := (mem_ids c1 j).1 hj
    rcases (c3 j sp).1 hsp with h | ⟨x, hx, rfl, ks, ho, -⟩
    · exact absurd h (not_mem_empty _ _ _)
    · by_contra hS
      obtain ⟨w1, w2⟩ := withDist_mem ht (h1.subset (List.mem_append_left _ hx))
      have := hu _ w1 (by simpa using hS) ⟨fun _ => by rw [← w2]; exact h4 x hx, fun h => absurd hm h⟩
      simp only at this
      rw [← w2] at this
      rw [this] at ho; cases ho
  · rw [select_ellipsoids hm] at h
    cases he : ellipsoids g cfg cat refEv refCat t with
    | throws => simp [he, Outcome.map] at h
    | ub => simp [he, Outcome.map] at h
    | ok r =>
      simp only [he, Outcome.map, Outcome.ok.injEq] at h
      subst h
      obtain ⟨T, R, h1, h2, -⟩ := ellipsoids_spec hk.key ht he
      obtain ⟨c1, c2, c3⟩ := tryAll_offer hk T (clean_empty _) h1
      obtain ⟨sp, hsp⟩ := (mem_ids c1 j).1 hj
      rcases (c3 j sp).1 hsp with h | ⟨x, hx, rfl, ks, ho, -⟩
      · exact absurd h (not_mem_empty _ _ _)
      · by_contra hS
        obtain ⟨w1, w2, w3, w4⟩ := (candidates_spec ht).2 x (h2.subset (List.mem_append_left _ hx))
        have := hu _ w1 (by simpa using hS) ⟨fun h => absurd h hm, fun _ => ⟨w4, by rw [← w2]; exact w3⟩⟩
        simp only at this
        rw [← w2] at this
        rw [this] at ho; cases ho

theorem filter_full (L : List (K × Nat)) : (L.filter (fun x => S (t.data x.2))).map (full t) =
    (L.map (full t)).filter (fun y => S y.2.2) := by
  rw [List.filter_map]
  rfl

theorem filter_measured (L : List (Pt K × Nat)) : (L.map (measured g refEv)).filter (fun y => S y.2.2) =
    (L.filter (fun x => S x.2)).map (measured g refEv) := by
  rw [List.filter_map]
  rfl

/-- The catalog and the index without events of no use give the same neighbours. -/
theorem select_trim (o : Offers g cfg refEv cat refCat cat' refCat' (fun id => S id = true)) (ht : t.WF) (ht' : t'.WF)
    (hp : (t.points.filter (fun x => S x.2)).Perm t'.points) (hu : Unused g cfg cat refEv refCat t S)
    (ha : KdTree.Admissible g.dist g.axisDist (eventPt refEv) (t.points.map (·.1)))
    (h0 : ∀ x ∈ t.points, 0 ≤ g.dist x.1 (eventPt refEv)) (hn : cfg.maxNumNeigh = 0 ∨ NoTies g refEv t')
    {pop pop' : KdTree.Pop K} {nb : Neighbours} (h : selectNeighbours g cfg cat refEv refCat pop t = .ok nb) :
    ∃ nb', selectNeighbours g cfg cat' refEv refCat' pop' t' = .ok nb' ∧ Rel nb nb' := by
  have hsub : ∀ x ∈ t'.points, x ∈ t.points := fun x hx => List.mem_of_mem_filter (hp.symm.subset hx)
  have ha' : KdTree.Admissible g.dist g.axisDist (eventPt refEv) (t'.points.map (·.1)) :=
    ha.mono (fun p hpp => by
      obtain ⟨x, hx, rfl⟩ := List.mem_map.1 hpp
      exact List.mem_map.2 ⟨x, hsub x hx, rfl⟩)
  have h0' : ∀ x ∈ t'.points, 0 ≤ g.dist x.1 (eventPt refEv) := fun x hx => h0 x (hsub x hx)
  have hpm : ((t.points.map (measured g refEv)).filter (fun y => S y.2.2)).Perm (t'.points.map (measured g refEv)) := by
    rw [filter_measured]; exact hp.map _
  have hkept := select_kept o.known ht hu h
  by_cases hm : NearestMode cfg
  · rw [select_nearest hm] at h ⊢
    obtain ⟨E, e1, e2, e3⟩ := bestFirst_order (g := g) (t := t) pop refEv True ht (fun _ => ⟨ha, h0⟩)
    obtain ⟨E', f1, f2, f3⟩ := bestFirst_order (g := g) (t := t') pop' refEv True ht' (fun _ => ⟨ha', h0'⟩)
    have hEm : (E.map (full t)).Perm (t.points.map (measured g refEv)) := (e1.map _).trans (withDist_full ht)
    have hEE : ((E.filter (fun x => S (t.data x.2))).map (full t)).Perm (E'.map (full t')) := by
      rw [filter_full]
      exact ((hEm.filter _).trans hpm).trans ((withDist_full ht').symm.trans (f1.symm.map _))
    have hdud : ∀ x ∈ E, S (t.data x.2) = false → cfg.maxNeighbourDist < x.1 ∨ offer g cfg cat refEv refCat (t.data x.2) x.1 = none := by
      intro x hx hS
      by_cases hd : cfg.maxNeighbourDist < x.1
      · exact .inl hd
      · obtain ⟨w1, w2⟩ := withDist_mem ht (e1.subset hx)
        have := hu _ w1 hS ⟨fun _ => by rw [← w2]; exact not_lt.1 hd, fun h => absurd hm h⟩
        simp only at this
        rw [← w2] at this
        exact .inr this
    rw [e3, ← deliver_trim o.known (fun x => S (t.data x.2)) (e2 trivial) hdud] at h
    have hsE : KdTree.Sorted (E.filter (fun x => S (t.data x.2))) := List.Pairwise.sublist List.filter_sublist (e2 trivial)
    rw [f3]
    rcases hn with hmax | hno
    · obtain ⟨nb', h'⟩ := deliver_returns (g := g) (cfg := cfg) (refEv := refEv) (refCat := refCat') o.known'.stations t' E'
        (Neighbours.empty refEv.id)
      refine ⟨nb', h', ?_⟩
      have hnd : ((E.filter (fun x => S (t.data x.2))).map (fun x => t.data x.2)).Nodup := by
        refine List.Nodup.sublist (List.filter_sublist.map _) ?_
        rw [(e1.map _).nodup_iff]
        unfold KdTree.withDist
        rw [List.map_map]
        exact ids_nodup ht
      have hnd' : (E'.map (fun x => t'.data x.2)).Nodup := by
        rw [(f1.map _).nodup_iff]
        unfold KdTree.withDist
        rw [List.map_map]
        exact ids_nodup ht'
      have hk0 : (Neighbours.empty refEv.id).nbs.NodupKeys := (clean_empty _).keys
      obtain ⟨T, rest, a1, a2, a3, a4, a5⟩ := nearest_deliver o.known.key _ hk0 hnd (by simp [Neighbours.empty])
        (by simp [Neighbours.empty, Neighbours.amount]) h
      obtain ⟨T', rest', b1, b2, b3, b4, b5⟩ := nearest_deliver o.known'.key E' hk0 hnd' (by simp [Neighbours.empty])
        (by simp [Neighbours.empty, Neighbours.amount]) h'
      have tried : ∀ {T rest : List (K × Nat)} {n : Neighbours}, KdTree.Sorted (T ++ rest) →
          (rest = [] ∨ (∃ x r, rest = x :: r ∧ cfg.maxNeighbourDist < x.1) ∨ (0 < cfg.maxNumNeigh ∧ n.amount = cfg.maxNumNeigh)) →
          ∀ x ∈ T ++ rest, x.1 ≤ cfg.maxNeighbourDist → x ∈ T := by
        intro T rest n hs hr x hx hd
        rcases List.mem_append.1 hx with h | h
        · exact h
        · exfalso
          rcases hr with rfl | ⟨y, r, rfl, hy⟩ | ⟨hr, -⟩
          · cases h
          · have hs' := (List.pairwise_append.1 hs).2.1
            rcases List.mem_cons.1 h with rfl | h
            · exact absurd hd (not_le.2 hy)
            · exact absurd hd (not_le.2 (lt_of_lt_of_le hy (List.rel_of_pairwise_cons hs' h)))
          · omega
      obtain ⟨c1, c2, c3⟩ := tryAll_offer o.known T (clean_empty _) a2
      obtain ⟨d1, d2, d3⟩ := tryAll_offer o.known' T' (clean_empty _) b2
      have hST : ∀ x ∈ E.filter (fun x => S (t.data x.2)), S (t.data x.2) = true := fun x hx => (List.mem_filter.1 hx).2
      refine ⟨c1, d1, by rw [c2, d2], fun id sp => ?_⟩
      rw [c3, d3]
      constructor
      · rintro (h | ⟨x, hx, h1, ks, h2, h3⟩)
        · exact absurd h (not_mem_empty _ _ _)
        · right
          have hxE : x ∈ E.filter (fun x => S (t.data x.2)) := by rw [a1]; exact List.mem_append_left _ hx
          obtain ⟨y, hy, hye⟩ := List.mem_map.1 (hEE.subset (List.mem_map.2 ⟨x, hxE, rfl⟩))
          simp only [full, Prod.mk.injEq] at hye
          have hs := o.same id x.1 (by rw [← h1]; exact hST x hxE)
          rw [h2] at hs
          cases ho : offer g cfg cat' refEv refCat' id x.1 with
          | none => rw [ho] at hs; exact absurd hs (by simp [OfferSame])
          | some ks' =>
            rw [ho] at hs
            refine ⟨y, tried (n := nb') (by rw [← b1]; exact f2 trivial) b5 y (by rw [← b1]; exact hy) ?_, by rw [hye.2.2, h1], ks', by rw [hye.1, ho], (hs sp).1 h3⟩
            rw [hye.1]; exact a3 x hx
      · rintro (h | ⟨x, hx, h1, ks, h2, h3⟩)
        · exact absurd h (not_mem_empty _ _ _)
        · right
          have hx' : full t' x ∈ E'.map (full t') := List.mem_map.2 ⟨x, by rw [b1]; exact List.mem_append_left _ hx, rfl⟩
          obtain ⟨y, hy, hye⟩ := List.mem_map.1 (hEE.symm.subset hx')
          simp only [full, Prod.mk.injEq] at hye
          have hs := o.same id x.1 (by rw [← h1, ← hye.2.2]; exact hST y hy)
          rw [h2] at hs
          cases ho : offer g cfg cat refEv refCat id x.1 with
          | none => rw [ho] at hs; exact absurd hs (by simp [OfferSame])
          | some ks' =>
            rw [ho] at hs
            refine ⟨y, tried (n := nb) (by rw [← a1]; exact hsE) a5 y (by rw [← a1]; exact hy) ?_, by rw [hye.2.2, h1], ks', by rw [hye.1, ho], (hs sp).2 h3⟩
            rw [hye.1]; exact b3 x hx
    · have hties := measured_ties hno
      refine deliver_sim o (entries_same hsE (f2 trivial) hEE ?_) (Rel.refl (clean_empty _)) h hkept
      have hin : ∀ x ∈ (E.filter (fun x => S (t.data x.2))).map (full t), x ∈ t'.points.map (measured g refEv) := fun x hx =>
        (withDist_full ht').subset ((f1.map _).subset (hEE.subset hx))
      intro x hx y hy
      exact hties x (hin x hx) y (hin y hy)
  · have hmax : cfg.maxNumNeigh ≠ 0 := fun h => hm (.inl h)
    have hno : NoTies g refEv t' := hn.resolve_left hmax
    have hties := measured_ties hno
    rw [select_ellipsoids hm] at h ⊢
    obtain ⟨s1, p1⟩ := candidates_full (cfg := cfg) ht ha
    obtain ⟨s2, p2⟩ := candidates_full (cfg := cfg) ht' ha'
    have hdud : ∀ x ∈ candidates g cfg refEv t, S (t.data x.2) = false → offer g cfg cat refEv refCat (t.data x.2) x.1 = none := by
      intro x hx hS
      obtain ⟨w1, w2, w3, w4⟩ := (candidates_spec ht).2 x hx
      have := hu _ w1 hS ⟨fun h => absurd h hm, fun _ => ⟨w4, by rw [← w2]; exact w3⟩⟩
      simp only at this
      rw [← w2] at this
      exact this
    have hcc : List.Forall₂ (SameEntry t t') ((candidates g cfg refEv t).filter (fun x => S (t.data x.2))) (candidates g cfg refEv t') := by
      have hperm : (((candidates g cfg refEv t).filter (fun x => S (t.data x.2))).map (full t)).Perm ((candidates g cfg refEv t').map (full t')) := by
        rw [filter_full]
        refine (p1.filter _).trans ?_
        rw [List.filter_comm]
        exact (hpm.filter _).trans p2.symm
      refine entries_same (List.Pairwise.sublist List.filter_sublist s1) s2 hperm ?_
      intro x hx y hy
      exact hties x (List.mem_filter.1 (p2.subset (hperm.subset hx))).1 y (List.mem_filter.1 (p2.subset (hperm.subset hy))).1
    cases he : ellipsoids g cfg cat refEv refCat t with
    | throws => simp [he, Outcome.map] at h
    | ub => simp [he, Outcome.map] at h
    | ok r =>
      simp only [he, Outcome.map, Outcome.ok.injEq] at h
      subst h
      obtain ⟨q, q', g1, g2, g3⟩ := rounds_trim (g := g) (cfg := cfg) (refEv := refEv) (refCat := refCat) (t := t) o.known
        (fun x => S (t.data x.2)) (cells (cfg.maxNeighbourDist * 2) cfg.numEllipsoids) ((candidates g cfg refEv t).length + 1)
        ((candidates g cfg refEv t').length + 1) hdud (Neighbours.empty refEv.id) (by omega) (by rw [hcc.length_eq]; omega)
      have hq : q.1 = r.1 := by
        unfold ellipsoids at he
        simp only at he
        split at he
        · rename_i hc
          simp only [Outcome.ok.injEq] at he
          subst he
          obtain ⟨e, hi⟩ := rounds_idle (g := g) (cfg := cfg) (refEv := refEv) (refCat := refCat) (t := t) o.known
            (cells (cfg.maxNeighbourDist * 2) cfg.numEllipsoids) ((candidates g cfg refEv t).length + 1)
            (pts := candidates g cfg refEv t) (by rw [hc]; simp) (Neighbours.empty refEv.id)
          rw [hi] at g1
          cases g1; rfl
        · rw [he] at g1
          cases g1; rfl
      rw [← hq, g3] at hkept ⊢
      unfold ellipsoids
      simp only
      split
      · rename_i hc
        rw [(forall₂_nil hcc).2 hc] at g2
        obtain ⟨e, hi⟩ := rounds_idle (g := g) (cfg := cfg) (refEv := refEv) (refCat := refCat) (t := t) o.known
          (cells (cfg.maxNeighbourDist * 2) cfg.numEllipsoids) ((candidates g cfg refEv t').length + 1) (pts := []) (by simp)
          (Neighbours.empty refEv.id)
        rw [hi] at g2
        cases g2
        exact ⟨_, rfl, Rel.refl (clean_empty _)⟩
      · obtain ⟨r', e1, e2⟩ := rounds_sim o _ _ hcc (Rel.refl (clean_empty _)) g2 hkept
        exact ⟨r'.1, by simp [e1, Outcome.map], e2⟩

end Verif.Selection
