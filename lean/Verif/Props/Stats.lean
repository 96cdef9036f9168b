import Verif.Model.Stats
import Mathlib.Tactic.Linarith
import Mathlib.Tactic.FieldSimp
import Mathlib.Tactic.Ring
import Mathlib.Algebra.Order.Ring.Rat
import Mathlib.Algebra.Field.Rat
import Mathlib.Data.List.Count
import Mathlib.Algebra.BigOperators.Group.List.Basic

/-!
# C56: robust statistics are correct
-/

set_option linter.unusedSimpArgs false
set_option linter.unusedSectionVars false

namespace Verif.Stats

variable {K : Type} [Field K] [LinearOrder K]

/-- **Specification.** `s` is the list `l` in increasing order. -/
def SortedOf (s l : List K) : Prop := s.Pairwise (· ≤ ·) ∧ s.Perm l

theorem maxElement_spec (l : List K) (m : K) :
    (maxElement l m = m ∨ maxElement l m ∈ l) ∧ m ≤ maxElement l m ∧ ∀ x ∈ l, x ≤ maxElement l m := by
  induction l generalizing m with
  | nil => simp [maxElement]
  | cons a l ih =>
    obtain ⟨h1, h2, h3⟩ := ih (if m < a then a else m)
    simp only [maxElement]
    have hm : m ≤ (if m < a then a else m) ∧ a ≤ (if m < a then a else m) := by
      split
      · exact ⟨le_of_lt ‹_›, le_rfl⟩
      · exact ⟨le_rfl, not_lt.1 ‹_›⟩
    refine ⟨?_, le_trans hm.1 h2, ?_⟩
    · rcases h1 with h | h
      · rw [h]; split
        · right; simp
        · left; rfl
      · right; simp [h]
    · intro x hx
      rcases List.mem_cons.1 hx with rfl | hx
      · exact le_trans hm.2 h2
      · exact h3 x hx

theorem minElement_spec (l : List K) (m : K) :
    (minElement l m = m ∨ minElement l m ∈ l) ∧ minElement l m ≤ m ∧ ∀ x ∈ l, minElement l m ≤ x := by
  induction l generalizing m with
  | nil => simp [minElement]
  | cons a l ih =>
    obtain ⟨h1, h2, h3⟩ := ih (if a < m then a else m)
    simp only [minElement]
    have hm : (if a < m then a else m) ≤ m ∧ (if a < m then a else m) ≤ a := by
      split
      · exact ⟨le_of_lt ‹_›, le_rfl⟩
      · exact ⟨le_rfl, not_lt.1 ‹_›⟩
    refine ⟨?_, le_trans h2 hm.1, ?_⟩
    · rcases h1 with h | h
      · rw [h]; split
        · right; simp
        · left; rfl
      · right; simp [h]
    · intro x hx
      rcases List.mem_cons.1 hx with rfl | hx
      · exact le_trans h2 hm.2
      · exact h3 x hx

/-- the largest of a non-empty list -/
theorem maxOf_spec (past : K) (l : List K) (h : l ≠ []) :
    maxOf past l ∈ l ∧ ∀ x ∈ l, x ≤ maxOf past l := by
  cases l with
  | nil => exact absurd rfl h
  | cons a l =>
    obtain ⟨h1, h2, h3⟩ := maxElement_spec l a
    simp only [maxOf]
    refine ⟨?_, ?_⟩
    · rcases h1 with h | h
      · rw [h]; simp
      · simp [h]
    · intro x hx
      rcases List.mem_cons.1 hx with rfl | hx
      · exact h2
      · exact h3 x hx

theorem minOf_spec (past : K) (l : List K) (h : l ≠ []) :
    minOf past l ∈ l ∧ ∀ x ∈ l, minOf past l ≤ x := by
  cases l with
  | nil => exact absurd rfl h
  | cons a l =>
    obtain ⟨h1, h2, h3⟩ := minElement_spec l a
    simp only [minOf]
    refine ⟨?_, ?_⟩
    · rcases h1 with h | h
      · rw [h]; simp
      · simp [h]
    · intro x hx
      rcases List.mem_cons.1 hx with rfl | hx
      · exact h2
      · exact h3 x hx

/-- in a sorted list everything before position `i` is below, everything after above -/
theorem sorted_le {s : List K} (hs : s.Pairwise (· ≤ ·)) {i j : Nat} (hij : i ≤ j)
    (hj : j < s.length) : s[i]'(by omega) ≤ s[j] := by
  rcases Nat.lt_or_eq_of_le hij with h | h
  · exact List.pairwise_iff_getElem.1 hs i j (by omega) hj h
  · subst h; exact le_rfl

/-- The rearranged range is, cut at `k` and sorted on both sides, the sorted list. -/
theorem isNth_halves {l r s : List K} {k : Nat} (h : IsNth (id : K → K) l r k) (hs : SortedOf s l)
    (hk : k < l.length) :
    (r.take k).Perm (s.take k) ∧ r[k]? = s[k]? ∧ (r.drop (k + 1)).Perm (s.drop (k + 1)) := by
  have hlen := h.perm.length_eq
  have hk' : k < r.length := by omega
  have hpk : r[k]? = some (r[k]'hk') := List.getElem?_eq_getElem hk'
  obtain ⟨h1, h2⟩ := h.split (r[k]'hk') hpk
  simp only [id] at h1 h2
  generalize r[k]'hk' = p at *
  let a := (r.take k).insertionSort (· ≤ ·)
  let b := (r.drop (k + 1)).insertionSort (· ≤ ·)
  have hpa : a.Perm (r.take k) := List.perm_insertionSort _ _
  have hpb : b.Perm (r.drop (k + 1)) := List.perm_insertionSort _ _
  have hsplit : r = r.take k ++ p :: r.drop (k + 1) := by
    obtain ⟨_, he⟩ := List.getElem?_eq_some_iff.1 hpk
    rw [← he]; simp
  have hperm : (a ++ p :: b).Perm s := by
    refine List.Perm.trans ?_ (hs.2.trans h.perm.symm).symm
    conv_rhs => rw [hsplit]
    exact List.Perm.append hpa (hpb.cons _)
  have ma : ∀ x ∈ a, x ≤ p := fun x hx => h1 x (hpa.mem_iff.1 hx)
  have mb : ∀ x ∈ b, p ≤ x := fun x hx => h2 x (hpb.mem_iff.1 hx)
  have hsorted : (a ++ p :: b).Pairwise (· ≤ ·) := by
    rw [List.pairwise_append, List.pairwise_cons]
    refine ⟨List.pairwise_insertionSort _ _, ⟨mb, List.pairwise_insertionSort _ _⟩, ?_⟩
    intro x hx y hy
    rcases List.mem_cons.1 hy with rfl | hy
    · exact ma x hx
    · exact le_trans (ma x hx) (mb y hy)
  have heq : a ++ p :: b = s := hperm.eq_of_pairwise
    (fun a b _ _ h1 h2 => le_antisymm h1 h2) hsorted hs.1
  have hal : a.length = k := by
    rw [hpa.length_eq]; simp; omega
  rw [hpk]
  refine ⟨?_, ?_, ?_⟩
  · rw [← heq, List.take_left' hal]; exact hpa.symm
  · rw [← heq, List.getElem?_append_right (by omega)]; simp [hal]
  · have hd : (a ++ p :: b).drop (k + 1) = b := by rw [← hal]; simp [List.drop_append]
    rw [← heq, hd]; exact hpb.symm

/-- what `nth_element` leaves at position `k`, and the largest element before it -/
theorem nth_getD (nth : NthElement (id : K → K)) {l s : List K} {k : Nat} (hs : SortedOf s l)
    (hk : k < l.length) : (nth.run l k).getD k 0 = s.getD k 0 := by
  have := (isNth_halves (nth.ok l k (by omega)) hs hk).2.1
  simp only [List.getD_eq_getElem?_getD, this]

theorem max_take (past : K) {r s : List K} {k : Nat} (h : (r.take (k + 1)).Perm (s.take (k + 1)))
    (hs : s.Pairwise (· ≤ ·)) (hk : k < s.length) : maxOf past (r.take (k + 1)) = s.getD k 0 := by
  have hlen := h.length_eq
  simp only [List.length_take] at hlen
  have hne : r.take (k + 1) ≠ [] := by
    intro h0
    have := congrArg List.length h0
    simp only [List.length_take, List.length_nil] at this
    omega
  obtain ⟨h1, h2⟩ := maxOf_spec past _ hne
  have hsk : s.getD k 0 = s[k] := by simp [List.getD_eq_getElem?_getD, hk]
  rw [hsk]
  apply le_antisymm
  · obtain ⟨i, hi, he⟩ := List.getElem_of_mem (h.mem_iff.1 h1)
    rw [← he, List.getElem_take]
    simp only [List.length_take] at hi
    exact sorted_le hs (by omega) hk
  · apply h2
    rw [h.mem_iff]
    exact List.mem_take_iff_getElem.2 ⟨k, by omega, rfl⟩

/-- **C56a.** The median is the middle order statistic, or the mean of the two middle ones, whatever
the implementation of `nth_element`. -/
theorem median_is_middle (nth : NthElement (id : K → K)) (values s : List K)
    (hs : SortedOf s values) (hne : values ≠ []) :
    computeMedian nth values =
      if values.length % 2 = 1 then s.getD (values.length / 2) 0
      else (s.getD (values.length / 2 - 1) 0 + s.getD (values.length / 2) 0) / 2 := by
  have hpos : 0 < values.length := List.length_pos_iff.2 hne
  have hslen := hs.2.length_eq
  have hk : values.length / 2 < values.length := by omega
  have hn := nth.ok values (values.length / 2) (by omega)
  have hrl := hn.perm.length_eq
  unfold computeMedian
  have he : values.isEmpty = false := by simpa using hne
  rw [he]
  simp only [Bool.false_eq_true, if_false, hrl]
  rw [nth_getD nth hs hk]
  by_cases hodd : values.length % 2 = 1
  · rw [if_neg (by omega), if_pos hodd]
  · rw [if_pos (by omega), if_neg hodd]
    obtain ⟨j, hj⟩ : ∃ j, values.length / 2 = j + 1 := ⟨values.length / 2 - 1, by omega⟩
    have hp := (isNth_halves hn hs hk).1
    rw [hj] at hp ⊢
    rw [max_take _ hp hs.1 (by omega)]
    simp

theorem countP_le_take {p : K → Bool} {s : List K} {k : Nat} (h : ∀ x ∈ s.drop k, p x = false) :
    s.countP p ≤ k := by
  rw [← List.take_append_drop k s, List.countP_append]
  have h0 : (s.drop k).countP p = 0 := by
    rw [List.countP_eq_zero]
    intro x hx; simp [h x hx]
  have h1 : (s.take k).countP p ≤ (s.take k).length := List.countP_le_length
  simp only [List.length_take] at h1
  rw [h0]; omega

theorem countP_le_drop {p : K → Bool} {s : List K} {k : Nat} (h : ∀ x ∈ s.take k, p x = false) :
    s.countP p ≤ s.length - k := by
  rw [← List.take_append_drop k s, List.countP_append]
  have h0 : (s.take k).countP p = 0 := by
    rw [List.countP_eq_zero]
    intro x hx; simp [h x hx]
  have h1 : (s.drop k).countP p ≤ (s.drop k).length := List.countP_le_length
  rw [List.take_append_drop, h0]
  simp only [List.length_drop] at h1
  omega

variable [IsStrictOrderedRing K]

/-- **C56b.** The median splits the sample in halves: at most half of the values are smaller and at
most half are larger. -/
theorem median_splits (nth : NthElement (id : K → K)) (values : List K) :
    2 * values.countP (fun v => v < computeMedian nth values) ≤ values.length ∧
    2 * values.countP (fun v => computeMedian nth values < v) ≤ values.length := by
  by_cases hne : values = []
  · subst hne; simp
  have hpos : 0 < values.length := List.length_pos_iff.2 hne
  let s := values.insertionSort (· ≤ ·)
  have hs : SortedOf s values := ⟨List.pairwise_insertionSort _ _, List.perm_insertionSort _ _⟩
  have hslen := hs.2.length_eq
  have hmid : values.length / 2 < s.length := by omega
  have hlow : (values.length - 1) / 2 < s.length := by omega
  have hbounds : s[(values.length - 1) / 2]'hlow ≤ computeMedian nth values ∧
      computeMedian nth values ≤ s[values.length / 2]'hmid := by
    rw [median_is_middle nth values s hs hne]
    have e2 : s.getD (values.length / 2) 0 = s[values.length / 2]'hmid := by
      simp [List.getD_eq_getElem?_getD, hmid]
    by_cases hodd : values.length % 2 = 1
    · rw [if_pos hodd, e2]
      have : (values.length - 1) / 2 = values.length / 2 := by omega
      simp only [this]; exact ⟨le_rfl, le_rfl⟩
    · rw [if_neg hodd, e2]
      have e : (values.length - 1) / 2 = values.length / 2 - 1 := by omega
      have e1 : s.getD (values.length / 2 - 1) 0 = s[(values.length - 1) / 2]'hlow := by
        simp only [e]; simp [List.getD_eq_getElem?_getD, (by omega : values.length / 2 - 1 < s.length)]
      have hle : s[(values.length - 1) / 2]'hlow ≤ s[values.length / 2]'hmid :=
        sorted_le hs.1 (by omega) hmid
      rw [e1]
      constructor <;> linarith
  constructor
  · rw [← hs.2.countP_eq]
    have := countP_le_take (s := s) (k := values.length / 2)
      (p := fun v => decide (v < computeMedian nth values)) ?_
    · omega
    · intro x hx
      obtain ⟨i, hi, rfl⟩ := List.getElem_of_mem hx
      simp only [List.getElem_drop, decide_eq_false_iff_not, not_lt]
      simp only [List.length_drop] at hi
      exact le_trans hbounds.2 (sorted_le hs.1 (by omega) (by omega))
  · rw [← hs.2.countP_eq]
    have := countP_le_drop (s := s) (k := (values.length - 1) / 2 + 1)
      (p := fun v => decide (computeMedian nth values < v)) ?_
    · omega
    · intro x hx
      obtain ⟨i, hi, rfl⟩ := List.getElem_of_mem hx
      simp only [List.getElem_take, decide_eq_false_iff_not, not_lt]
      simp only [List.length_take] at hi
      exact le_trans (sorted_le hs.1 (by omega) hlow) hbounds.1

/-- **C56c.** The MAD is the middle order statistic of the absolute deviations; it is never
negative and at most half of the values deviate more. -/
theorem mad_correct (nth : NthElement (id : K → K)) (values : List K) (center : K) :
    (∀ s, SortedOf s (values.map (fun v => |v - center|)) → values ≠ [] →
      computeMAD nth values center =
        if values.length % 2 = 1 then s.getD (values.length / 2) 0
        else (s.getD (values.length / 2 - 1) 0 + s.getD (values.length / 2) 0) / 2) ∧
    0 ≤ computeMAD nth values center ∧
    2 * values.countP (fun v => computeMAD nth values center < |v - center|) ≤ values.length := by
  refine ⟨?_, ?_, ?_⟩
  · intro s hs hne
    have := median_is_middle nth (values.map (fun v => |v - center|)) s hs (by simpa using hne)
    simpa [computeMAD] using this
  · by_cases hne : values = []
    · subst hne; simp [computeMAD, computeMedian]
    let l := values.map (fun v => |v - center|)
    have hl : l ≠ [] := by simpa [l] using hne
    have hmem : ∀ i, 0 ≤ (l.insertionSort (· ≤ ·)).getD i 0 := by
      intro i
      rw [List.getD_eq_getElem?_getD]
      cases h : (l.insertionSort (· ≤ ·))[i]? with
      | none => simp
      | some a =>
        have := List.mem_of_getElem? h
        rw [(List.perm_insertionSort _ _).mem_iff] at this
        simp only [l, List.mem_map] at this
        obtain ⟨v, _, rfl⟩ := this
        simp
    have := median_is_middle nth l _ ⟨List.pairwise_insertionSort _ _, List.perm_insertionSort _ _⟩ hl
    show 0 ≤ computeMedian nth l
    rw [this]
    split
    · exact hmem _
    · have h1 := hmem (l.length / 2 - 1)
      have h2 := hmem (l.length / 2)
      linarith
  · have := (median_splits nth (values.map (fun v => |v - center|))).2
    rw [List.countP_map, List.length_map] at this
    exact this

/-- **C56d.** The mean times the number of values is their sum, and it lies between any bounds of
the values. -/
theorem mean_correct (values : List K) (hne : values ≠ []) :
    computeMean values * values.length = values.sum ∧
    ∀ lo hi, (∀ v ∈ values, lo ≤ v ∧ v ≤ hi) → lo ≤ computeMean values ∧ computeMean values ≤ hi := by
  have hpos : (0 : K) < values.length := by
    have : 0 < values.length := List.length_pos_iff.2 hne
    exact_mod_cast this
  have he : values.isEmpty = false := by simpa using hne
  have hsum : computeMean values * values.length = values.sum := by
    unfold computeMean
    rw [he]
    simp only [Bool.false_eq_true, if_false]
    rw [div_mul_cancel₀ _ (ne_of_gt hpos), List.sum_eq_foldl]
  refine ⟨hsum, ?_⟩
  intro lo hi h
  have hb : ∀ l : List K, (∀ v ∈ l, lo ≤ v ∧ v ≤ hi) → lo * l.length ≤ l.sum ∧ l.sum ≤ hi * l.length := by
    intro l
    induction l with
    | nil => simp
    | cons a l ih =>
      intro hl
      have h1 := ih (fun v hv => hl v (by simp [hv]))
      have h2 := hl a (by simp)
      simp only [List.sum_cons, List.length_cons, Nat.cast_add, Nat.cast_one]
      constructor <;> nlinarith [h1.1, h1.2, h2.1, h2.2]
  have h2 := hb values h
  rw [← hsum] at h2
  exact ⟨le_of_mul_le_mul_right h2.1 hpos, le_of_mul_le_mul_right h2.2 hpos⟩

theorem nthFrom_spec (nth : NthElement (id : K → K)) {t s : List K} {f k : Nat}
    (hs : s.Pairwise (· ≤ ·)) (hlen : t.length = s.length) (hd : (t.drop f).Perm (s.drop f))
    (hfk : f ≤ k) (hk : k < s.length) :
    ∃ t', nthFrom nth f k t = .ok t' ∧ t'.length = s.length ∧ t'.take f = t.take f ∧
      t'[k]? = s[k]? ∧ (t'.drop k).Perm (s.drop k) ∧ (t'.drop (k + 1)).Perm (s.drop (k + 1)) ∧
      ((t'.drop f).take (k - f)).Perm ((s.drop f).take (k - f)) := by
  have hsd : SortedOf (s.drop f) (t.drop f) := ⟨hs.drop, hd.symm⟩
  have hkd : k - f < (t.drop f).length := by simp; omega
  have hn := nth.ok (t.drop f) (k - f) (by omega)
  obtain ⟨h1, h2, h3⟩ := isNth_halves hn hsd hkd
  have hrl := hn.perm.length_eq
  refine ⟨t.take f ++ nth.run (t.drop f) (k - f), by simp [nthFrom, hfk, hlen, le_of_lt hk], ?_, ?_, ?_, ?_, ?_, ?_⟩
  · simp [hrl]; omega
  · rw [List.take_left']; simp; omega
  · rw [List.getElem?_append_right (by simp [hfk])]
    have e : k - (t.take f).length = k - f := by simp; omega
    rw [e, h2, List.getElem?_drop]
    congr 1; omega
  · have e : (t.take f ++ nth.run (t.drop f) (k - f)).drop k = (nth.run (t.drop f) (k - f)).drop (k - f) := by
      rw [List.drop_append, List.drop_eq_nil_of_le (by simp; omega)]
      simp; congr 1; omega
    rw [e]
    have hsk : s.drop k = (s.drop f).drop (k - f) := by
      rw [List.drop_drop]; congr 1; omega
    rw [hsk]
    have hk2 : k - f < (nth.run (t.drop f) (k - f)).length := by omega
    have hk3 : k - f < (s.drop f).length := by simp; omega
    rw [List.drop_eq_getElem_cons hk2, List.drop_eq_getElem_cons hk3]
    rw [List.getElem?_eq_getElem hk2, List.getElem?_eq_getElem hk3] at h2
    rw [Option.some.inj h2]
    exact h3.cons _
  · have e : (t.take f ++ nth.run (t.drop f) (k - f)).drop (k + 1) =
        (nth.run (t.drop f) (k - f)).drop (k - f + 1) := by
      rw [List.drop_append, List.drop_eq_nil_of_le (by simp; omega)]
      simp; congr 1; omega
    rw [e]
    have hsk : s.drop (k + 1) = (s.drop f).drop (k - f + 1) := by
      rw [List.drop_drop]; congr 1; omega
    rw [hsk]; exact h3
  · have e : (t.take f ++ nth.run (t.drop f) (k - f)).drop f = nth.run (t.drop f) (k - f) := by
      rw [List.drop_left']; simp; omega
    rw [e]; exact h1

/-- **C56e** (partial). With at least four values the summary consists of order statistics:
smallest, largest, and the ones at a quarter, half and three quarters.  Missing: one to three values
(see `five_numbers_ub`). -/
theorem five_numbers_partial (nth : NthElement (id : K → K)) (values s : List K)
    (hs : SortedOf s values) (h4 : 4 ≤ values.length) :
    fiveNumberSummary nth values = .ok
      { min := s.getD 0 0
        q1 := s.getD (values.length / 4) 0
        q2 := s.getD (values.length / 2) 0
        q3 := s.getD (values.length / 4 + values.length / 2) 0
        max := s.getD (values.length - 1) 0 } := by
  have hl := hs.2.length_eq
  have he : values.isEmpty = false := by
    cases values with
    | nil => simp at h4
    | cons => rfl
  unfold fiveNumberSummary
  rw [he]
  simp only [Bool.false_eq_true, if_false]
  obtain ⟨t1, e1, l1, k1, g1, d1, d1', p1⟩ := nthFrom_spec nth (t := values) (s := s) (f := 0)
    (k := values.length / 4) hs.1 hl.symm (by simpa using hs.2.symm) (by omega) (by omega)
  obtain ⟨t2, e2, l2, k2, g2, d2, d2', p2⟩ := nthFrom_spec nth (t := t1) (s := s)
    (f := values.length / 4 + 1) (k := values.length / 2) hs.1 l1 d1' (by omega) (by omega)
  obtain ⟨t3, e3, l3, k3, g3, d3, d3', p3⟩ := nthFrom_spec nth (t := t2) (s := s)
    (f := values.length / 2 + 1) (k := values.length / 4 + values.length / 2) hs.1 l2 d2'
    (by omega) (by omega)
  rw [e1]; simp only [Outcome.bind_ok]
  rw [e2]; simp only [Outcome.bind_ok]
  rw [e3]; simp only [Outcome.bind_ok]
  have keep : ∀ {a b : List K} {f i : Nat}, a.take f = b.take f → i < f → a[i]? = b[i]? := by
    intro a b f i h hi
    rw [← List.getElem?_take_of_lt (l := a) hi, h, List.getElem?_take_of_lt hi]
  have q1e : t3[values.length / 4]? = s[values.length / 4]? := by
    rw [keep k3 (by omega), keep k2 (by omega), g1]
  have q2e : t3[values.length / 2]? = s[values.length / 2]? := by
    rw [keep k3 (by omega), g2]
  have tk : t3.take (values.length / 4) = t1.take (values.length / 4) := by
    apply List.ext_getElem?
    intro i
    by_cases hi : i < values.length / 4
    · rw [List.getElem?_take_of_lt hi, List.getElem?_take_of_lt hi, keep k3 (by omega),
        keep k2 (by omega)]
    · rw [List.getElem?_eq_none (by simp; omega), List.getElem?_eq_none (by simp; omega)]
  have hp1 : (t3.take (values.length / 4)).Perm (s.take (values.length / 4)) := by
    rw [tk]; simpa using p1
  congr 1
  have hmin : minOf (t3.getD (values.length / 4) 0) (t3.take (values.length / 4)) = s.getD 0 0 := by
    have hne : t3.take (values.length / 4) ≠ [] := by
      intro h0
      have := congrArg List.length h0
      simp only [List.length_take, List.length_nil] at this
      omega
    obtain ⟨m1, m2⟩ := minOf_spec (t3.getD (values.length / 4) 0) _ hne
    have h0 : s.getD 0 0 = s[0]'(by omega) := by
      simp [List.getD_eq_getElem?_getD, (by omega : 0 < s.length)]
    rw [h0]
    apply le_antisymm
    · apply m2
      rw [hp1.mem_iff]
      exact List.mem_take_iff_getElem.2 ⟨0, by omega, rfl⟩
    · obtain ⟨i, hi, hie⟩ := List.getElem_of_mem (hp1.mem_iff.1 m1)
      rw [← hie, List.getElem_take]
      simp only [List.length_take] at hi
      exact sorted_le hs.1 (by omega) (by omega)
  have hmax : maxOf 0 (t3.drop (values.length / 4 + values.length / 2)) = s.getD (values.length - 1) 0 := by
    have hne : t3.drop (values.length / 4 + values.length / 2) ≠ [] := by
      intro h0
      have := congrArg List.length h0
      simp only [List.length_drop, List.length_nil] at this
      omega
    obtain ⟨m1, m2⟩ := maxOf_spec 0 _ hne
    have h0 : s.getD (values.length - 1) 0 = s[values.length - 1]'(by omega) := by
      simp [List.getD_eq_getElem?_getD, (by omega : values.length - 1 < s.length)]
    rw [h0]
    apply le_antisymm
    · obtain ⟨i, hi, hie⟩ := List.getElem_of_mem (d3.mem_iff.1 m1)
      rw [← hie, List.getElem_drop]
      simp only [List.length_drop] at hi
      exact sorted_le hs.1 (by omega) (by omega)
    · apply m2
      rw [d3.mem_iff]
      refine List.mem_drop_iff_getElem.2 ⟨values.length - 1 - (values.length / 4 + values.length / 2),
        by omega, ?_⟩
      congr 1; omega
  simp only [List.getD_eq_getElem?_getD] at hmin hmax ⊢
  rw [hmin, hmax, q1e, q2e, g3]

/-- **C56f.** The summary is ordered. -/
theorem five_numbers_ordered (nth : NthElement (id : K → K)) (values : List K)
    (h4 : 4 ≤ values.length) : ∃ r, fiveNumberSummary nth values = .ok r ∧
      r.min ≤ r.q1 ∧ r.q1 ≤ r.q2 ∧ r.q2 ≤ r.q3 ∧ r.q3 ≤ r.max ∧
      r.min ∈ values ∧ r.q1 ∈ values ∧ r.q2 ∈ values ∧ r.q3 ∈ values ∧ r.max ∈ values ∧
      ∀ v ∈ values, r.min ≤ v ∧ v ≤ r.max := by
  let s := values.insertionSort (· ≤ ·)
  have hs : SortedOf s values := ⟨List.pairwise_insertionSort _ _, List.perm_insertionSort _ _⟩
  have hl := hs.2.length_eq
  refine ⟨_, five_numbers_partial nth values s hs h4, ?_⟩
  have hg : ∀ i, i < s.length → ∃ h : i < s.length, s.getD i 0 = s[i] := by
    intro i hi
    exact ⟨hi, by simp [List.getD_eq_getElem?_getD, hi]⟩
  have hle : ∀ i j, i ≤ j → j < s.length → s.getD i 0 ≤ s.getD j 0 := by
    intro i j hij hj
    obtain ⟨_, e1⟩ := hg i (by omega)
    obtain ⟨_, e2⟩ := hg j hj
    rw [e1, e2]; exact sorted_le hs.1 hij hj
  have hm : ∀ i, i < s.length → s.getD i 0 ∈ values := by
    intro i hi
    obtain ⟨_, e⟩ := hg i hi
    rw [e, ← hs.2.mem_iff]; exact List.getElem_mem _
  refine ⟨hle _ _ (by omega) (by omega), hle _ _ (by omega) (by omega), hle _ _ (by omega) (by omega),
    hle _ _ (by omega) (by omega), hm _ (by omega), hm _ (by omega), hm _ (by omega), hm _ (by omega),
    hm _ (by omega), ?_⟩
  intro v hv
  obtain ⟨i, hi, rfl⟩ := List.getElem_of_mem (hs.2.mem_iff.2 hv)
  obtain ⟨_, e1⟩ := hg 0 (by omega)
  obtain ⟨_, e2⟩ := hg (values.length - 1) (by omega)
  simp only [e1, e2]
  exact ⟨sorted_le hs.1 (by omega) hi, sorted_le hs.1 (by omega) (by omega)⟩

/-- **Negation.** With one, two or three values `nth_element` is called with its position before the
beginning of the range, which is undefined behaviour. -/
theorem five_numbers_ub (nth : NthElement (id : K → K)) (values : List K)
    (h1 : 1 ≤ values.length) (h3 : values.length ≤ 3) : fiveNumberSummary nth values = .ub := by
  have he : values.isEmpty = false := by
    cases values with
    | nil => simp at h1
    | cons => rfl
  have hlen : ∀ f k (t : List K), f ≤ t.length → k - f ≤ (t.drop f).length →
      (t.take f ++ nth.run (t.drop f) (k - f)).length = t.length := by
    intro f k t hf hk
    have := (nth.ok (t.drop f) (k - f) hk).perm.length_eq
    simp only [List.length_append, this, List.length_take, List.length_drop]
    omega
  unfold fiveNumberSummary
  rw [he]
  simp only [Bool.false_eq_true, if_false]
  have e1 : nthFrom nth 0 (values.length / 4) values =
      .ok (values.take 0 ++ nth.run (values.drop 0) (values.length / 4 - 0)) := by
    unfold nthFrom; rw [if_pos (by omega)]
  rw [e1]
  simp only [Outcome.bind_ok]
  have l1 := hlen 0 (values.length / 4) values (by omega) (by simp; omega)
  generalize (values.take 0 ++ nth.run (values.drop 0) (values.length / 4 - 0)) = t1 at *
  by_cases h : values.length = 1
  · have : nthFrom nth (values.length / 4 + 1) (values.length / 2) t1 = .ub := by
      unfold nthFrom; rw [if_neg (by omega)]
    rw [this]; rfl
  · have e2 : nthFrom nth (values.length / 4 + 1) (values.length / 2) t1 =
        .ok (t1.take (values.length / 4 + 1) ++ nth.run (t1.drop (values.length / 4 + 1))
          (values.length / 2 - (values.length / 4 + 1))) := by
      unfold nthFrom; rw [if_pos (by omega)]
    rw [e2]
    simp only [Outcome.bind_ok]
    have : ∀ t, nthFrom nth (values.length / 2 + 1) (values.length / 4 + values.length / 2) t = .ub := by
      intro t; unfold nthFrom; rw [if_neg (by omega)]
    rw [this]; rfl

/-- five values: median and MAD -/
example : computeMedian (NthElement.sorting (id : ℚ → ℚ)) [5, 1, 4, 2, 9] = 4 ∧
    computeMAD (NthElement.sorting (id : ℚ → ℚ)) [5, 1, 4, 2, 9] 4 = 2 ∧
    computeMedian (NthElement.sorting (id : ℚ → ℚ)) [5, 1, 4, 2] = 3 := by decide +kernel

/-- the hypotheses of the summary theorem hold for a list of five values -/
example : fiveNumberSummary (NthElement.sorting (id : ℚ → ℚ)) [5, 1, 4, 2, 9] =
    .ok ⟨1, 9, 2, 4, 5⟩ ∧ SortedOf [1, 2, 4, 5, 9] [(5 : ℚ), 1, 4, 2, 9] := by
  constructor
  · decide +kernel
  · exact ⟨by decide +kernel, by decide +kernel⟩

end Verif.Stats
