import Verif.Proofs.KdTree
import Mathlib.Algebra.Order.Field.Rat
import Mathlib.Data.List.Induction
import Mathlib.Order.Lattice

/-!
# C23–C26: the spatial index

Quantified over every list of points, query, radius, number of neighbours and visitor, every
implementation of `std::nth_element` and of the priority queue, and every distance function for which
the distance along an axis is a lower bound (`Admissible`; C27 tells when the code's is).
-/

set_option linter.unusedSectionVars false
set_option linter.unusedSimpArgs false

namespace Verif.KdTree
variable {C K : Type} [LinearOrder C] [LinearOrder K]

/-- **C23a.** The tree holds every point exactly once and every node separates its sub-trees. -/
theorem tree_holds_points (pt : Nat → Pt C) (nth : (axis : Nat) → NthElement (fun i => coord axis (pt i)))
    (n : Nat) : (contents (ofPoints pt nth n)).Perm (List.range n) ∧ Ordered pt 0 (ofPoints pt nth n) :=
  build_spec pt nth (List.range n) 0

/-- **C23b.** Exact lookup finds a point with the given coordinates exactly if there is one. -/
theorem tree_lookup (pt : Nat → Pt C) (nth : (axis : Nat) → NthElement (fun i => coord axis (pt i)))
    (n : Nat) (q : Pt C) :
    (∀ i, search pt q (ofPoints pt nth n) = some i → i < n ∧ pt i = q) ∧
    (search pt q (ofPoints pt nth n) = none → ∀ i < n, pt i ≠ q) := by
  obtain ⟨hp, ho⟩ := tree_holds_points pt nth n
  constructor
  · intro i hi
    obtain ⟨h1, h2⟩ := search_some hi
    exact ⟨List.mem_range.1 (hp.subset h1), h2⟩
  · intro h i hi
    exact search_none ho h i (hp.symm.subset (List.mem_range.2 hi))

/-- **C24.** The radius search returns exactly the points within the radius, each once with its
distance, sorted by distance. -/
theorem radius_search_exact (pt : Nat → Pt C) (nth : (axis : Nat) → NthElement (fun i => coord axis (pt i)))
    (n : Nat) (dist : Pt C → Pt C → K) (axisDist : Nat → Pt C → Pt C → K) (q : Pt C)
    (ha : Admissible dist axisDist q ((List.range n).map pt)) (rad : K) :
    Sorted (radiusSearch pt dist axisDist q (ofPoints pt nth n) rad) ∧
    (radiusSearch pt dist axisDist q (ofPoints pt nth n) rad).Perm
      (withDist pt dist q ((List.range n).filter (fun i => decide (dist (pt i) q ≤ rad)))) := by
  obtain ⟨hp, ho⟩ := tree_holds_points pt nth n
  obtain ⟨h1, h2⟩ := radius_spec ho (admTree_ofPoints ha) rad [] List.Pairwise.nil
  refine ⟨h1, h2.trans ?_⟩
  rw [List.append_nil]
  exact (hp.filter _).map _

/-- **C25a.** The nearest neighbour search returns a point at minimum distance with its distance, and
throws only if there are no points. -/
theorem nearest_neighbour_exact (pt : Nat → Pt C) (nth : (axis : Nat) → NthElement (fun i => coord axis (pt i)))
    (n : Nat) (dist : Pt C → Pt C → K) (axisDist : Nat → Pt C → Pt C → K) (q : Pt C)
    (ha : Admissible dist axisDist q ((List.range n).map pt)) :
    (n = 0 → nnSearch pt dist axisDist q (ofPoints pt nth n) = .throws) ∧
    (0 < n → ∃ i < n, nnSearch pt dist axisDist q (ofPoints pt nth n) = .ok (i, dist (pt i) q) ∧
      ∀ j < n, dist (pt i) q ≤ dist (pt j) q) := by
  obtain ⟨hp, ho⟩ := tree_holds_points pt nth n
  obtain ⟨h1, h2, -⟩ := nn_spec ho (admTree_ofPoints ha) none
  have hmem : ∀ i, i ∈ contents (ofPoints pt nth n) ↔ i < n := fun i => by rw [hp.mem_iff, List.mem_range]
  unfold nnSearch
  constructor
  · intro hn
    rcases h1 with h | ⟨i, hi, -⟩
    · rw [h]; rfl
    · have := (hmem i).1 hi; omega
  · intro hn
    obtain ⟨x, hx, -⟩ := h2 0 ((hmem 0).2 hn)
    rcases h1 with h | ⟨i, hi, he⟩
    · rw [h] at hx; cases hx
    · refine ⟨i, (hmem i).1 hi, by rw [he]; rfl, ?_⟩
      intro j hj
      obtain ⟨y, hy, hle⟩ := h2 j ((hmem j).2 hj)
      rw [he] at hy; simp only [Option.some.injEq] at hy; subst hy
      exact hle

/-- **C25b.** For every k ≥ 1 the k-nearest search returns the k nearest points (all if there are
fewer), each with its distance, sorted by distance. -/
theorem k_nearest_exact_partial (pt : Nat → Pt C) (nth : (axis : Nat) → NthElement (fun i => coord axis (pt i)))
    (n : Nat) (dist : Pt C → Pt C → K) (axisDist : Nat → Pt C → Pt C → K) (q : Pt C)
    (ha : Admissible dist axisDist q ((List.range n).map pt)) {k : Nat} (hk : 0 < k) :
    ∃ queue, knnSearch pt dist axisDist q (ofPoints pt nth n) k = .ok queue ∧
      IsNearest k (withDist pt dist q (List.range n)) queue := by
  obtain ⟨hp, ho⟩ := tree_holds_points pt nth n
  have h0 : IsNearest k ([] : List (K × Nat)) [] := ⟨List.Pairwise.nil, by simp, [], by simp, by simp⟩
  obtain ⟨queue, h1, h2⟩ := knn_spec ho (admTree_ofPoints ha) hk h0
  refine ⟨queue, h1, h2.perm ?_⟩
  rw [List.append_nil]
  exact hp.map _

/-- **C25, negation for k = 0.** Asking for zero neighbours of a non-empty tree reads the last element
of an empty queue: undefined behaviour. -/
theorem k_nearest_zero_ub (pt : Nat → Pt C) (nth : (axis : Nat) → NthElement (fun i => coord axis (pt i)))
    {n : Nat} (hn : 0 < n) (dist : Pt C → Pt C → K) (axisDist : Nat → Pt C → Pt C → K) (q : Pt C) :
    knnSearch pt dist axisDist q (ofPoints pt nth n) 0 = .ub := by
  obtain ⟨hp, -⟩ := tree_holds_points pt nth n
  unfold knnSearch
  cases ht : ofPoints pt nth n with
  | nil =>
    rw [ht] at hp
    have := hp.length_eq
    simp [contents] at this; omega
  | node idx axis l r => simp [knn, knnAdd]

/-- **C26.** There is one order of all points, each once with its distance, sorted by distance, such
that for every visitor the enumeration delivers the points in that order until the visitor stops. It
always terminates. -/
theorem best_first_in_order (pt : Nat → Pt C) (nth : (axis : Nat) → NthElement (fun i => coord axis (pt i)))
    (n : Nat) (dist : Pt C → Pt C → K) (axisDist : Nat → Pt C → Pt C → K) (q : Pt C)
    (ha : Admissible dist axisDist q ((List.range n).map pt)) (pop : Pop K) (zero : K)
    (h0 : ∀ i < n, zero ≤ dist (pt i) q) :
    ∃ E : List (K × Nat), E.Perm (withDist pt dist q (List.range n)) ∧ Sorted E ∧
      ∀ {S : Type} (visit : S → Nat → K → S × Bool) (s : S),
        bestFirst pt dist axisDist q pop zero visit (ofPoints pt nth n) s = some (deliver visit E s) := by
  obtain ⟨hp, ho⟩ := tree_holds_points pt nth n
  have hat := admTree_ofPoints (nth := nth) ha
  have h0' : ∀ i ∈ contents (ofPoints pt nth n), zero ≤ dist (pt i) q :=
    fun i hi => h0 i (List.mem_range.1 (hp.subset hi))
  obtain ⟨E, h1, h2, h3⟩ := bestFirst_spec True pop zero (ofPoints pt nth n) (fun _ => ⟨⟨0, ho⟩, hat, h0'⟩)
  exact ⟨E, h1.trans (hp.map _), h2 trivial, fun visit s => h3 visit s⟩

/-! ## Non-vacuity: five points of the plane, with the largest coordinate difference as distance -/

namespace Example

def pts (i : Nat) : Pt ℚ := [⟨0, 0, 0⟩, ⟨2, 1, 5⟩, ⟨1, 4, 3⟩, ⟨4, 2, 2⟩, ⟨3, 3, 1⟩].getD i ⟨0, 0, 0⟩
def q : Pt ℚ := ⟨1, 1, 1⟩
def chebyshev (a b : Pt ℚ) : ℚ := max |a.lat - b.lat| (max |a.lon - b.lon| |a.depth - b.depth|)
def along (axis : Nat) (a b : Pt ℚ) : ℚ := |coord axis a - coord axis b|

example : Admissible chebyshev along q ((List.range 5).map pts) := by
  have : ∀ axis < 3, ∀ i < 5, ∀ j < 5,
    (coord axis q < coord axis (pts i) ∧ coord axis (pts i) ≤ coord axis (pts j)) ∨
    (coord axis (pts j) ≤ coord axis (pts i) ∧ coord axis (pts i) ≤ coord axis q) →
      along axis (pts i) q ≤ chebyshev (pts j) q := by decide +kernel
  intro a ha c hc p hp
  obtain ⟨i, hi, rfl⟩ := List.mem_map.1 hc
  obtain ⟨j, hj, rfl⟩ := List.mem_map.1 hp
  exact this a ha i (List.mem_range.1 hi) j (List.mem_range.1 hj)

example : radiusSearch pts chebyshev along q (ofPoints pts (fun _ => .sorting _) 5) 2 = [(1, 0), (2, 4)] := by
  decide +kernel
example : knnSearch pts chebyshev along q (ofPoints pts (fun _ => .sorting _) 5) 3 = .ok [(1, 0), (2, 4), (3, 2)] := by
  decide +kernel
example : nnSearch pts chebyshev along q (ofPoints pts (fun _ => .sorting _) 5) = .ok (0, 1) := by decide +kernel
example : search pts ⟨1, 4, 3⟩ (ofPoints pts (fun _ => .sorting _) 5) = some 2 := by decide +kernel

/-- a priority queue that sorts -/
def sortingPop : Pop ℚ where
  run l := match l.insertionSort (fun a b => a.key ≤ b.key) with
    | [] => none
    | x :: rest => some (x, rest)
  empty := rfl
  ok l hl := by
    have : IsTrans (Item ℚ) (fun a b => a.key ≤ b.key) := ⟨fun _ _ _ => le_trans⟩
    have : Std.Total (α := Item ℚ) (fun a b => a.key ≤ b.key) := ⟨fun _ _ => le_total _ _⟩
    have hp := List.perm_insertionSort (fun a b : Item ℚ => a.key ≤ b.key) l
    have hs := List.pairwise_insertionSort (fun a b : Item ℚ => a.key ≤ b.key) l
    generalize l.insertionSort (fun a b => a.key ≤ b.key) = s at *
    cases s with
    | nil => exact absurd (List.nil_perm.1 hp) hl
    | cons x rest =>
      refine ⟨x, rest, rfl, hp, ?_⟩
      intro y hy
      rcases List.mem_cons.1 (hp.symm.subset hy) with rfl | hy
      · exact le_rfl
      · exact (List.pairwise_cons.1 hs).1 y hy

/-- collect the first three points -/
example : bestFirst pts chebyshev along q sortingPop 0
    (fun (s : List (Nat × ℚ)) idx d => (s ++ [(idx, d)], decide (s.length = 2))) (ofPoints pts (fun _ => .sorting _) 5) [] =
    some [(0, 1), (4, 2), (3, 3)] := by decide +kernel

end Example
end Verif.KdTree
