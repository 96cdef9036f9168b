import Mathlib.Order.Defs.LinearOrder
import Mathlib.Data.List.Sort
import Mathlib.Data.List.Basic

/-!
# Contract of `std::nth_element`

The C++ library function is not modelled by an algorithm but by its contract: any function meeting
the contract may stand for it, so theorems about its callers hold for every implementation.
-/

namespace Verif

variable {α K : Type} [LinearOrder K]

/-- `r` is a possible content of the range `l` after `nth_element(begin, begin + k, end)` with the
elements compared by `key`. -/
structure IsNth (key : α → K) (l r : List α) (k : Nat) : Prop where
  perm : r.Perm l
  split : ∀ p, r[k]? = some p →
    (∀ x ∈ r.take k, key x ≤ key p) ∧ (∀ y ∈ r.drop (k + 1), key p ≤ key y)

/-- An implementation of `nth_element` for valid ranges (`k ≤ length`). -/
structure NthElement (key : α → K) where
  run : List α → Nat → List α
  ok : ∀ l k, k ≤ l.length → IsNth key l (run l k) k

/-- sorting is an implementation -/
def NthElement.sorting (key : α → K) : NthElement key where
  run l _ := l.insertionSort (fun a b => key a ≤ key b)
  ok l k _ := by
    have : IsTrans α (fun a b => key a ≤ key b) := ⟨fun _ _ _ => le_trans⟩
    have : Std.Total (α := α) (fun a b => key a ≤ key b) := ⟨fun _ _ => le_total _ _⟩
    refine ⟨List.perm_insertionSort _ _, ?_⟩
    intro p hp
    have hs := List.pairwise_insertionSort (fun a b => key a ≤ key b) l
    generalize l.insertionSort (fun a b => key a ≤ key b) = s at *
    have hk : k < s.length := by
      by_contra h
      rw [List.getElem?_eq_none (by omega)] at hp; cases hp
    rw [List.getElem?_eq_getElem hk] at hp
    cases hp
    have hsplit : s = s.take k ++ s[k] :: s.drop (k + 1) := by simp
    rw [hsplit] at hs
    rw [List.pairwise_append] at hs
    obtain ⟨_, h2, h3⟩ := hs
    rw [List.pairwise_cons] at h2
    exact ⟨fun x hx => h3 x hx _ List.mem_cons_self, h2.1⟩

/-- The element at position `k` is the `k`-th of the sorted list. -/
theorem IsNth.getElem?_eq {key : α → K} {l r : List α} {k : Nat} (h : IsNth key l r k)
    (s : List K) (hs : s.Pairwise (· ≤ ·)) (hp : s.Perm (l.map key)) (hk : k < l.length) :
    (r.map key)[k]? = s[k]? := by
  have hlen := h.perm.length_eq
  have hk' : k < r.length := by omega
  obtain ⟨h1, h2⟩ := h.split r[k] (List.getElem?_eq_getElem hk')
  let a := ((r.take k).map key).insertionSort (· ≤ ·)
  let b := ((r.drop (k + 1)).map key).insertionSort (· ≤ ·)
  have hsplit : r = r.take k ++ r[k] :: r.drop (k + 1) := by simp
  have hperm : (a ++ key r[k] :: b).Perm s := by
    refine List.Perm.trans ?_ (hp.trans (h.perm.symm.map key)).symm
    conv_rhs => rw [hsplit]
    rw [List.map_append, List.map_cons]
    exact List.Perm.append (List.perm_insertionSort _ _)
      ((List.perm_insertionSort _ _).cons _)
  have hsorted : (a ++ key r[k] :: b).Pairwise (· ≤ ·) := by
    have ma : ∀ x ∈ a, x ≤ key r[k] := by
      intro x hx
      have := (List.perm_insertionSort _ _).mem_iff.1 hx
      rw [List.mem_map] at this
      obtain ⟨y, hy, rfl⟩ := this
      exact h1 y hy
    have mb : ∀ x ∈ b, key r[k] ≤ x := by
      intro x hx
      have := (List.perm_insertionSort _ _).mem_iff.1 hx
      rw [List.mem_map] at this
      obtain ⟨y, hy, rfl⟩ := this
      exact h2 y hy
    rw [List.pairwise_append, List.pairwise_cons]
    refine ⟨List.pairwise_insertionSort _ _, ⟨mb, List.pairwise_insertionSort _ _⟩, ?_⟩
    intro x hx y hy
    rcases List.mem_cons.1 hy with rfl | hy
    · exact ma x hx
    · exact le_trans (ma x hx) (mb y hy)
  have heq : a ++ key r[k] :: b = s := hperm.eq_of_pairwise
    (fun a b _ _ h1 h2 => le_antisymm h1 h2) hsorted hs
  have hal : a.length = k := by
    show (List.insertionSort _ _).length = k
    rw [List.length_insertionSort]; simp; omega
  rw [← heq, List.getElem?_append_right (by omega)]
  simp [hal, hk']

end Verif
