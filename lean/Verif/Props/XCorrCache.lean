import Verif.Proofs.XCorrCache

/-!
# C03, C04: the cross-correlation cache

`History c f` says: `c` is a cache object produced by some sequence of API calls (including merging
of other caches produced the same way) and `f` is what a user expects to see for that sequence.
-/

namespace Verif.XCorr
open XCorrSpec

/-- every cache a program can build, with the view its operations should give -/
inductive History : Cache → View → Prop where
  | new : History [] View.empty
  | add {c f} (h : History c f) (a b : Nat) (s p : String) (e : Entry) :
      History (add c a b s p e) (f.record a b s p e)
  | remove {c f} (h : History c f) (a b : Nat) (s p : String) :
      History (remove c a b s p) (f.forget a b s p)
  | merge {c f o g} (h : History c f) (h' : History o g) :
      History (merge c o) (f.overlay g)

theorem History.inv {c : Cache} {f : View} (h : History c f) : OneDir c ∧ Uniq c := by
  induction h with
  | new => exact ⟨OneDir.nil, Uniq.nil⟩
  | add _ a b s p e ih => exact ⟨ih.1.add _ _ _ _ _, ih.2.add _ _ _ _ _⟩
  | remove _ a b s p ih => exact ⟨ih.1.remove _ _ _ _, ih.2.remove _ _ _ _⟩
  | merge _ _ ih _ => exact merge_inv ih.1 ih.2

/-- **C04.** For distinct events, after any history of add, remove and merge, a lookup returns
exactly the last value recorded for the unordered pair (lag negated when recorded in the other
direction), and `has` agrees with `get`. -/
theorem xcorr_last_write {c : Cache} {f : View} (h : History c f) {a b : Nat} (hab : a ≠ b)
    (s p : String) : get c a b s p = f a b s p ∧ (has c a b s p = (f a b s p).isSome) := by
  have key : get c a b s p = f a b s p := by
    induction h generalizing a b s p with
    | new => simp [get, at?, View.empty]
    | add h0 x y s0 p0 e ih =>
      rw [get_add h0.inv.1 _ _ _ _ _ hab]
      unfold View.record; simp only [ih hab]
    | remove h0 x y s0 p0 ih =>
      rw [get_remove]
      unfold View.forget; simp only [ih hab]
    | merge h0 h1 ih0 ih1 =>
      rw [get_merge h0.inv.1 h0.inv.2 h1.inv.1 h1.inv.2 hab]
      unfold View.overlay; simp only [ih0 hab, ih1 hab]
  exact ⟨key, by rw [has, key]⟩

/-- non-vacuity: record (1,2), overwrite from the other side, read back -/
example : ∃ c f, History c f ∧ f 1 2 "S" "P" = some ⟨true, 1/2, -3⟩ :=
  ⟨_, _, (History.new.add 1 2 "S" "P" ⟨true, 1, 5⟩).add 2 1 "S" "P" ⟨true, 1/2, 3⟩, rfl⟩

/-- **C03.** Antisymmetry, for every cache that can be built: looking up the pair in the other
order gives the same validity and coefficient and the opposite lag, or both lookups fail. -/
theorem xcorr_antisymmetric {c : Cache} {f : View} (h : History c f) (a b : Nat) (s p : String) :
    (get c a b s p = none ∧ get c b a s p = none) ∨
    ∃ v cc lag, get c a b s p = some ⟨v, cc, lag⟩ ∧ get c b a s p = some ⟨v, cc, -lag⟩ := by
  have hs := get_symm h.inv.1 a b s p
  cases hg : get c a b s p with
  | none => rw [hg] at hs; exact Or.inl ⟨rfl, hs⟩
  | some e =>
    rw [hg] at hs
    exact Or.inr ⟨e.valid, e.coeff, e.lag, rfl, hs⟩

example : ∃ c f, History c f ∧ get c 1 2 "S" "P" = some ⟨true, 1, 5⟩ ∧
    get c 2 1 "S" "P" = some ⟨true, 1, -5⟩ :=
  ⟨_, _, History.new.add 1 2 "S" "P" ⟨true, 1, 5⟩, by decide, by decide⟩

/-- The hypothesis `a ≠ b` of C04 is necessary: a result added for an event with itself is lost
at once (xcorrcache.h:76 erases what :70-73 wrote). -/
theorem xcorr_self_pair_lost {c : Cache} {f : View} (h : History c f) (a : Nat) (s p : String)
    (e : Entry) : get (add c a a s p e) a a s p = none := by
  have := (h.inv.1.add a a s p e) a a s p
  unfold get
  cases h1 : at? (add c a a s p e) a s p a with
  | none => rfl
  | some x => rw [h1] at this; simp at this

end Verif.XCorr
