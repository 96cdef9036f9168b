import Verif.Model.Grid
import Verif.Spec.Grid
import Mathlib.Tactic.Linarith
import Mathlib.Tactic.Ring
import Mathlib.Tactic.FieldSimp
import Mathlib.Tactic.NormNum
import Mathlib.Tactic.Push
import Mathlib.Algebra.BigOperators.Ring.Finset

set_option linter.unusedSectionVars false
set_option linter.unusedSimpArgs false

/-! # Helper lemmas for grids -/

namespace Verif.Grid
open GridSpec

theorem flatMap_range_length {α : Type} (f : Nat → List α) (n m : Nat)
    (hf : ∀ i < n, (f i).length = m) : ((List.range n).flatMap f).length = n * m := by
  induction n with
  | zero => simp
  | succ n ih =>
    rw [List.range_succ, List.flatMap_append, List.length_append,
      ih (fun i hi => hf i (by omega))]
    simp [hf n (by omega), Nat.succ_mul]

theorem flatMap_slice {α : Type} (f : Nat → List α) (n m : Nat)
    (hf : ∀ i < n, (f i).length = m) (rest : List α) (i r s : Nat) (hi : i < n) (hrs : r + s ≤ m) :
    (((List.range n).flatMap f ++ rest).drop (i * m + r)).take s = ((f i).drop r).take s := by
  induction n generalizing rest with
  | zero => omega
  | succ n ih =>
    rw [List.range_succ, List.flatMap_append, List.append_assoc]
    by_cases hin : i < n
    · exact ih (fun i hi => hf i (by omega)) _ hin
    · have : i = n := by omega
      subst this
      have hl := flatMap_range_length f i m (fun j hj => hf j (by omega))
      rw [List.drop_append, hl]
      have h1 : ((List.range i).flatMap f).drop (i * m + r) = [] :=
        List.drop_eq_nil_of_le (by omega)
      have h2 : i * m + r - i * m = r := by omega
      rw [h1, h2, List.nil_append]
      simp only [List.flatMap_cons, List.flatMap_nil, List.append_nil]
      have hm := hf i (by omega)
      rw [List.drop_append_of_le_length (by omega), List.take_append_of_le_length]
      rw [List.length_drop]; omega

theorem layout_slice (nx ny nz size : Nat) (enc : Nat → Nat → Nat → List UInt8)
    (he : ∀ x y z, (enc x y z).length = size) (rest : List UInt8) {ix iy iz : Nat}
    (hx : ix < nx) (hy : iy < ny) (hz : iz < nz) :
    ((layout nx ny nz enc ++ rest).drop (((ix * ny + iy) * nz + iz) * size)).take size
      = enc ix iy iz := by
  have hz' : (iz + 1) * size ≤ nz * size := Nat.mul_le_mul_right _ hz
  have hy' : (iy + 1) * (nz * size) ≤ ny * (nz * size) := Nat.mul_le_mul_right _ hy
  have e : ((ix * ny + iy) * nz + iz) * size = ix * (ny * (nz * size)) + (iy * (nz * size) + iz * size) := by
    ring
  rw [e, layout, flatMap_slice _ nx (ny * (nz * size)) _ rest ix _ size hx]
  · have := flatMap_slice (fun y => (List.range nz).flatMap fun z => enc ix y z) ny (nz * size)
      (fun y _ => flatMap_range_length _ _ _ (fun z _ => he _ _ _)) [] iy (iz * size) size hy
      (by rw [Nat.succ_mul] at hz'; omega)
    rw [List.append_nil] at this
    rw [this]
    have := flatMap_slice (fun z => enc ix iy z) nz size (fun z _ => he _ _ _) [] iz 0 size hz (by omega)
    rw [List.append_nil, Nat.add_zero] at this
    rw [this, List.drop_zero, List.take_of_length_le (by rw [he])]
  · rw [Nat.succ_mul] at hz' hy'
    omega
  · intro x _
    exact flatMap_range_length _ _ _ (fun y _ => flatMap_range_length _ _ _ (fun z _ => he _ _ _))

theorem layout_length (nx ny nz size : Nat) (enc : Nat → Nat → Nat → List UInt8)
    (he : ∀ x y z, (enc x y z).length = size) :
    (layout nx ny nz enc).length = nx * ny * nz * size := by
  rw [layout, flatMap_range_length _ nx (ny * (nz * size))]
  · ring
  · intro x _
    exact flatMap_range_length _ _ _ (fun y _ => flatMap_range_length _ _ _ (fun z _ => he _ _ _))

/-- position of a node in the file, in mathematical integers -/
theorem node_lt {nx ny nz ix iy iz : Nat} (hx : ix < nx) (hy : iy < ny) (hz : iz < nz) :
    (ix * ny + iy) * nz + iz < nx * ny * nz := by
  have h1 : (ix + 1) * ny ≤ nx * ny := Nat.mul_le_mul_right _ hx
  have h2 : ix * ny + iy + 1 ≤ nx * ny := by rw [Nat.succ_mul] at h1; omega
  have h3 : (ix * ny + iy + 1) * nz ≤ nx * ny * nz := Nat.mul_le_mul_right _ h2
  rw [Nat.succ_mul] at h3; omega

theorem byteOffset_eq {nx ny nz size ix iy iz : Nat} (hs : 0 < size)
    (hw : nx * ny * nz * size < word) (hx : ix < nx) (hy : iy < ny) (hz : iz < nz) :
    byteOffset ny nz size ix iy iz = ((ix * ny + iy) * nz + iz) * size := by
  have hn := node_lt hx hy hz
  have hnw : nx * ny * nz < word :=
    lt_of_le_of_lt (by simpa using Nat.mul_le_mul_left (nx * ny * nz) hs) hw
  have e : (ix * ny + iy) * nz + iz = ix * ny * nz + iy * nz + iz := by ring
  have hnz : 0 < nz := by omega
  have h1 : ix * ny ≤ ix * ny * nz := Nat.le_mul_of_pos_right _ hnz
  rw [e] at hn
  have a1 : ix * ny % word = ix * ny := Nat.mod_eq_of_lt (by omega)
  have a2 : ix * ny * nz % word = ix * ny * nz := Nat.mod_eq_of_lt (by omega)
  have a3 : iy * nz % word = iy * nz := Nat.mod_eq_of_lt (by omega)
  have a4 : (ix * ny * nz + iy * nz + iz) % word = ix * ny * nz + iy * nz + iz :=
    Nat.mod_eq_of_lt (by omega)
  have hlt : (ix * ny * nz + iy * nz + iz) * size < word :=
    lt_of_le_of_lt (Nat.mul_le_mul_right _ (le_of_lt hn)) hw
  unfold byteOffset
  simp only
  rw [a1, a2, a3, a4, Nat.mod_eq_of_lt hlt, e]

theorem node_end_le {nx ny nz size ix iy iz : Nat} (hx : ix < nx) (hy : iy < ny) (hz : iz < nz) :
    ((ix * ny + iy) * nz + iz) * size + size ≤ nx * ny * nz * size := by
  have h := Nat.mul_le_mul_right size (Nat.succ_le_of_lt (node_lt hx hy hz))
  rw [Nat.succ_mul] at h; exact h

theorem isIndexInside_iff {K : Type} (g : Info K) (ix iy iz : Nat) :
    g.isIndexInside ix iy iz = true ↔ ix < g.numx ∧ iy < g.numy ∧ iz < g.numz := by
  simp [Info.isIndexInside, and_assoc]

section Interp
variable {K : Type} [Field K] [LinearOrder K] [IsStrictOrderedRing K] [FloorSemiring K]

theorem hat_lower {off : K} {i : Nat} (h0 : 0 ≤ off - (i : K)) (h1 : off - (i : K) ≤ 1) :
    hat (off - (i : K)) = 1 - (off - (i : K)) := by
  rw [hat, abs_of_nonneg h0, max_eq_right (by linarith)]

theorem hat_upper {off : K} {i : Nat} (h0 : 0 ≤ off - (i : K)) (h1 : off - (i : K) ≤ 1) :
    hat (off - ((i + 1 : Nat) : K)) = off - (i : K) := by
  push_cast
  rw [hat, abs_of_nonpos (by linarith), max_eq_right (by linarith)]; ring

theorem hat_other {off : K} {i j : Nat} (h0 : 0 ≤ off - (i : K)) (h1 : off - (i : K) ≤ 1)
    (hj : j ≠ i) (hj1 : j ≠ i + 1) : hat (off - (j : K)) = 0 := by
  rw [hat]
  apply max_eq_left
  rcases Nat.lt_or_ge j i with h | h
  · have : ((j + 1 : Nat) : K) ≤ (i : K) := Nat.cast_le.2 h
    push_cast at this
    rw [abs_of_nonneg (by linarith)]; linarith
  · have : ((i + 2 : Nat) : K) ≤ (j : K) := Nat.cast_le.2 (by omega)
    push_cast at this
    rw [abs_of_nonpos (by linarith)]; linarith

/-- the sum of node values times hats has two terms -/
theorem hat_sum {num : Nat} (F : Nat → K) {off : K} {i : Nat} (hi : i + 1 < num)
    (h0 : 0 ≤ off - (i : K)) (h1 : off - (i : K) ≤ 1) :
    ∑ j ∈ Finset.range num, F j * hat (off - (j : K)) =
      lerp (F i) (F (i + 1)) (off - (i : K)) := by
  rw [Finset.sum_eq_add i (i + 1) (by omega)]
  · rw [hat_lower h0 h1, hat_upper h0 h1, lerp]; ring
  · intro c _ hc
    rw [hat_other h0 h1 hc.1 hc.2, mul_zero]
  · intro h; exact absurd (Finset.mem_range.2 (by omega)) h
  · intro h; exact absurd (Finset.mem_range.2 hi) h

/-- the cell of a coordinate inside the axis -/
theorem axisCell_spec {num : Nat} (h2 : 2 ≤ num) (hw : num < word) {orig d loc : K} (hd : 0 < d)
    (hlo : orig ≤ loc) (hhi : loc ≤ orig + (pred64 num : K) * d) :
    ∃ i : Nat, axisCell num orig d loc = .ok (i, i + 1, (loc - orig) / d - (i : K)) ∧ i + 1 < num ∧
      0 ≤ (loc - orig) / d - (i : K) ∧ (loc - orig) / d - (i : K) ≤ 1 := by
  have hp : pred64 num = num - 1 := by rw [pred64, if_neg (by omega)]
  rw [hp, Nat.cast_sub (by omega), Nat.cast_one] at hhi
  set off := (loc - orig) / d with hoff
  have o0 : 0 ≤ off := div_nonneg (by linarith) hd.le
  have o1 : off ≤ (num : K) - 1 := by
    rw [hoff, div_le_iff₀ hd]; linarith
  have hwK : (num : K) < ((word : Nat) : K) := Nat.cast_lt.2 hw
  have hfl : (⌊off⌋₊ : K) ≤ off := Nat.floor_le o0
  have hfu : off < (⌊off⌋₊ : K) + 1 := Nat.lt_floor_add_one off
  have htu : toULL off = .ok ⌊off⌋₊ := by
    rw [toULL, if_pos ⟨by linarith, by linarith⟩]
  have hfn : ⌊off⌋₊ ≤ num - 1 := by
    have : (⌊off⌋₊ : K) ≤ ((num - 1 : Nat) : K) := by
      rw [Nat.cast_sub (by omega), Nat.cast_one]; linarith
    exact Nat.cast_le.1 this
  unfold axisCell
  rw [if_neg hd.ne']
  simp only [← hoff, htu, hp]
  by_cases hc : ⌊off⌋₊ = num - 1
  · refine ⟨num - 2, ?_, by omega, ?_, ?_⟩
    · rw [if_pos hc, hc]
      have e1 : pred64 (num - 1) = num - 2 := by rw [pred64, if_neg (by omega)]; omega
      rw [e1, Nat.mod_eq_of_lt (by omega)]
    · rw [hc, Nat.cast_sub (by omega)] at hfl
      rw [Nat.cast_sub h2]; push_cast at *; linarith
    · rw [Nat.cast_sub h2]; push_cast; linarith
  · refine ⟨⌊off⌋₊, ?_, by omega, by linarith, by linarith⟩
    rw [if_neg hc, Nat.mod_eq_of_lt (by omega)]

theorem isLocationInside_iff (g : Info K) (x y z : K) :
    g.isLocationInside x y z = true ↔
      (g.origx ≤ x ∧ x ≤ g.origx + (pred64 g.numx : K) * g.dx) ∧
      (g.origy ≤ y ∧ y ≤ g.origy + (pred64 g.numy : K) * g.dy) ∧
      (g.origz ≤ z ∧ z ≤ g.origz + (pred64 g.numz : K) * g.dz) := by
  simp only [Info.isLocationInside, Bool.not_eq_true', Bool.or_eq_false_iff, decide_eq_false_iff_not,
    not_lt, gt_iff_lt]
  tauto

theorem interpolant2_cell {ny nz : Nat} (f : Nat → Nat → K) {y z : K} {j k : Nat}
    (hj : j + 1 < ny) (hk : k + 1 < nz)
    (y0 : 0 ≤ y - (j : K)) (y1 : y - (j : K) ≤ 1) (z0 : 0 ≤ z - (k : K)) (z1 : z - (k : K) ≤ 1) :
    interpolant2 ny nz f y z =
      bilinear (y - (j : K)) (z - (k : K)) (f j k) (f j (k + 1)) (f (j + 1) k) (f (j + 1) (k + 1)) := by
  unfold interpolant2
  have e : ∀ j', ∑ k' ∈ Finset.range nz, f j' k' * (hat (y - (j' : K)) * hat (z - (k' : K))) =
      lerp (f j' k) (f j' (k + 1)) (z - (k : K)) * hat (y - (j' : K)) := by
    intro j'
    rw [← hat_sum (fun k' => f j' k') hk z0 z1, Finset.sum_mul]
    exact Finset.sum_congr rfl (fun k' _ => by ring)
  simp only [e]
  rw [hat_sum (fun j' => lerp (f j' k) (f j' (k + 1)) (z - (k : K))) hj y0 y1, bilinear]

theorem interpolant3_cell {nx ny nz : Nat} (f : Nat → Nat → Nat → K) {x y z : K} {i j k : Nat}
    (hi : i + 1 < nx) (hj : j + 1 < ny) (hk : k + 1 < nz)
    (x0 : 0 ≤ x - (i : K)) (x1 : x - (i : K) ≤ 1)
    (y0 : 0 ≤ y - (j : K)) (y1 : y - (j : K) ≤ 1) (z0 : 0 ≤ z - (k : K)) (z1 : z - (k : K) ≤ 1) :
    interpolant3 nx ny nz f x y z =
      trilinear (x - (i : K)) (y - (j : K)) (z - (k : K))
        (fun a b c => f (i + a.toNat) (j + b.toNat) (k + c.toNat)) := by
  have e : interpolant3 nx ny nz f x y z =
      ∑ i' ∈ Finset.range nx, interpolant2 ny nz (f i') y z * hat (x - (i' : K)) := by
    unfold interpolant3 interpolant2
    refine Finset.sum_congr rfl (fun i' _ => ?_)
    rw [Finset.sum_mul]
    refine Finset.sum_congr rfl (fun j' _ => ?_)
    rw [Finset.sum_mul]
    exact Finset.sum_congr rfl (fun k' _ => by ring)
  rw [e]
  simp only [interpolant2_cell _ hj hk y0 y1 z0 z1]
  rw [hat_sum (fun i' => bilinear (y - (j : K)) (z - (k : K)) (f i' j k) (f i' j (k + 1))
    (f i' (j + 1) k) (f i' (j + 1) (k + 1))) hi x0 x1]
  simp [trilinear, bilinear]

theorem lerp_mem {lo hi a b t : K} (h0 : 0 ≤ t) (h1 : t ≤ 1) (ha : lo ≤ a ∧ a ≤ hi)
    (hb : lo ≤ b ∧ b ≤ hi) : lo ≤ lerp a b t ∧ lerp a b t ≤ hi := by
  have e : lerp a b t = (1 - t) * a + t * b := by rw [lerp]; ring
  have h2 : 0 ≤ 1 - t := by linarith
  rw [e]
  constructor
  · nlinarith [mul_le_mul_of_nonneg_left ha.1 h2, mul_le_mul_of_nonneg_left hb.1 h0]
  · nlinarith [mul_le_mul_of_nonneg_left ha.2 h2, mul_le_mul_of_nonneg_left hb.2 h0]

theorem trilinear_mem {lo hi x y z : K} (v : Bool → Bool → Bool → K)
    (x0 : 0 ≤ x) (x1 : x ≤ 1) (y0 : 0 ≤ y) (y1 : y ≤ 1) (z0 : 0 ≤ z) (z1 : z ≤ 1)
    (hv : ∀ a b c, lo ≤ v a b c ∧ v a b c ≤ hi) :
    lo ≤ trilinear x y z v ∧ trilinear x y z v ≤ hi := by
  unfold trilinear
  simp only
  refine lerp_mem x0 x1 (lerp_mem y0 y1 ?_ ?_) (lerp_mem y0 y1 ?_ ?_) <;>
    exact lerp_mem z0 z1 (hv _ _ _) (hv _ _ _)

end Interp

end Verif.Grid
