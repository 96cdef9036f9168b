import Verif.Proofs.Grid
import Mathlib.Topology.Algebra.Monoid
import Mathlib.Topology.Algebra.Order.Group
import Mathlib.Topology.MetricSpace.Pseudo.Defs
import Mathlib.Topology.Order.Lattice
import Mathlib.Topology.Instances.Real.Lemmas
import Mathlib.Algebra.Order.Archimedean.Basic
import Mathlib.Algebra.Order.Archimedean.Real.Basic
import Mathlib.Algebra.Order.Floor.Ring
import Mathlib.Data.Rat.Floor
import Mathlib.Tactic.FinCases

set_option linter.unusedSectionVars false
set_option linter.unusedSimpArgs false

/-!
# C42, C43: reading and interpolating grid files
-/

namespace Verif.Grid
open GridSpec

/-! ## C42: addressing -/

/-- the states of a grid object: fresh, then any sequence of `open` (any mode, any answers of the
operating system) and `close` -/
inductive Reachable : Handle → Prop where
  | fresh (m : Mode) : Reachable { mode := m }
  | opened {h : Handle} (m : Mode) (os : Answers) : Reachable h → Reachable (h.open m os).1
  | closed {h : Handle} : Reachable h → Reachable h.close

theorem reachable_mapped {h : Handle} (hr : Reachable h) :
    ∀ c, h.mapped = some c → h.mode = .mmap ∧ h.mappedSize = c.length := by
  induction hr with
  | fresh m => simp
  | closed _ _ => simp [Handle.close]
  | @opened h m os _ ih =>
    unfold Handle.open
    by_cases ho : h.isOpen = true
    · rw [if_pos ho]; exact ih
    · rw [if_neg ho]
      have hm : h.mapped = none := by
        cases hc : h.mapped with
        | none => rfl
        | some c => exact absurd (by simp [Handle.isOpen, (ih c hc).1, hc]) ho
      intro c
      cases hf : h.fd.or os.file with
      | none => simp [hf, hm]
      | some content =>
        simp only [hm, hf]
        cases hs : os.statOk
        · simp [hm]
        · cases m
          · cases hmo : os.mapOk
            · simp [hm]
            · simp only [Bool.not_true, Bool.false_eq_true, if_false, if_true, Option.some.injEq]
              rintro rfl; exact ⟨trivial, rfl⟩
          · simp [hm]
          · simp only [Bool.not_true, Bool.false_eq_true, if_false]
            split <;> simp [hm]

/-- **C42 (layout).** A file written by the plain loop over x, y, z (possibly followed by other bytes)
and opened with any access method: reading node (ix,iy,iz) delivers exactly the bytes written for that
node (reversed when byte swapping is requested), for every grid size and every node inside.  The only
assumption on the size is that the file is smaller than 2^63 bytes, as every file is. -/
theorem grid_file_roundtrip {K : Type} (g : Info K) (size : Nat) (hs : 0 < size)
    (enc : Nat → Nat → Nat → List UInt8) (he : ∀ x y z, (enc x y z).length = size)
    (rest : List UInt8) (hlen : (layout g.numx g.numy g.numz enc ++ rest).length < 2 ^ 63)
    (m0 m : Mode) (os : Answers) (hfile : os.file = some (layout g.numx g.numy g.numz enc ++ rest))
    {h : Handle} (hopen : Handle.open { mode := m0 } m os = (h, true))
    {ix iy iz : Nat} (hx : ix < g.numx) (hy : iy < g.numy) (hz : iz < g.numz) :
    getBytesAt g h size ix iy iz =
      .ok (if g.swapBytes then (enc ix iy iz).reverse else enc ix iy iz) := by
  set file := layout g.numx g.numy g.numz enc ++ rest with hfdef
  have hfl : file.length = g.numx * g.numy * g.numz * size + rest.length := by
    rw [hfdef, List.length_append, layout_length _ _ _ _ _ he]
  have hend := node_end_le (size := size) hx hy hz
  have hw : g.numx * g.numy * g.numz * size < word := by unfold word; omega
  have hoff := byteOffset_eq hs hw hx hy hz
  have hslice := layout_slice _ _ _ size enc he rest hx hy hz
  rw [← hfdef] at hslice
  set off := ((ix * g.numy + iy) * g.numz + iz) * size with hoffdef
  have hne : file ≠ [] := by intro hc; rw [hc] at hfl; simp at hfl; omega
  have hoffs : (off + size) % word = off + size := Nat.mod_eq_of_lt (by unfold word; omega)
  have hin : g.isIndexInside ix iy iz = true := (isIndexInside_iff g ix iy iz).2 ⟨hx, hy, hz⟩
  have hbytes : (file.drop off).take size = enc ix iy iz := hslice
  have hcl : Handle.isOpen { mode := m0 } = false := by cases m0 <;> rfl
  unfold Handle.open at hopen
  rw [hcl] at hopen
  simp only [hfile, Option.none_or, Bool.false_eq_true, if_false] at hopen
  cases hst : os.statOk
  · rw [hst] at hopen; simp at hopen
  · rw [hst] at hopen
    simp only [Bool.not_true, Bool.false_eq_true, if_false] at hopen
    cases m
    · cases hmo : os.mapOk
      · simp only [hmo, Bool.false_eq_true, if_false, Prod.mk.injEq, and_false] at hopen
      · simp only [hmo, if_true, Prod.mk.injEq, and_true] at hopen
        subst hopen
        unfold getBytesAt
        simp only [Handle.isOpen, Option.isSome_some, Bool.not_true, Bool.false_eq_true, if_false, hin,
          hoff, hoffs, Option.getD_some]
        rw [if_neg (by omega), memcpy, if_pos (by omega), hbytes]; rfl
    · simp only [Prod.mk.injEq, and_true] at hopen
      subst hopen
      unfold getBytesAt
      simp only [Handle.isOpen, Option.isSome_some, Bool.not_true, Bool.false_eq_true, if_false, hin,
        hoff, Option.getD_some]
      rw [pread, if_pos (by omega), hbytes]
      simp only [he, ne_eq, not_true_eq_false, if_false]; rfl
    · by_cases hd : os.delivered = some file.length
      · simp only [hd, if_true, Prod.mk.injEq, and_true, Option.getD_some, min_self, List.take_length, Nat.sub_self,
          List.replicate_zero, List.append_nil] at hopen
        subst hopen
        unfold getBytesAt
        have hemp : file.isEmpty = false := by cases hf : file <;> simp_all
        simp only [Handle.isOpen, hemp, Bool.not_false, Bool.not_true, Bool.false_eq_true, if_false, hin,
          hoff, hoffs]
        rw [if_neg (by omega), memcpy, if_pos (by omega), hbytes]; rfl
      · rw [if_neg hd] at hopen; simp at hopen

/-- non-vacuity: a 2 × 2 × 3 grid of four-byte values in all three modes -/
example : ∀ m : Mode, ∃ h,
    Handle.open { mode := .mmap } m
      { file := some (layout 2 2 3 (fun x y z => [x.toUInt8, y.toUInt8, z.toUInt8, 7])),
        delivered := some 48 } = (h, true) ∧
    getBytesAt (⟨2, 2, 3, 0, 0, 0, 1, 1, 1, true⟩ : Info Nat) h 4 1 0 2 = .ok [7, 2, 0, 1] := by
  intro m; cases m <;> exact ⟨_, rfl, by decide +kernel⟩

/-- **C42 (offsets).** Distinct nodes occupy disjoint byte ranges, all inside the declared size. -/
theorem grid_offsets_disjoint {nx ny nz size : Nat} (hs : 0 < size) (hw : nx * ny * nz * size < 2 ^ 64)
    {ix iy iz jx jy jz : Nat} (hx : ix < nx) (hy : iy < ny) (hz : iz < nz)
    (kx : jx < nx) (ky : jy < ny) (kz : jz < nz) (hne : (ix, iy, iz) ≠ (jx, jy, jz)) :
    (byteOffset ny nz size ix iy iz + size ≤ byteOffset ny nz size jx jy jz ∨
      byteOffset ny nz size jx jy jz + size ≤ byteOffset ny nz size ix iy iz) ∧
    byteOffset ny nz size ix iy iz + size ≤ nx * ny * nz * size := by
  rw [byteOffset_eq hs hw hx hy hz, byteOffset_eq hs hw kx ky kz]
  refine ⟨?_, node_end_le hx hy hz⟩
  have hdiff : (ix * ny + iy) * nz + iz ≠ (jx * ny + jy) * nz + jz := by
    intro heq
    have hnz : 0 < nz := by omega
    have hny : 0 < ny := by omega
    have h1 : iz = jz := by
      have := congrArg (· % nz) heq
      simpa [Nat.add_comm, Nat.mul_comm, Nat.add_mul_mod_self_left, Nat.mod_eq_of_lt hz,
        Nat.mod_eq_of_lt kz] using this
    have h2 : ix * ny + iy = jx * ny + jy := by
      rw [h1] at heq
      exact Nat.eq_of_mul_eq_mul_right hnz (by omega)
    have h3 : iy = jy := by
      have := congrArg (· % ny) h2
      simpa [Nat.add_comm, Nat.mul_comm, Nat.add_mul_mod_self_left, Nat.mod_eq_of_lt hy,
        Nat.mod_eq_of_lt ky] using this
    have h4 : ix = jx := by
      rw [h3] at h2
      exact Nat.eq_of_mul_eq_mul_right hny (by omega)
    exact hne (by rw [h1, h3, h4])
  rcases Nat.lt_or_gt_of_ne hdiff with h | h
  · left
    have := Nat.mul_le_mul_right size (Nat.succ_le_of_lt h)
    rw [Nat.succ_mul] at this; exact this
  · right
    have := Nat.mul_le_mul_right size (Nat.succ_le_of_lt h)
    rw [Nat.succ_mul] at this; exact this

example : byteOffset 2 3 4 1 0 2 = 32 ∧ byteOffset 2 3 4 1 1 0 = 36 := by decide

/-- **C42 (memory safety).** For every state the object can reach, every index and every file (also one
shorter than declared), reading a node never leaves the file, provided the declared size fits in 64
bits: it throws, or it delivers `size` bytes.  A read outside the declared indices, or of a closed grid,
always throws. -/
theorem grid_read_safe_partial {K : Type} (g : Info K) (size : Nat) (hs : 0 < size)
    (hw : g.numx * g.numy * g.numz * size < 2 ^ 64) {h : Handle} (hr : Reachable h) (ix iy iz : Nat) :
    (getBytesAt g h size ix iy iz = .throws ∨ ∃ bs, getBytesAt g h size ix iy iz = .ok bs ∧
      bs.length = size) ∧
    ((¬(ix < g.numx ∧ iy < g.numy ∧ iz < g.numz) ∨ h.isOpen = false) →
      getBytesAt g h size ix iy iz = .throws) := by
  unfold getBytesAt
  cases ho : h.isOpen
  · simp
  · cases hin : g.isIndexInside ix iy iz
    · simp
    · obtain ⟨hx, hy, hz⟩ := (isIndexInside_iff g ix iy iz).1 hin
      refine ⟨?_, fun hc => ?_⟩
      · simp only [Bool.not_true, Bool.false_eq_true, if_false]
        rw [byteOffset_eq hs hw hx hy hz]
        have hend := node_end_le (size := size) hx hy hz
        set off := ((ix * g.numy + iy) * g.numz + iz) * size with hoffdef
        have hoffs : (off + size) % word = off + size ∨ off + size = word := by
          rcases Nat.lt_or_ge (off + size) word with hl | hl
          · exact Or.inl (Nat.mod_eq_of_lt hl)
          · unfold word at hl ⊢; omega
        rw [Nat.mod_eq_of_lt (show off + size < word by unfold word; omega)]
        have hcopy : ∀ src : List UInt8, off + size ≤ src.length →
            memcpy src off size = .ok ((src.drop off).take size) ∧
            ((src.drop off).take size).length = size := by
          intro src hsrc
          refine ⟨by rw [memcpy, if_pos hsrc], ?_⟩
          rw [List.length_take, List.length_drop]; omega
        have hswap : ∀ bs : List UInt8, bs.length = size →
            ∃ bs', Outcome.map (fun bs => if g.swapBytes then bs.reverse else bs) (.ok bs) = .ok bs' ∧
              bs'.length = size := by
          intro bs hbs
          refine ⟨_, rfl, ?_⟩
          split
          · rw [List.length_reverse]; exact hbs
          · exact hbs
        cases hmode : h.mode with
        | mmap =>
          simp only [hmode]
          by_cases hgt : off + size > h.mappedSize
          · left; rw [if_pos hgt]; rfl
          · right
            rw [if_neg hgt]
            cases hmp : h.mapped with
            | none => rw [Handle.isOpen, hmode] at ho; simp [hmp] at ho
            | some c =>
              have := (reachable_mapped hr c hmp).2
              obtain ⟨e1, e2⟩ := hcopy c (by omega)
              rw [Option.getD_some, e1]
              exact hswap _ e2
        | pread =>
          simp only [hmode]
          cases hp : pread (h.fd.getD []) off size with
          | none => left; rfl
          | some bs =>
            by_cases hl : bs.length = size
            · right
              simp only [hl, ne_eq, not_true_eq_false, if_false]
              exact hswap _ hl
            · left
              simp only [ne_eq, hl, not_false_eq_true, if_true]; rfl
        | loadIntoMemory =>
          simp only [hmode]
          by_cases hgt : off + size > h.bytes.length
          · left; rw [if_pos hgt]; rfl
          · right
            rw [if_neg hgt]
            obtain ⟨e1, e2⟩ := hcopy h.bytes (by omega)
            rw [e1]
            exact hswap _ e2
      · rcases hc with hc | hc
        · exact absurd ⟨hx, hy, hz⟩ hc
        · simp at hc

example : Reachable (Handle.open { mode := .pread } .mmap { file := some [1, 2, 3, 4], delivered := none }).1 ∧
    getBytesAt (⟨1, 1, 1, 0, 0, 0, 1, 1, 1, false⟩ : Info Nat)
      (Handle.open { mode := .pread } .mmap { file := some [1, 2, 3, 4], delivered := none }).1 4 0 0 0
      = .ok [1, 2, 3, 4] := ⟨.opened _ _ (.fresh _), by decide +kernel⟩

/-- **C42 (negative).** The header is not validated: when the declared size does not fit in 64 bits the
bound test wraps around.  With 2^62 declared nodes of four bytes the last node passes the test for any
non-empty mapped file and is read from outside of it. -/
theorem grid_read_wraps :
    ∃ (g : Info ℕ) (h : Handle) (iz : Nat), Reachable h ∧ iz < g.numz ∧
      getBytesAt g h 4 0 0 iz = .ub :=
  ⟨⟨1, 1, 2 ^ 62, 0, 0, 0, 1, 1, 1, false⟩,
   (Handle.open { mode := .mmap } .mmap { file := some [1, 2, 3, 4], delivered := none }).1,
   2 ^ 62 - 1, .opened _ _ (.fresh _), by decide, by decide +kernel⟩

/-- ... and with one more node, the last one silently aliases the first. -/
theorem grid_read_aliases :
    ∃ (g : Info ℕ) (h : Handle) (iz : Nat), Reachable h ∧ iz < g.numz ∧ iz ≠ 0 ∧
      getBytesAt g h 4 0 0 iz = .ok [1, 2, 3, 4] ∧ getBytesAt g h 4 0 0 0 = .ok [1, 2, 3, 4] :=
  ⟨⟨1, 1, 2 ^ 62 + 1, 0, 0, 0, 1, 1, 1, false⟩,
   (Handle.open { mode := .mmap } .mmap { file := some [1, 2, 3, 4], delivered := none }).1,
   2 ^ 62, .opened _ _ (.fresh _), by decide, by decide, by decide +kernel, by decide +kernel⟩

/-- **C42 (negative).** A failed load leaves the grid looking open: after a short read (Linux delivers
at most 2 GiB per call) `open` throws, but the object then answers reads of the missing part with
zeros. -/
theorem grid_failed_load_reads_zeros :
    ∃ (g : Info ℕ) (os : Answers) (h : Handle), os.file = some [9, 9, 9, 9, 8, 8, 8, 8] ∧
      Handle.open { mode := .mmap } .loadIntoMemory os = (h, false) ∧ h.isOpen = true ∧
      getBytesAt g h 4 0 0 1 = .ok [0, 0, 0, 0] :=
  ⟨⟨1, 1, 2, 0, 0, 0, 1, 1, 1, false⟩, { file := some [9, 9, 9, 9, 8, 8, 8, 8], delivered := some 4 }, _,
   rfl, rfl, by decide +kernel, by decide +kernel⟩

/-! ## C43: interpolation -/

section
variable {K : Type} [Field K] [LinearOrder K] [IsStrictOrderedRing K] [FloorSemiring K]

/-- a usable three-dimensional grid: at least two nodes and a positive cell size on each axis -/
structure Usable (g : Info K) : Prop where
  x : 2 ≤ g.numx ∧ g.numx < 2 ^ 64 ∧ 0 < g.dx
  y : 2 ≤ g.numy ∧ g.numy < 2 ^ 64 ∧ 0 < g.dy
  z : 2 ≤ g.numz ∧ g.numz < 2 ^ 64 ∧ 0 < g.dz

/-- the location lies in the box spanned by the first and the last node -/
def InBox (g : Info K) (x y z : K) : Prop :=
  (g.origx ≤ x ∧ x ≤ g.origx + ((g.numx : K) - 1) * g.dx) ∧
  (g.origy ≤ y ∧ y ≤ g.origy + ((g.numy : K) - 1) * g.dy) ∧
  (g.origz ≤ z ∧ z ≤ g.origz + ((g.numz : K) - 1) * g.dz)

theorem pred64_cast {n : Nat} (h : 1 ≤ n) : ((pred64 n : Nat) : K) = (n : K) - 1 := by
  rw [pred64, if_neg (by omega), Nat.cast_sub h, Nat.cast_one]

theorem inside_iff_inBox {g : Info K} (hg : Usable g) (x y z : K) :
    g.isLocationInside x y z = true ↔ InBox g x y z := by
  rw [isLocationInside_iff, InBox, pred64_cast (by have := hg.x.1; omega),
    pred64_cast (by have := hg.y.1; omega), pred64_cast (by have := hg.z.1; omega)]

/-- **C43 (3D).** For every usable grid with non-negative node values and every location in its box, the
value returned is the piecewise linear interpolant of the node values: the sum over all nodes of node
value times the product of hat functions centred at the node. -/
theorem grid_interpolates_3d {g : Info K} (hg : Usable g) (f : Nat → Nat → Nat → K)
    (read : Nat → Nat → Nat → Outcome K)
    (hread : ∀ i < g.numx, ∀ j < g.numy, ∀ k < g.numz, read i j k = .ok (f i j k) ∧ 0 ≤ f i j k)
    {x y z : K} (hin : InBox g x y z) :
    getValue3D g read x y z = .ok (interpolant3 g.numx g.numy g.numz f
      ((x - g.origx) / g.dx) ((y - g.origy) / g.dy) ((z - g.origz) / g.dz)) := by
  have hins := (inside_iff_inBox hg x y z).2 hin
  obtain ⟨hx, hy, hz⟩ := (isLocationInside_iff g x y z).1 hins
  obtain ⟨i, ex, hi, x0, x1⟩ := axisCell_spec hg.x.1 hg.x.2.1 hg.x.2.2 hx.1 hx.2
  obtain ⟨j, ey, hj, y0, y1⟩ := axisCell_spec hg.y.1 hg.y.2.1 hg.y.2.2 hy.1 hy.2
  obtain ⟨k, ez, hk, z0, z1⟩ := axisCell_spec hg.z.1 hg.z.2.1 hg.z.2.2 hz.1 hz.2
  rw [interpolant3_cell f hi hj hk x0 x1 y0 y1 z0 z1]
  have r := fun a b c (ha : a ≤ i + 1) (hb : b ≤ j + 1) (hc : c ≤ k + 1) =>
    hread a (by omega) b (by omega) c (by omega)
  have n := fun a b c ha hb hc => not_lt.2 (r a b c ha hb hc).2
  unfold getValue3D getValuesAt3DLocation
  rw [hins]
  simp only [Bool.not_true, Bool.false_eq_true, if_false, ex, ey, ez, Outcome.bind_ok, Outcome.pure_eq,
    (r i j k (by omega) (by omega) (by omega)).1, (r i j (k+1) (by omega) (by omega) (by omega)).1,
    (r i (j+1) k (by omega) (by omega) (by omega)).1, (r i (j+1) (k+1) (by omega) (by omega) (by omega)).1,
    (r (i+1) j k (by omega) (by omega) (by omega)).1, (r (i+1) j (k+1) (by omega) (by omega) (by omega)).1,
    (r (i+1) (j+1) k (by omega) (by omega) (by omega)).1,
    (r (i+1) (j+1) (k+1) (by omega) (by omega) (by omega)).1]
  unfold interpolate3
  simp only
  rw [if_neg]
  · congr 1
  · simp only [not_or]
    exact ⟨n _ _ _ (by omega) (by omega) (by omega), n _ _ _ (by omega) (by omega) (by omega),
      n _ _ _ (by omega) (by omega) (by omega), n _ _ _ (by omega) (by omega) (by omega),
      n _ _ _ (by omega) (by omega) (by omega), n _ _ _ (by omega) (by omega) (by omega),
      n _ _ _ (by omega) (by omega) (by omega), n _ _ _ (by omega) (by omega) (by omega)⟩

/-- the interpolant at a node is the node value -/
theorem interpolant3_node (nx ny nz : Nat) (f : Nat → Nat → Nat → K) {i j k : Nat}
    (hi : i < nx) (hj : j < ny) (hk : k < nz) :
    interpolant3 nx ny nz f (i : K) (j : K) (k : K) = f i j k := by
  have hh : ∀ a b : Nat, hat ((a : K) - (b : K)) = if b = a then 1 else 0 := by
    intro a b
    by_cases e : b = a
    · subst e; simp [hat]
    · rw [if_neg e, hat]
      apply max_eq_left
      rcases Nat.lt_or_gt_of_ne e with h | h
      · have : ((b + 1 : Nat) : K) ≤ (a : K) := Nat.cast_le.2 h
        push_cast at this
        rw [abs_of_nonneg (by linarith)]; linarith
      · have : ((a + 1 : Nat) : K) ≤ (b : K) := Nat.cast_le.2 h
        push_cast at this
        rw [abs_of_nonpos (by linarith)]; linarith
  unfold interpolant3
  simp only [hh]
  rw [Finset.sum_eq_single i, Finset.sum_eq_single j, Finset.sum_eq_single k]
  · simp
  · intro b _ hb; simp [hb]
  · intro hc; exact absurd (Finset.mem_range.2 hk) hc
  · intro b _ hb; simp [hb]
  · intro hc; exact absurd (Finset.mem_range.2 hj) hc
  · intro b _ hb; simp [hb]
  · intro hc; exact absurd (Finset.mem_range.2 hi) hc

/-- **C43 (exact at nodes).** At the coordinates of a node the value returned is the node value. -/
theorem grid_exact_at_nodes {g : Info K} (hg : Usable g) (f : Nat → Nat → Nat → K)
    (read : Nat → Nat → Nat → Outcome K)
    (hread : ∀ i < g.numx, ∀ j < g.numy, ∀ k < g.numz, read i j k = .ok (f i j k) ∧ 0 ≤ f i j k)
    {i j k : Nat} (hi : i < g.numx) (hj : j < g.numy) (hk : k < g.numz) :
    getValue3D g read (g.origx + i * g.dx) (g.origy + j * g.dy) (g.origz + k * g.dz) = .ok (f i j k) := by
  have bound : ∀ (o d : K) (n m : Nat), 0 < d → n < m → o ≤ o + n * d ∧ o + n * d ≤ o + ((m : K) - 1) * d := by
    intro o d n m hd hn
    have h1 : ((n + 1 : Nat) : K) ≤ (m : K) := Nat.cast_le.2 hn
    push_cast at h1
    have h2 : (0 : K) ≤ (n : K) := Nat.cast_nonneg n
    exact ⟨by nlinarith, by nlinarith⟩
  rw [grid_interpolates_3d hg f read hread
    ⟨bound _ _ _ _ hg.x.2.2 hi, bound _ _ _ _ hg.y.2.2 hj, bound _ _ _ _ hg.z.2.2 hk⟩]
  have e : ∀ (o d : K) (n : Nat), 0 < d → (o + n * d - o) / d = (n : K) := by
    intro o d n hd; field_simp; ring
  rw [e _ _ _ hg.x.2.2, e _ _ _ hg.y.2.2, e _ _ _ hg.z.2.2, interpolant3_node _ _ _ f hi hj hk]

/-- **C43 (bounded by the cell).** For any cell containing the location, the value returned lies between
any two bounds on the eight corner values; in particular a constant field gives the constant. -/
theorem grid_bounded_by_cell {g : Info K} (hg : Usable g) (f : Nat → Nat → Nat → K)
    (read : Nat → Nat → Nat → Outcome K)
    (hread : ∀ i < g.numx, ∀ j < g.numy, ∀ k < g.numz, read i j k = .ok (f i j k) ∧ 0 ≤ f i j k)
    {x y z : K} {i j k : Nat} (hi : i + 1 < g.numx) (hj : j + 1 < g.numy) (hk : k + 1 < g.numz)
    (hx : g.origx + i * g.dx ≤ x ∧ x ≤ g.origx + (i + 1) * g.dx)
    (hy : g.origy + j * g.dy ≤ y ∧ y ≤ g.origy + (j + 1) * g.dy)
    (hz : g.origz + k * g.dz ≤ z ∧ z ≤ g.origz + (k + 1) * g.dz)
    {lo hi' : K} (hv : ∀ a ≤ 1, ∀ b ≤ 1, ∀ c ≤ 1, lo ≤ f (i + a) (j + b) (k + c) ∧
      f (i + a) (j + b) (k + c) ≤ hi') :
    ∃ v, getValue3D g read x y z = .ok v ∧ lo ≤ v ∧ v ≤ hi' := by
  have cell : ∀ {o d p : K} {n m : Nat}, 0 < d → n + 1 < m → o + n * d ≤ p ∧ p ≤ o + (n + 1) * d →
      (o ≤ p ∧ p ≤ o + ((m : K) - 1) * d) ∧ 0 ≤ (p - o) / d - n ∧ (p - o) / d - n ≤ 1 := by
    intro o d p n m hd hn hp
    have h1 : ((n + 2 : Nat) : K) ≤ (m : K) := Nat.cast_le.2 hn
    push_cast at h1
    have h2 : (0 : K) ≤ (n : K) := Nat.cast_nonneg n
    refine ⟨⟨by nlinarith, by nlinarith⟩, ?_, ?_⟩
    · rw [sub_nonneg, le_div_iff₀ hd]; linarith [hp.1]
    · rw [sub_le_iff_le_add, div_le_iff₀ hd]; linarith [hp.2]
  obtain ⟨bx, x0, x1⟩ := cell hg.x.2.2 hi hx
  obtain ⟨byy, y0, y1⟩ := cell hg.y.2.2 hj hy
  obtain ⟨bz, z0, z1⟩ := cell hg.z.2.2 hk hz
  refine ⟨_, grid_interpolates_3d hg f read hread ⟨bx, byy, bz⟩, ?_⟩
  rw [interpolant3_cell f hi hj hk x0 x1 y0 y1 z0 z1]
  exact trilinear_mem _ x0 x1 y0 y1 z0 z1 (fun a b c =>
    hv _ (by cases a <;> decide) _ (by cases b <;> decide) _ (by cases c <;> decide))

/-- **C43 (outside).** A location outside the box throws. -/
theorem grid_outside_throws {g : Info K} (hg : Usable g) (read : Nat → Nat → Nat → Outcome K)
    {x y z : K} (hout : ¬ InBox g x y z) : getValue3D g read x y z = .throws := by
  rw [← inside_iff_inBox hg, Bool.not_eq_true] at hout
  unfold getValue3D getValuesAt3DLocation
  rw [hout]; rfl

/-- **C43 (2D).** Grids with distance and depth axes: the value returned is the bilinear interpolant. -/
theorem grid_interpolates_2d {g : Info K} (hx1 : 1 ≤ g.numx) (hdx : 0 ≤ g.dx)
    (hy : 2 ≤ g.numy ∧ g.numy < 2 ^ 64 ∧ 0 < g.dy) (hz : 2 ≤ g.numz ∧ g.numz < 2 ^ 64 ∧ 0 < g.dz)
    (f : Nat → Nat → K) (read : Nat → Nat → Nat → Outcome K)
    (hread : ∀ j < g.numy, ∀ k < g.numz, read 0 j k = .ok (f j k) ∧ 0 ≤ f j k)
    {y z : K} (hiny : g.origy ≤ y ∧ y ≤ g.origy + ((g.numy : K) - 1) * g.dy)
    (hinz : g.origz ≤ z ∧ z ≤ g.origz + ((g.numz : K) - 1) * g.dz) :
    getValue2D g read y z = .ok (interpolant2 g.numy g.numz f
      ((y - g.origy) / g.dy) ((z - g.origz) / g.dz)) := by
  have hins : g.isLocationInside g.origx y z = true := by
    rw [isLocationInside_iff, pred64_cast (by omega : 1 ≤ g.numy), pred64_cast (by omega : 1 ≤ g.numz)]
    refine ⟨⟨le_refl _, ?_⟩, hiny, hinz⟩
    have : (0 : K) ≤ (pred64 g.numx : K) * g.dx := mul_nonneg (Nat.cast_nonneg _) hdx
    linarith
  have hy' := hiny; have hz' := hinz
  rw [← pred64_cast (by omega : 1 ≤ g.numy)] at hy'
  rw [← pred64_cast (by omega : 1 ≤ g.numz)] at hz'
  obtain ⟨j, ey, hj, y0, y1⟩ := axisCell_spec hy.1 hy.2.1 hy.2.2 hy'.1 hy'.2
  obtain ⟨k, ez, hk, z0, z1⟩ := axisCell_spec hz.1 hz.2.1 hz.2.2 hz'.1 hz'.2
  rw [interpolant2_cell f hj hk y0 y1 z0 z1]
  have r := fun b c (hb : b ≤ j + 1) (hc : c ≤ k + 1) => hread b (by omega) c (by omega)
  have n := fun b c hb hc => not_lt.2 (r b c hb hc).2
  unfold getValue2D getValuesAt2DLocation
  rw [hins]
  simp only [Bool.not_true, Bool.false_eq_true, if_false, ey, ez, Outcome.bind_ok, Outcome.pure_eq,
    (r j k (by omega) (by omega)).1, (r j (k+1) (by omega) (by omega)).1,
    (r (j+1) k (by omega) (by omega)).1, (r (j+1) (k+1) (by omega) (by omega)).1]
  unfold interpolate2
  simp only
  rw [if_neg]
  simp only [not_or]
  exact ⟨n _ _ (by omega) (by omega), n _ _ (by omega) (by omega), n _ _ (by omega) (by omega),
    n _ _ (by omega) (by omega)⟩

/-- **C43 (single layer).** A grid with one node along the y or z axis cannot be read at all, even at the
node itself: the decrement of the cell index wraps around and the lookup throws. -/
theorem grid_single_layer_unusable {g : Info K} (h : Handle) (size : Nat) (decode : List UInt8 → K)
    (hdy : 0 < g.dy) (hdz : 0 < g.dz) (hy : 1 ≤ g.numy ∧ g.numy < 2 ^ 64)
    (hz : 1 ≤ g.numz ∧ g.numz < 2 ^ 64) (h1 : g.numy = 1 ∨ g.numz = 1) (y z : K) :
    getValue2D g (fun ix iy iz => (getBytesAt g h size ix iy iz).map decode) y z = .throws := by
  unfold getValue2D getValuesAt2DLocation
  cases hins : g.isLocationInside g.origx y z with
  | false => rfl
  | true =>
    simp only [Bool.not_true, Bool.false_eq_true, if_false]
    obtain ⟨_, iy, iz⟩ := (isLocationInside_iff g g.origx y z).1 hins
    have out : ∀ a b, ¬ (a < g.numy ∧ b < g.numz) → getBytesAt g h size 0 a b = .throws := by
      intro a b hab
      unfold getBytesAt
      cases h.isOpen
      · rfl
      · have : g.isIndexInside 0 a b = false := by
          rw [← Bool.not_eq_true, isIndexInside_iff]; tauto
        rw [this]; rfl
    have key : ∀ {num : Nat} {orig d loc : K}, 0 < d → 1 ≤ num ∧ num < 2 ^ 64 → orig ≤ loc →
        loc ≤ orig + (pred64 num : K) * d → ∃ r, axisCell num orig d loc = .ok r ∧
          (num = 1 → r.1 = word - 1) := by
      intro num orig d loc hd hn hlo hhi
      by_cases e : num = 1
      · subst e
        have hp : pred64 1 = 0 := rfl
        rw [hp] at hhi
        have : loc = orig := le_antisymm (by simpa using hhi) hlo
        subst this
        refine ⟨(word - 1, (word - 1 + 1) % word, ((loc - loc) / d) - ((word - 1 : Nat) : K)), ?_,
          fun _ => rfl⟩
        · unfold axisCell
          rw [if_neg hd.ne']
          have ht : toULL ((loc - loc) / d) = .ok 0 := by
            rw [sub_self, zero_div, toULL, if_pos ⟨by linarith [zero_lt_one (α := K)], by positivity⟩]
            simp
          simp only [ht, hp, if_true]
          rfl
      · obtain ⟨i, hi, _⟩ := axisCell_spec (by omega : 2 ≤ num) hn.2 hd hlo hhi
        exact ⟨_, hi, fun hc => absurd hc e⟩
    obtain ⟨ry, ey, wy⟩ := key hdy hy iy.1 iy.2
    obtain ⟨rz, ez, wz⟩ := key hdz hz iz.1 iz.2
    simp only [ey, ez, Outcome.bind_ok]
    rw [out ry.1 rz.1]
    · rfl
    · rintro ⟨c1, c2⟩
      rcases h1 with e | e
      · rw [wy e, e] at c1; unfold word at c1; omega
      · rw [wz e, e] at c2; unfold word at c2; omega

end

/-- **C43 (undefined behaviour).** A zero cell size in the header is not rejected: the division gives a
NaN whose conversion to an index is undefined. -/
theorem grid_zero_cell_ub : ∃ g : Info ℚ, 2 ≤ g.numx ∧ 2 ≤ g.numy ∧ 2 ≤ g.numz ∧
    getValue3D g (fun _ _ _ => .ok 1) 0 0 0 = .ub :=
  ⟨⟨2, 2, 2, 0, 0, 0, 0, 1, 1, false⟩, by decide, by decide, by decide, by decide +kernel⟩

/-- non-vacuity: a 3 × 2 × 2 grid, a point inside the second cell -/
example : Usable (⟨3, 2, 2, 10, 0, -1, 1/2, 1, 2, false⟩ : Info ℚ) ∧
    InBox (⟨3, 2, 2, 10, 0, -1, 1/2, 1, 2, false⟩ : Info ℚ) (43/4) (1/2) 0 ∧
    getValue3D (⟨3, 2, 2, 10, 0, -1, 1/2, 1, 2, false⟩ : Info ℚ)
      (fun i j k => .ok (i + 2 * j + 5 * k)) (43/4) (1/2) 0 = .ok 5 := by
  refine ⟨⟨by norm_num, by norm_num, by norm_num⟩, by unfold InBox; norm_num, by decide +kernel⟩

/-- **C43 (continuity).** The returned value is a continuous function of the location on the whole box:
there is a continuous function on space that agrees with it everywhere inside. -/
theorem grid_continuous {g : Info ℝ} (hg : Usable g) (f : Nat → Nat → Nat → ℝ)
    (read : Nat → Nat → Nat → Outcome ℝ)
    (hread : ∀ i < g.numx, ∀ j < g.numy, ∀ k < g.numz, read i j k = .ok (f i j k) ∧ 0 ≤ f i j k) :
    ∃ F : ℝ × ℝ × ℝ → ℝ, Continuous F ∧
      ∀ x y z, InBox g x y z → getValue3D g read x y z = .ok (F (x, y, z)) := by
  refine ⟨fun p => interpolant3 g.numx g.numy g.numz f
      ((p.1 - g.origx) / g.dx) ((p.2.1 - g.origy) / g.dy) ((p.2.2 - g.origz) / g.dz), ?_,
    fun x y z hin => grid_interpolates_3d hg f read hread hin⟩
  unfold interpolant3 hat
  fun_prop

end Verif.Grid
