import Verif.Base.Outcome
import Mathlib.Algebra.Order.Floor.Semiring
import Mathlib.Algebra.Order.Floor.Defs
import Mathlib.Algebra.Order.Field.Basic

/-!
# Model of the NonLinLoc grid files (libs/hdd/nll/grid.cpp:708-1033, 1094-1130, 1404-1439; grid.h:195-240)

Modelled: opening (three access methods), the open test, closing, reading the value of a node with
unsigned 64-bit index arithmetic, the cell around a location with its eight (four) corner values, and
the linear interpolation of times and velocities.

Simplifications: the header is given by its fields (its text is parsed in `Model/GridHeader.lean`); a `double` is an element of an
ordered field, so rounding is absent, and the conversion of bytes to a number is an arbitrary function;
the content of a file does not change while it is in use.  A read outside the mapped or loaded bytes and
a conversion of an unrepresentable number to an integer are undefined behaviour.
-/

namespace Verif.Grid

/-- number of values of `unsigned long long` -/
abbrev word : Nat := 2 ^ 64

/-- the numeric fields of `Grid::Info`, grid.h:195-228 -/
structure Info (K : Type) where
  numx : Nat
  numy : Nat
  numz : Nat
  origx : K
  origy : K
  origz : K
  dx : K
  dy : K
  dz : K
  swapBytes : Bool

/-- grid.h:222-227 -/
def Info.isIndexInside {K : Type} (g : Info K) (ix iy iz : Nat) : Bool :=
  decide (ix < g.numx) && decide (iy < g.numy) && decide (iz < g.numz)

/-- `n - 1` on `unsigned long long` -/
def pred64 (n : Nat) : Nat := if n = 0 then word - 1 else n - 1

section Files

/-- grid.h `Grid::OpenMode` -/
inductive Mode where
  | mmap
  | pread
  | loadIntoMemory
deriving DecidableEq, Repr

/-- the members `_mode`, `_fd`, `_mapped`, `_mappedSize`, `_bytes` of `Grid`, grid.h:235-240.
`fd` and `mapped` carry the content of the file they refer to. (`_mode` is not initialised by the
constructor; the model starts with an arbitrary one.) -/
structure Handle where
  mode : Mode
  fd : Option (List UInt8) := none
  mapped : Option (List UInt8) := none
  bytes : List UInt8 := []
  mappedSize : Nat := 0

/-- what the operating system answers to the calls made by one `open`: the file content if `::open`
succeeds, success of `fstat` and `mmap`, and the number of bytes a `pread` of the whole file delivers
(`none` = error) -/
structure Answers where
  file : Option (List UInt8)
  statOk : Bool := true
  mapOk : Bool := true
  delivered : Option Nat

/-- grid.cpp:764-778 -/
def Handle.isOpen (h : Handle) : Bool :=
  match h.mode with
  | .mmap => h.mapped.isSome
  | .pread => h.fd.isSome
  | .loadIntoMemory => !h.bytes.isEmpty

/-- grid.cpp:708-762.  Returns the state of the object after the call and whether it returned
normally (`true`) or threw. The descriptor may survive a failure. -/
def Handle.open (h : Handle) (mode : Mode) (os : Answers) : Handle × Bool :=
  if h.isOpen then (h, true)                                                     -- :710
  else
    let fd := h.fd.or os.file                                                    -- :714-717
    let h1 := { h with mode := mode, fd := fd }
    match fd with
    | none => (h1, false)                                                        -- :719-722
    | some content =>
      if !os.statOk then (h1, false)                                             -- :724-729
      else
        let h2 := { h1 with mappedSize := content.length }                       -- :731
        match mode with
        | .mmap =>                                                               -- :733-747
          match h.mapped with
          | some _ => ({ h2 with fd := none }, true)
          | none =>
            if os.mapOk then ({ h2 with mapped := some content, fd := none }, true)
            else (h2, false)
        | .pread => (h2, true)
        | .loadIntoMemory =>                                                     -- :748-760
          -- `_bytes.resize` keeps what was there; the object had no bytes (it was not open) or
          -- belongs to another mode, so new bytes are zero until `pread` fills them
          let got := min (os.delivered.getD 0) content.length
          let buf := content.take got ++ List.replicate (content.length - got) 0
          let h3 := { h2 with bytes := buf }
          if os.delivered = some content.length then ({ h3 with fd := none }, true)
          else (h3, false)

/-- grid.cpp:780-802 -/
def Handle.close (h : Handle) : Handle := { mode := h.mode }

/-- the object holds an operating system resource or a loaded file -/
def Handle.holds (h : Handle) : Bool := h.fd.isSome || h.mapped.isSome || !h.bytes.isEmpty

/-- `memcpy` of `size` bytes at `off` out of `src`: reading outside is undefined behaviour -/
def memcpy (src : List UInt8) (off size : Nat) : Outcome (List UInt8) :=
  if off + size ≤ src.length then .ok ((src.drop off).take size) else .ub

/-- POSIX `pread` at an unsigned offset converted to `off_t`: a negative offset fails, otherwise the
bytes up to the end of the file are delivered -/
def pread (file : List UInt8) (off size : Nat) : Option (List UInt8) :=
  if off < 2 ^ 63 then some ((file.drop off).take size) else none

/-- grid.cpp:819-820, unsigned 64-bit arithmetic: every operation is modulo 2^64 -/
def byteOffset (numy numz size ix iy iz : Nat) : Nat :=
  let index := (((ix * numy % word) * numz % word) + (iy * numz % word) + iz) % word
  index * size % word

/-- grid.cpp:804-868 `getValueAtIndex`, for values of `size` bytes (4 or 8); the result is the list of
bytes of the value in memory. -/
def getBytesAt {K : Type} (g : Info K) (h : Handle) (size ix iy iz : Nat) : Outcome (List UInt8) :=
  if !h.isOpen then .throws                                                      -- :809-812
  else if !g.isIndexInside ix iy iz then .throws                                 -- :814-817
  else
    let off := byteOffset g.numy g.numz size ix iy iz
    let raw : Outcome (List UInt8) :=
      match h.mode with
      | .mmap =>                                                                 -- :823-833
        if (off + size) % word > h.mappedSize then .throws
        else memcpy (h.mapped.getD []) off size
      | .pread =>                                                                -- :834-842
        match pread (h.fd.getD []) off size with
        | none => .throws
        | some bs => if bs.length ≠ size then .throws else .ok bs
      | .loadIntoMemory =>                                                       -- :843-851
        if (off + size) % word > h.bytes.length then .throws
        else memcpy h.bytes off size
    raw.map (fun bs => if g.swapBytes then bs.reverse else bs)                   -- :853-866

end Files

section Interpolation

variable {K : Type} [Field K] [LinearOrder K] [IsStrictOrderedRing K] [FloorSemiring K]

/-- grid.h:211-221 (`numx - 1` is unsigned) -/
def Info.isLocationInside (g : Info K) (x y z : K) : Bool :=
  !(decide (x < g.origx) || decide (x > g.origx + (pred64 g.numx : K) * g.dx) ||
    decide (y < g.origy) || decide (y > g.origy + (pred64 g.numy : K) * g.dy) ||
    decide (z < g.origz) || decide (z > g.origz + (pred64 g.numz : K) * g.dz))

/-- `(unsigned long long)off`: undefined unless the truncated value is representable -/
def toULL (off : K) : Outcome Nat :=
  if -1 < off ∧ off < (word : K) then .ok ⌊off⌋₊ else .ub

/-- one axis of grid.cpp:899-917: the offset in cells, the first node of the cell, the second node and
the fractional position.  A division by a zero cell size gives an infinity or a NaN, whose conversion
to an integer is undefined. -/
def axisCell (num : Nat) (orig d loc : K) : Outcome (Nat × Nat × K) :=
  if d = 0 then .ub
  else
    let off := (loc - orig) / d
    match toULL off with
    | .ok i =>
      let i0 := if i = pred64 num then pred64 i else i
      let i1 := (i0 + 1) % word
      .ok (i0, i1, off - (i0 : K))
    | .throws => .throws
    | .ub => .ub

/-- corner values of the cell, named by the lower/upper choice on each axis -/
structure Cell3 (K V : Type) where
  xdiff : K
  ydiff : K
  zdiff : K
  v : Bool → Bool → Bool → V

/-- grid.cpp:870-929 -/
def getValuesAt3DLocation {V : Type} (g : Info K) (read : Nat → Nat → Nat → Outcome V) (x y z : K) :
    Outcome (Cell3 K V) := do
  if !g.isLocationInside x y z then .throws
  else
    let cx ← axisCell g.numx g.origx g.dx x
    let cy ← axisCell g.numy g.origy g.dy y
    let cz ← axisCell g.numz g.origz g.dz z
    let v000 ← read cx.1 cy.1 cz.1
    let v001 ← read cx.1 cy.1 cz.2.1
    let v010 ← read cx.1 cy.2.1 cz.1
    let v011 ← read cx.1 cy.2.1 cz.2.1
    let v100 ← read cx.2.1 cy.1 cz.1
    let v101 ← read cx.2.1 cy.1 cz.2.1
    let v110 ← read cx.2.1 cy.2.1 cz.1
    let v111 ← read cx.2.1 cy.2.1 cz.2.1
    pure ⟨cx.2.2, cy.2.2, cz.2.2, fun a b c =>
      match a, b, c with
      | false, false, false => v000
      | false, false, true => v001
      | false, true, false => v010
      | false, true, true => v011
      | true, false, false => v100
      | true, false, true => v101
      | true, true, false => v110
      | true, true, true => v111⟩

/-- corner values of a face -/
structure Cell2 (K V : Type) where
  ydiff : K
  zdiff : K
  v : Bool → Bool → V

/-- grid.cpp:931-979 -/
def getValuesAt2DLocation {V : Type} (g : Info K) (read : Nat → Nat → Nat → Outcome V) (y z : K) :
    Outcome (Cell2 K V) := do
  if !g.isLocationInside g.origx y z then .throws
  else
    let cy ← axisCell g.numy g.origy g.dy y
    let cz ← axisCell g.numz g.origz g.dz z
    let v00 ← read 0 cy.1 cz.1
    let v01 ← read 0 cy.1 cz.2.1
    let v10 ← read 0 cy.2.1 cz.1
    let v11 ← read 0 cy.2.1 cz.2.1
    pure ⟨cy.2.2, cz.2.2, fun a b =>
      match a, b with
      | false, false => v00
      | false, true => v01
      | true, false => v10
      | true, true => v11⟩

omit [LinearOrder K] [IsStrictOrderedRing K] [FloorSemiring K] in
/-- utils.cpp:398, 426 -/
def lerp (a b t : K) : K := a + t * (b - a)

/-- utils.cpp:390-406 -/
def bilinear (xdiff zdiff v00 v01 v10 v11 : K) : K :=
  let z0 := lerp v00 v01 zdiff
  let z1 := lerp v10 v11 zdiff
  lerp z0 z1 xdiff

/-- utils.cpp:413-440 -/
def trilinear (xdiff ydiff zdiff : K) (v : Bool → Bool → Bool → K) : K :=
  let z00 := lerp (v false false false) (v false false true) zdiff
  let z01 := lerp (v false true false) (v false true true) zdiff
  let z10 := lerp (v true false false) (v true false true) zdiff
  let z11 := lerp (v true true false) (v true true true) zdiff
  let y0 := lerp z00 z01 ydiff
  let y1 := lerp z10 z11 ydiff
  lerp y0 y1 xdiff

/-- grid.cpp:1094-1115 (times) and 1404-1424 (velocities), with the order of the tests dropped: all
eight are made before anything else happens -/
def interpolate3 (c : Cell3 K K) : Outcome K :=
  if c.v false false false < 0 ∨ c.v false true false < 0 ∨ c.v true false false < 0 ∨
      c.v true true false < 0 ∨ c.v false false true < 0 ∨ c.v false true true < 0 ∨
      c.v true false true < 0 ∨ c.v true true true < 0 then .throws
  else .ok (trilinear c.xdiff c.ydiff c.zdiff c.v)

/-- grid.cpp:1117-1130 (times) and 1426-1439 (velocities) -/
def interpolate2 (c : Cell2 K K) : Outcome K :=
  if c.v false false < 0 ∨ c.v false true < 0 ∨ c.v true false < 0 ∨ c.v true true < 0 then .throws
  else .ok (bilinear c.ydiff c.zdiff (c.v false false) (c.v false true) (c.v true false) (c.v true true))

/-- grid.cpp:981-1001 `getValue3D` for times and velocities, at plane coordinates -/
def getValue3D (g : Info K) (read : Nat → Nat → Nat → Outcome K) (x y z : K) : Outcome K :=
  getValuesAt3DLocation g read x y z >>= interpolate3

/-- grid.cpp:1003-1033 `getValue2D` for times and velocities; `dist` is the epicentral distance in the
plane of the grid, or the origin of the y axis for velocity grids -/
def getValue2D (g : Info K) (read : Nat → Nat → Nat → Outcome K) (dist z : K) : Outcome K :=
  getValuesAt2DLocation g read dist z >>= interpolate2

end Interpolation

end Verif.Grid
