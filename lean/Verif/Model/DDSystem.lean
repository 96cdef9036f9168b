import Verif.Base.Fl
import Verif.Base.Outcome
import Mathlib.Algebra.Order.Field.Basic
import Mathlib.Analysis.SpecialFunctions.Sqrt

/-!
# Model of the double-difference system and of its adapter to the least-squares solvers
(libs/hdd/solver.h:61-141, libs/hdd/solver.cpp:49-239)

Numbers are elements of an ordered field (no rounding).  The arrays are functions from the index; the
sizes are kept, and `Verif.Solver` proves that every index used is below them.
-/

namespace Verif

/-- libs/hdd/solver.h:61-141. `ev1`/`ev2` are `evByObs[0]`/`evByObs[1]`, with `none` for −1.
`m` is not a field: it is an argument where it is used. -/
structure DDSystem (K : Type) where
  nObs : Nat
  nEvts : Nat
  nPhStas : Nat
  nTT : Nat
  W : Nat → K
  G : Nat → Nat → K
  d : Nat → K
  scaler : Nat → K
  ev1 : Nat → Option Nat
  ev2 : Nat → Option Nat
  phSta : Nat → Nat

namespace DDSystem
variable {K : Type} [Field K] [LinearOrder K]

/-- solver.h:101 -/
def numRows (dd : DDSystem K) : Nat := dd.nObs + dd.nTT

/-- solver.h:100 -/
def numCols (dd : DDSystem K) : Nat := dd.nEvts * 4

/-- `idxG`, solver.cpp:92,103,164,175,219,230 -/
def idxG (dd : DDSystem K) (e ob : Nat) : Nat := e * dd.nPhStas + dd.phSta ob

/-- Constructor of the adapter, solver.cpp:55-71: scaler 1, data multiplied by the weight -/
def adapter (dd : DDSystem K) : DDSystem K :=
  { dd with
    scaler := fun _ => 1
    d := fun ob => if ob < dd.numRows then (if dd.W ob ≠ 0 then dd.d ob * dd.W ob else 0) else dd.d ob }

/-- `sum` of one row, solver.cpp:157-181 -/
def rowSum (dd : DDSystem K) (x : Nat → K) (ob : Nat) : K :=
  let sum := 0
  let sum := match dd.ev1 ob with
    | none => sum
    | some e => [0, 1, 2, 3].foldl
        (fun s k => s + dd.G (dd.idxG e ob) k * dd.scaler (e * 4 + k) * x (e * 4 + k)) sum
  match dd.ev2 ob with
    | none => sum
    | some e => [0, 1, 2, 3].foldl
        (fun s k => s - dd.G (dd.idxG e ob) k * dd.scaler (e * 4 + k) * x (e * 4 + k)) sum

/-- `v[i] += a` -/
def addAt (v : Nat → K) (i : Nat) (a : K) : Nat → K := fun j => if j = i then v j + a else v j

/-- solver.cpp:140-185, the loop (y = y + A x) -/
def aprod1 (dd : DDSystem K) (x y : Nat → K) : Nat → K :=
  (List.range dd.numRows).foldl
    (fun y ob => if dd.W ob = 0 then y else addAt y ob (dd.W ob * dd.rowSum x ob)) y

/-- solver.cpp:140-185 with the size check -/
def Aprod1 (dd : DDSystem K) (m n : Nat) (x y : Nat → K) : Outcome (Nat → K) :=
  if m ≠ dd.numRows ∨ n ≠ dd.numCols then .throws else .ok (dd.aprod1 x y)

/-- the blocks `if (evIdx >= 0) { v[evOffset + k] += ...; k = 0..3 }`,
solver.cpp:90-98,101-109,217-225,228-236 -/
def addEvent (o : Option Nat) (f : Nat → Nat → K) (v : Nat → K) : Nat → K :=
  match o with
  | none => v
  | some e => [0, 1, 2, 3].foldl (fun v k => addAt v (e * 4 + k) (f e k)) v

/-- body of the loop of `Aprod2`, solver.cpp:208-237 -/
def aprod2Step (dd : DDSystem K) (y x : Nat → K) (ob : Nat) : Nat → K :=
  let wY := y ob * dd.W ob
  if wY = 0 then x
  else
    let x := addEvent (dd.ev1 ob)
      (fun e k => dd.G (dd.idxG e ob) k * dd.scaler (e * 4 + k) * wY) x
    addEvent (dd.ev2 ob)
      (fun e k => -(dd.G (dd.idxG e ob) k * dd.scaler (e * 4 + k) * wY)) x

/-- solver.cpp:195-238, the loop (x = x + Aᵀ y) -/
def aprod2 (dd : DDSystem K) (x y : Nat → K) : Nat → K :=
  (List.range dd.numRows).foldl (dd.aprod2Step y) x

/-- solver.cpp:195-238 with the size check -/
def Aprod2 (dd : DDSystem K) (m n : Nat) (x y : Nat → K) : Outcome (Nat → K) :=
  if m ≠ dd.numRows ∨ n ≠ dd.numCols then .throws else .ok (dd.aprod2 x y)

/-- body of the first loop of `L2normalize`, solver.cpp:81-110 -/
def colSqStep (dd : DDSystem K) (s : Nat → K) (ob : Nat) : Nat → K :=
  if dd.W ob = 0 then s
  else
    let f := fun e k => (dd.G (dd.idxG e ob) k * dd.W ob) * (dd.G (dd.idxG e ob) k * dd.W ob)
    addEvent (dd.ev2 ob) f (addEvent (dd.ev1 ob) f s)

/-- sums of squares of the columns, solver.cpp:79-110 -/
def colSq (dd : DDSystem K) : Nat → K := (List.range dd.numRows).foldl dd.colSqStep (fun _ => 0)

/-- solver.cpp:112-115, in exact arithmetic. For a column of zeros the C++ value is +∞ (see
`scalerFl`). -/
noncomputable def l2normalize (dd : DDSystem ℝ) : DDSystem ℝ :=
  { dd with scaler := fun c => if c < dd.numCols then 1 / √(dd.colSq c) else dd.scaler c }

/-- solver.cpp:121-130 (the columns are visited four by four) -/
def l2denormalize (dd : DDSystem K) (m : Nat → K) : Nat → K :=
  fun c => if c < dd.numCols then m c * dd.scaler c else m c

/-- solver.cpp:112-115 in floating point: division by zero gives an infinity -/
noncomputable def scalerFl (dd : DDSystem ℝ) (c : Nat) : Fl ℝ := (Fl.num 1).div (Fl.num √(dd.colSq c))

/-- `sum` of one row in floating point, solver.cpp:157-181 -/
noncomputable def rowSumFl (dd : DDSystem ℝ) (x : Nat → ℝ) (ob : Nat) : Fl ℝ :=
  let sum := Fl.num 0
  let sum := match dd.ev1 ob with
    | none => sum
    | some e => [0, 1, 2, 3].foldl
        (fun s k => s.add (((Fl.num (dd.G (dd.idxG e ob) k)).mul (dd.scalerFl (e * 4 + k))).mul
          (Fl.num (x (e * 4 + k))))) sum
  match dd.ev2 ob with
    | none => sum
    | some e => [0, 1, 2, 3].foldl
        (fun s k => s.sub (((Fl.num (dd.G (dd.idxG e ob) k)).mul (dd.scalerFl (e * 4 + k))).mul
          (Fl.num (x (e * 4 + k))))) sum

end DDSystem
end Verif
