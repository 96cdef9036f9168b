import Verif.Model.SolveDD
import Verif.Model.Solver
import Verif.Model.RealSolver

/-!
# Model of `Solver::_solve` for numbers of any kind (libs/hdd/solver.cpp:49-239, :814-897)

The same code as `Verif.Model.SolveDD`, but for any type with the operations used and no laws, as `Verif.Model.Lsqr` and
`Verif.Model.Lsmr` are, so that what is proved also holds of floating-point numbers, with their rounding and their values that are
not numbers.  `Verif.Props.FloatExact` shows that the two models agree when no scaling factor is infinite (C120).
-/

namespace Verif.FloatSolve
open Verif.LeastSquares

variable {K : Type} [Add K] [Sub K] [Mul K] [Div K] [Neg K] [Zero K] [One K] [BEq K] [LT K] [LE K]
  [DecidableLT K] [DecidableLE K]

/-- solver.h:101 -/
def numRows (dd : DDSystem K) : Nat := dd.nObs + dd.nTT

/-- solver.h:100 -/
def numCols (dd : DDSystem K) : Nat := dd.nEvts * 4

/-- `idxG`, solver.cpp:92,103,164,175,219,230 -/
def idxG (dd : DDSystem K) (e ob : Nat) : Nat := e * dd.nPhStas + dd.phSta ob

/-- Constructor of the adapter, solver.cpp:55-71 -/
def adapter (dd : DDSystem K) : DDSystem K :=
  { dd with
    scaler := fun _ => 1
    d := fun ob => if ob < numRows dd then (if dd.W ob == 0 then 0 else dd.d ob * dd.W ob) else dd.d ob }

/-- `sum` of one row, solver.cpp:157-181 -/
def rowSum (dd : DDSystem K) (x : Nat → K) (ob : Nat) : K :=
  let sum := 0
  let sum := match dd.ev1 ob with
    | none => sum
    | some e => [0, 1, 2, 3].foldl
        (fun s k => s + dd.G (idxG dd e ob) k * dd.scaler (e * 4 + k) * x (e * 4 + k)) sum
  match dd.ev2 ob with
    | none => sum
    | some e => [0, 1, 2, 3].foldl
        (fun s k => s - dd.G (idxG dd e ob) k * dd.scaler (e * 4 + k) * x (e * 4 + k)) sum

/-- `v[i] += a` -/
def addAt (v : Nat → K) (i : Nat) (a : K) : Nat → K := fun j => if j = i then v j + a else v j

/-- solver.cpp:140-185, the loop (y = y + A x) -/
def aprod1 (dd : DDSystem K) (x y : Nat → K) : Nat → K :=
  (List.range (numRows dd)).foldl
    (fun y ob => if dd.W ob == 0 then y else addAt y ob (dd.W ob * rowSum dd x ob)) y

/-- the blocks `if (evIdx >= 0) { v[evOffset + k] += ...; k = 0..3 }`, solver.cpp:90-98,101-109,217-225,228-236 -/
def addEvent (o : Option Nat) (f : Nat → Nat → K) (v : Nat → K) : Nat → K :=
  match o with
  | none => v
  | some e => [0, 1, 2, 3].foldl (fun v k => addAt v (e * 4 + k) (f e k)) v

/-- body of the loop of `Aprod2`, solver.cpp:208-237 -/
def aprod2Step (dd : DDSystem K) (y x : Nat → K) (ob : Nat) : Nat → K :=
  let wY := y ob * dd.W ob
  if wY == 0 then x
  else
    let x := addEvent (dd.ev1 ob)
      (fun e k => dd.G (idxG dd e ob) k * dd.scaler (e * 4 + k) * wY) x
    addEvent (dd.ev2 ob)
      (fun e k => -(dd.G (idxG dd e ob) k * dd.scaler (e * 4 + k) * wY)) x

/-- solver.cpp:195-238, the loop (x = x + Aᵀ y) -/
def aprod2 (dd : DDSystem K) (x y : Nat → K) : Nat → K :=
  (List.range (numRows dd)).foldl (aprod2Step dd y) x

/-- body of the first loop of `L2normalize`, solver.cpp:81-110 -/
def colSqStep (dd : DDSystem K) (s : Nat → K) (ob : Nat) : Nat → K :=
  if dd.W ob == 0 then s
  else
    let f := fun e k => (dd.G (idxG dd e ob) k * dd.W ob) * (dd.G (idxG dd e ob) k * dd.W ob)
    addEvent (dd.ev2 ob) f (addEvent (dd.ev1 ob) f s)

/-- sums of squares of the columns, solver.cpp:79-110 -/
def colSq (dd : DDSystem K) : Nat → K := (List.range (numRows dd)).foldl (colSqStep dd) (fun _ => 0)

/-- solver.cpp:112-115 -/
def l2normalize (F : Fns K) (dd : DDSystem K) : DDSystem K :=
  { dd with scaler := fun c => if c < numCols dd then 1 / F.sqrt (colSq dd c) else dd.scaler c }

/-- solver.cpp:121-130 -/
def l2denormalize (dd : DDSystem K) (m : Nat → K) : Nat → K :=
  fun c => if c < numCols dd then m c * dd.scaler c else m c

/-- `Adapter<T>::Aprod1` and `Aprod2` as the solver sees them, solver.cpp:140-238 -/
def products (dd : DDSystem K) : Products (numRows dd) (numCols dd) K where
  aprod1 x y := first _ (aprod1 dd (array x) (array y))
  aprod2 x y := first _ (aprod2 dd (array x) (array y))

/-- solver.cpp:869 `solver.Solve(numRowsG, numColsG, d, m)`: the stopping reason and `m`. `big` is the constant of lsmr.cpp:387. -/
def runSolver (F : Fns K) (big : K) (method : Method) (dd : DDSystem K) (o : Settings K) : Option (Nat × (Fin (numCols dd) → K)) :=
  match method with
  | .lsqr => (Lsqr.solve F (products dd) o (first _ dd.d) (max 1 o.itnlim)).map (fun s => (s.istop, s.x))
  | .lsmr => (Lsmr.solve F (products dd) big o (first _ dd.d) (max 1 o.itnlim)).map (fun s => (s.istop, s.x))

/-- solver.cpp:852-856: the system the solver works on -/
def scaled (F : Fns K) (dd : DDSystem K) (normalize : Bool) : DDSystem K :=
  if normalize then l2normalize F (adapter dd) else adapter dd

/-- solver.cpp:878-889. A solver that does not end is `ub`; it cannot happen. -/
def deliver (method : Method) (a : DDSystem K) (normalize : Bool) : Option (Nat × (Fin (numCols a) → K)) → Outcome (Nat × (Nat → K))
  | none => .ub
  | some r =>
    if rejected method r.1 then .throws
    else .ok (r.1, if normalize then l2denormalize a (array r.2) else array r.2)

/-- solver.cpp:846-889: the stopping reason (logged) and the array `m` -/
def solve (F : Fns K) (big : K) (method : Method) (dd : DDSystem K) (o : Settings K) (normalize : Bool) : Outcome (Nat × (Nat → K)) :=
  deliver method (scaled F dd normalize) normalize (runSolver F big method (scaled F dd normalize) o)

/-! ## Numbers, infinities and NaN -/

variable {R : Type}

scoped instance [Field R] [LinearOrder R] : Add (Fl R) := ⟨Fl.add⟩
scoped instance [Field R] [LinearOrder R] : Sub (Fl R) := ⟨Fl.sub⟩
scoped instance [Field R] [LinearOrder R] : Mul (Fl R) := ⟨Fl.mul⟩
scoped instance [Field R] [LinearOrder R] : Div (Fl R) := ⟨Fl.div⟩
scoped instance [Field R] : Neg (Fl R) := ⟨Fl.neg⟩
scoped instance [Field R] : Zero (Fl R) := ⟨.num 0⟩
scoped instance [Field R] : One (Fl R) := ⟨.num 1⟩

/-- `a == b`, false when one of them is NaN -/
def eqFl [LinearOrder R] : Fl R → Fl R → Bool
  | .nan, _ => false
  | _, .nan => false
  | a, b => decide (a = b)

/-- `a <= b`, false when one of them is NaN -/
def leFl [LinearOrder R] (a b : Fl R) : Bool := a.lt b || eqFl a b

scoped instance (priority := 2000) [LinearOrder R] : BEq (Fl R) := ⟨eqFl⟩
scoped instance [LinearOrder R] : LT (Fl R) := ⟨fun a b => a.lt b = true⟩
scoped instance [LinearOrder R] : LE (Fl R) := ⟨fun a b => leFl a b = true⟩
scoped instance [LinearOrder R] : DecidableLT (Fl R) := fun a b => inferInstanceAs (Decidable (a.lt b = true))
scoped instance [LinearOrder R] : DecidableLE (Fl R) := fun a b => inferInstanceAs (Decidable (leFl a b = true))

/-- `std::sqrt` -/
noncomputable def sqrtFl : Fl ℝ → Fl ℝ
  | .num x => if x < 0 then .nan else .num √x
  | .inf false => .inf false
  | _ => .nan

/-- `std::abs` -/
def absFl : Fl ℝ → Fl ℝ
  | .num x => .num |x|
  | .inf _ => .inf false
  | .nan => .nan

noncomputable def flFns : Fns (Fl ℝ) := ⟨sqrtFl, absFl, .num tiny30⟩

/-- the settings of `_solve`, solver.cpp:857-864 -/
noncomputable def flSettings (numCols numIterations : Nat) (damp : Fl ℝ) : Settings (Fl ℝ) where
  damp := damp
  atol := .num (1 / 10 ^ 6)
  btol := .num (1 / 10 ^ 6)
  conlim := .num (1 / (10 * Real.sqrt (1 / 2 ^ 52)))
  itnlim := if numIterations ≠ 0 then numIterations else numCols / 2

/-- solver.cpp:846-896: what the solver has found for the events, or an exception; only the counts of the statistics are read -/
noncomputable def solveFl (method : Method) (dd : DDSystem (Fl ℝ)) (stats : Solver.StatsMap ℝ) (numIterations : Nat) (damp : Fl ℝ)
    (normalize : Bool) : Outcome (AMap Nat (Solver.Delta ℝ)) := do
  let (_, m) ← solve flFns (.num big100) method dd (flSettings (numCols dd) numIterations damp) normalize
  let deltas := Solver.loadSolutions stats m
  if deltas.isEmpty then .throws else .ok deltas

/-- The same double-difference system as the solver gets it: with floating-point values, all of them numbers. -/
def toFl (dd : DDSystem ℝ) : DDSystem (Fl ℝ) where
  nObs := dd.nObs
  nEvts := dd.nEvts
  nPhStas := dd.nPhStas
  nTT := dd.nTT
  W := fun i => .num (dd.W i)
  G := fun i k => .num (dd.G i k)
  d := fun i => .num (dd.d i)
  scaler := fun c => .num (dd.scaler c)
  ev1 := dd.ev1
  ev2 := dd.ev2
  phSta := dd.phSta

/-- `solve` after `prepare`, solver.cpp:814-897 with :449-505, and what can be asked afterwards (:408-447), as
`Relocate.SolverSetup.solved` but in numbers, infinities and NaN; nothing is left open. `none` is an exception. -/
noncomputable def floatSolved (su : Relocate.SolverSetup) (ops : List (SolverOp ℝ)) (p : Solver.Prepared ℝ) (damping : ℝ) :
    Option (Relocate.Answer ℝ) :=
  if (Solver.run ops).observations.isEmpty then none
  else
    match su.method with
    | none => none
    | some method =>
      match solveFl method (toFl p.dd) p.stats su.iterations (.num damping) su.normalize with
      | .ok deltas => some ⟨Relocate.changesOf (Solver.run ops) deltas,
          fun k sta ph => (Solver.run ops).isEventPhaseUsed p.stats k sta.toList ph.toList⟩
      | _ => none

end Verif.FloatSolve
