import Verif.Model.IdToIndex
import Verif.Model.DDSystem
import Verif.Model.Stats
import Verif.Base.Text

/-!
# Model of `HDD::Solver` (libs/hdd/solver.h:148-317, libs/hdd/solver.cpp:245-897)

Numbers are elements of an ordered field (no rounding); `Fl` is used where the code divides by a
number that may be zero.  The two-level maps keyed by event and station-phase index are maps keyed by
the pair.  Iteration over an unordered map is over an explicit list argument (`io`, `ip`), any
permutation of the content.  Strings are lists of characters.  Logging is left out, except that
looking up the event parameters for it may throw.
-/

namespace Verif

/-- arguments of `addObservation`, solver.cpp:245-252 -/
structure ObsArg (K : Type) where
  e1 : Nat
  e2 : Nat
  sta : List Char
  phase : List Char
  timeDiff : K
  weight : K
  xcorrUsed : Bool
  xcorrCoeff : K
deriving DecidableEq

/-- arguments of `addObservationParams`, solver.cpp:280-288 -/
structure ParArg (K : Type) where
  ev : Nat
  sta : List Char
  phase : List Char
  free : Bool
  tt : K
  ttRes : K
  dx : K
  dy : K
  dz : K
deriving DecidableEq

/-- The calls that fill a solver. -/
inductive SolverOp (K : Type) where
  | event (id : Nat) (lat lon depth : K)
  | station (sta : List Char) (lat lon elevation : K)
  | obs (o : ObsArg K)
  | params (p : ParArg K)

/-- user provided part of `Solver::Observation`, solver.h:255-264 -/
structure Obs (K : Type) where
  ev1 : Nat
  ev2 : Nat
  ph : Nat
  timeDiff : K
  weight : K
  xcorrUsed : Bool
  xcorrCoeff : K
deriving DecidableEq

/-- `Solver::ObservationParams`, solver.h:285-293 -/
structure ObsParams (K : Type) where
  free : Bool
  tt : K
  ttRes : K
  dx : K
  dy : K
  dz : K
deriving DecidableEq

/-- libs/hdd/solver.h:250-296 -/
structure Solver (K : Type) where
  evConv : IdToIndex Nat
  staConv : IdToIndex (List Char)
  phStaConv : IdToIndex (List Char)
  obsConv : IdToIndex (List Char)
  observations : AMap Nat (Obs K)
  eventParams : AMap Nat (K × K × K)
  stationParams : AMap Nat (K × K × K)
  obsParams : AMap (Nat × Nat) (ObsParams K)

namespace Solver
variable {K : Type} [Field K] [LinearOrder K]

/-- solver.h:152 -/
def init : Solver K := ⟨.init, .init, .init, .init, [], [], [], []⟩

/-- `phase + "@" + staId`, solver.cpp:254,290,351,434 -/
def phStaKey (phase sta : List Char) : List Char := phase ++ '@' :: sta

/-- solver.cpp:255 -/
def obsKey (e1 e2 : Nat) (phSta : List Char) : List Char :=
  decimal e1 ++ '+' :: (decimal e2 ++ '_' :: phSta)

/-- solver.cpp:245-263 -/
def addObservation (s : Solver K) (o : ObsArg K) : Solver K :=
  let phStaId := phStaKey o.phase o.sta
  let obsId := obsKey o.e1 o.e2 phStaId
  let (ec, ev1) := s.evConv.convert o.e1
  let (ec, ev2) := ec.convert o.e2
  let (pc, ph) := s.phStaConv.convert phStaId
  let (oc, ob) := s.obsConv.convert obsId
  { s with
    evConv := ec
    phStaConv := pc
    obsConv := oc
    observations := s.observations.insertNew ob
      ⟨ev1, ev2, ph, o.timeDiff, o.weight, o.xcorrUsed, o.xcorrCoeff⟩ }

/-- solver.cpp:265-269 -/
def addEvent (s : Solver K) (id : Nat) (lat lon depth : K) : Solver K :=
  let (ec, i) := s.evConv.convert id
  { s with evConv := ec, eventParams := s.eventParams.insertNew i (lat, lon, depth) }

/-- solver.cpp:271-278 -/
def addStation (s : Solver K) (sta : List Char) (lat lon elevation : K) : Solver K :=
  let (sc, i) := s.staConv.convert sta
  { s with staConv := sc, stationParams := s.stationParams.insertNew i (lat, lon, elevation) }

/-- solver.cpp:280-296 -/
def addObservationParams (s : Solver K) (p : ParArg K) : Solver K :=
  let phStaId := phStaKey p.phase p.sta
  let (ec, ev) := s.evConv.convert p.ev
  let (pc, ph) := s.phStaConv.convert phStaId
  { s with
    evConv := ec
    phStaConv := pc
    obsParams := s.obsParams.insertNew (ev, ph) ⟨p.free, p.tt, p.ttRes, p.dx, p.dy, p.dz⟩ }

/-- one call -/
def step (s : Solver K) : SolverOp K → Solver K
  | .event id lat lon depth => s.addEvent id lat lon depth
  | .station sta lat lon e => s.addStation sta lat lon e
  | .obs o => s.addObservation o
  | .params p => s.addObservationParams p

/-- a history of calls -/
def run (ops : List (SolverOp K)) : Solver K := ops.foldl step init

/-! ## Residual weights -/

/-- 0.67449, solver.cpp:578 -/
def madGn : K := 67449 / 100000

/-- weight of one residual, solver.cpp:581-583 -/
def residualWeight (alpha mad r : K) : Fl K :=
  let w := (Fl.num 1).sub (((Fl.num r).div (Fl.num (alpha * mad / madGn))).square)
  (w.max (Fl.num 0)).square

/-- solver.cpp:554-589 -/
def computeResidualWeights (nth : NthElement (id : K → K)) (residuals : List K) (alpha : K) :
    List (Fl K) :=
  if residuals.isEmpty then []
  else
    let median := Stats.computeMedian nth residuals
    let mad := Stats.computeMAD nth residuals median
    residuals.map (residualWeight alpha mad)

/-! ## Preparation of the system -/

/-- `_obsParams.at(ev).at(ph)`, solver.cpp:634-635 -/
def paramsAt (s : Solver K) (ev ph : Nat) : Outcome (ObsParams K) :=
  .ofOption (s.obsParams.find? (ev, ph))

/-- array write `a[i] = v` in an array of the given size -/
def write {α : Type} (size : Nat) (a : Nat → α) (i : Nat) (v : α) : Outcome (Nat → α) :=
  if i < size then .ok (Function.update a i v) else .ub

/-- a line of `G`, solver.cpp:620-623 -/
def gRow (p : ObsParams K) : Nat → K := fun k =>
  match k with
  | 0 => p.dx
  | 1 => p.dy
  | 2 => p.dz
  | _ => 1

/-- solver.cpp:613-625 -/
def fillG (nEvts nPhStas : Nat) (ip : List ((Nat × Nat) × ObsParams K)) : Outcome (Nat → Nat → K) :=
  ip.foldlM (fun G (x : (Nat × Nat) × ObsParams K) =>
    write (nEvts * nPhStas) G (x.1.1 * nPhStas + x.1.2) (gRow x.2)) (fun _ _ => 0)

/-- row arrays of `DDSystem` (solver.h:104-111: all zero after allocation) and the computed time
difference of each observation (solver.h:266) -/
structure Rows (K : Type) where
  W : Nat → K
  d : Nat → K
  ev1 : Nat → Option Nat
  ev2 : Nat → Option Nat
  phSta : Nat → Nat
  computed : Nat → K

/-- solver.h:104-111 -/
def Rows.init : Rows K := ⟨fun _ => 0, fun _ => 0, fun _ => some 0, fun _ => some 0, fun _ => 0, fun _ => 0⟩

/-- solver.cpp:630-646, one observation -/
def fillRow (s : Solver K) (numRows : Nat) (a : Rows K) (x : Nat × Obs K) : Outcome (Rows K) := do
  let prm1 ← s.paramsAt x.2.ev1 x.2.ph
  let prm2 ← s.paramsAt x.2.ev2 x.2.ph
  let computed := prm1.tt - prm2.tt
  let dd := x.2.timeDiff - computed
  let W ← write numRows a.W x.1 x.2.weight
  let ev1 ← write numRows a.ev1 x.1 (if prm1.free then some x.2.ev1 else none)
  let ev2 ← write numRows a.ev2 x.1 (if prm2.free then some x.2.ev2 else none)
  let phSta ← write numRows a.phSta x.1 x.2.ph
  let d ← write numRows a.d x.1 dd
  .ok ⟨W, d, ev1, ev2, phSta, Function.update a.computed x.1 computed⟩

/-- `Stats`, solver.h:298-302: number of observations and sum of their weights -/
abbrev StatsMap (K : Type) := AMap (Nat × Nat) (Nat × K)

/-- solver.cpp:677-682, 685-690 -/
def bump (st : StatsMap K) (o : Option Nat) (ph : Nat) (w : K) : StatsMap K :=
  match o with
  | none => st
  | some e =>
    match st.find? (e, ph) with
    | none => st.set (e, ph) (1, w)
    | some x => st.set (e, ph) (x.1 + 1, x.2 + w)

/-- solver.cpp:665-691, one observation -/
def statStep (s : Solver K) (a : Rows K) (st : StatsMap K) (ob : Nat) : Outcome (StatsMap K) :=
  match s.observations.find? ob with
  | none => .throws
  | some _ =>
    if a.W ob = 0 then .ok st
    else .ok (bump (bump st (a.ev1 ob) (a.phSta ob) (a.W ob)) (a.ev2 ob) (a.phSta ob) (a.W ob))

/-- solver.cpp:699-735, one entry of `_obsParams`. The counter is `ttconstraintIdx + 1`. -/
def ttStep (numRows : Nat) (ttConstraint : K) (st : StatsMap K) (acc : Rows K × Nat)
    (x : (Nat × Nat) × ObsParams K) : Outcome (Rows K × Nat) :=
  if x.2.free then
    match st.find? x.1 with
    | none => .ok acc
    | some stat =>
      let i := acc.2
      if i ≥ numRows then .throws
      else do
        let W ← write numRows acc.1.W i (ttConstraint * (if stat.1 > 0 then stat.2 / stat.1 else 0))
        let d ← write numRows acc.1.d i x.2.ttRes
        let ev1 ← write numRows acc.1.ev1 i (some x.1.1)
        let ev2 ← write numRows acc.1.ev2 i none
        let phSta ← write numRows acc.1.phSta i x.1.2
        .ok (⟨W, d, ev1, ev2, phSta, acc.1.computed⟩, i + 1)
  else .ok acc

/-- solver.cpp:739-745: the rows from `i` on are emptied -/
def emptyRows (numRows i : Nat) (a : Rows K) : Rows K :=
  let f : {α : Type} → (Nat → α) → α → Nat → α := fun g v j => if i ≤ j ∧ j < numRows then v else g j
  { a with W := f a.W 0, d := f a.d 0, ev1 := f a.ev1 none, ev2 := f a.ev2 none }

/-- result of `prepare` -/
structure Prepared (K : Type) where
  dd : DDSystem K
  stats : StatsMap K
  computed : Nat → K

/-- solver.cpp:597-602 -/
def ttNum (ttConstraint : K) (ip : List ((Nat × Nat) × ObsParams K)) : Nat :=
  if ttConstraint > 0 then ip.countP (fun x => x.2.free) else 0

/-- values of the residual weights if all are numbers -/
def allNumbers : List (Fl K) → Option (List K)
  | [] => some []
  | .num x :: l => (allNumbers l).map (x :: ·)
  | _ :: _ => none

/-- solver.cpp:651-660; `none` if a weight is not a number -/
def downWeight (nth : NthElement (id : K → K)) (nObs : Nat) (residualDownWeight : K) (a : Rows K) :
    Option (Rows K) :=
  if residualDownWeight > 0 then
    (allNumbers (computeResidualWeights nth ((List.range nObs).map a.d) residualDownWeight)).map
      (fun ws => { a with W := fun i => if i < nObs then a.W i * ws.getD i 0 else a.W i })
  else some a

/-- solver.cpp:535-536 (called at 761): both events of every observation have parameters -/
def interEventDistances (s : Solver K) (io : List (Nat × Obs K)) : Outcome Unit :=
  io.foldlM (fun _ x => do
    let _ ← Outcome.ofOption (s.eventParams.find? x.2.ev1)
    let _ ← Outcome.ofOption (s.eventParams.find? x.2.ev2)
    .ok ()) ()

/-- solver.cpp:662-755: statistics and travel time constraints -/
def constrain (s : Solver K) (ttConstraint : K) (nObs numRows : Nat)
    (ip : List ((Nat × Nat) × ObsParams K)) (a : Rows K) : Outcome (Rows K × StatsMap K) := do
  let st ← (List.range nObs).foldlM (s.statStep a) []
  if ttConstraint > 0 then do
    let (a, i) ← ip.foldlM (ttStep numRows ttConstraint st) (a, nObs)
    let a := emptyRows numRows i a
    if ttNum ttConstraint ip ≠ numRows - nObs then .throws
    else .ok (a, st)
  else .ok (a, st)

/-- solver.cpp:591-812. The result is `none` when a residual weight is not a number (the C++ code
goes on with NaN weights; not followed further). -/
def prepare (s : Solver K) (nth : NthElement (id : K → K)) (ttConstraint residualDownWeight : K)
    (io : List (Nat × Obs K)) (ip : List ((Nat × Nat) × ObsParams K)) :
    Outcome (Option (Prepared K)) :=
  let nTT := ttNum ttConstraint ip
  let nObs := s.observations.length
  let nEvts := s.evConv.size
  let nPhStas := s.phStaConv.size
  do
    let G ← fillG nEvts nPhStas ip
    let a ← io.foldlM (s.fillRow (nObs + nTT)) Rows.init
    match downWeight nth nObs residualDownWeight a with
    | none => .ok none
    | some a => do
      let (a, st) ← s.constrain ttConstraint nObs (nObs + nTT) ip a
      s.interEventDistances io
      .ok (some
        { dd := { nObs := nObs, nEvts := nEvts, nPhStas := nPhStas, nTT := nTT,
                  W := a.W, G := G, d := a.d, scaler := fun _ => 0, ev1 := a.ev1, ev2 := a.ev2,
                  phSta := a.phSta }
          stats := st
          computed := a.computed })

/-! ## Results -/

/-- `Solver::DoubleDifference`, solver.h:204-217, without weight and distances -/
structure DoubleDifference (K : Type) where
  evId1 : Nat
  evId2 : Nat
  sta : List Char
  phase : List Char
  timeDiff : K
  xcorrUsed : Bool
  xcorrCoeff : K
deriving DecidableEq

/-- solver.cpp:373-406, one observation -/
def doubleDifference (s : Solver K) (x : Nat × Obs K) : Outcome (DoubleDifference K) := do
  let phStaId ← s.phStaConv.fromIdx x.2.ph
  match splitFirst '@' phStaId with
  | none => .throws
  | some (phase, sta) => do
    let e1 ← s.evConv.fromIdx x.2.ev1
    let e2 ← s.evConv.fromIdx x.2.ev2
    .ok ⟨e1, e2, sta, phase, x.2.timeDiff, x.2.xcorrUsed, x.2.xcorrCoeff⟩

/-- solver.cpp:373-406 -/
def getDoubleDifferences (s : Solver K) (io : List (Nat × Obs K)) :
    Outcome (List (DoubleDifference K)) := io.mapM s.doubleDifference

/-- `EventDeltas`, solver.h:306-312 -/
structure Delta (K : Type) where
  x : Fl K
  y : Fl K
  z : Fl K
  time : Fl K
deriving DecidableEq

/-- `fetchEventDelta`, solver.cpp:451-466 -/
def fetchDelta (m : Nat → Fl K) (ev : Nat) : Option (Delta K) :=
  let dl : Delta K := ⟨m (ev * 4 + 0), m (ev * 4 + 1), m (ev * 4 + 2), m (ev * 4 + 3)⟩
  if !dl.x.isFinite || !dl.y.isFinite || !dl.z.isFinite || !dl.time.isFinite then none else some dl

/-- `loadSolutions`, solver.cpp:449-505: event indices with their changes, for the solution vector
`m`. The statistics are visited pair by pair. -/
def loadSolutions (st : StatsMap K) (m : Nat → Fl K) : AMap Nat (Delta K) :=
  let evs := st.foldl (fun (acc : AMap Nat (Delta K)) x =>
    if x.2.1 > 0 then acc.set x.1.1 ⟨.num 0, .num 0, .num 0, .num 0⟩ else acc) []
  evs.filterMap (fun x => (fetchDelta m x.1).map (fun dl => (x.1, dl)))

/-- solver.cpp:408-425 -/
def getEventChanges (s : Solver K) (deltas : AMap Nat (Delta K)) (evId : Nat) : Option (Delta K) :=
  match s.evConv.fwd.find? evId with
  | none => none
  | some i => deltas.find? i

/-- solver.cpp:427-447 -/
def isEventPhaseUsed (s : Solver K) (st : StatsMap K) (evId : Nat) (sta phase : List Char) : Bool :=
  match s.evConv.fwd.find? evId, s.phStaConv.fwd.find? (phStaKey phase sta) with
  | some e, some p =>
    match st.find? (e, p) with
    | some x => x.1 > 0
    | none => false
  | _, _ => false

end Solver
end Verif
