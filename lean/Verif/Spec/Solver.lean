import Verif.Model.Solver

/-!
# Specification vocabulary for the solver: what a history of calls contains
-/

namespace Verif.Solver
variable {K : Type}

/-- Keep the first element of each key, in order. -/
def firstBy {α β : Type} [DecidableEq β] (key : α → β) (l : List α) : List α :=
  l.foldl (fun acc x => if key x ∈ acc.map key then acc else acc ++ [x]) []

/-- the observations added, in order -/
def obsOf (ops : List (SolverOp K)) : List (ObsArg K) :=
  ops.filterMap (fun op => match op with | .obs o => some o | _ => none)

/-- the observation parameters added, in order -/
def parOf (ops : List (SolverOp K)) : List (ParArg K) :=
  ops.filterMap (fun op => match op with | .params p => some p | _ => none)

/-- the ids of the events added, in order -/
def eventsOf (ops : List (SolverOp K)) : List Nat :=
  ops.filterMap (fun op => match op with | .event id _ _ _ => some id | _ => none)

/-- identity of an observation: event pair, station and phase -/
def _root_.Verif.ObsArg.quad (o : ObsArg K) : Nat × Nat × List Char × List Char := (o.e1, o.e2, o.sta, o.phase)

/-- identity of observation parameters: event, station and phase -/
def _root_.Verif.ParArg.triple (p : ParArg K) : Nat × List Char × List Char := (p.ev, p.sta, p.phase)

/-- The parameters of an event at a station and phase: the first ones given. -/
def paramsOf (ops : List (SolverOp K)) (ev : Nat) (sta phase : List Char) : Option (ParArg K) :=
  (parOf ops).find? (fun p => decide (ParArg.triple p = (ev, sta, phase)))

/-- No phase name contains the separator. -/
def NoSeparator (ops : List (SolverOp K)) : Prop :=
  (∀ o ∈ obsOf ops, '@' ∉ o.phase) ∧ (∀ p ∈ parOf ops, '@' ∉ p.phase)

/-- Every observation has parameters for both events, and both events were added. -/
def Complete (ops : List (SolverOp K)) : Prop :=
  ∀ o ∈ obsOf ops, o.e1 ∈ eventsOf ops ∧ o.e2 ∈ eventsOf ops ∧
    (∃ p ∈ parOf ops, ParArg.triple p = (o.e1, o.sta, o.phase)) ∧
    (∃ p ∈ parOf ops, ParArg.triple p = (o.e2, o.sta, o.phase))

/-- Indices are 32 bit: every call uses at most two new ids. -/
def Fits (ops : List (SolverOp K)) : Prop := 2 * ops.length ≤ IdToIndex.uintMod

/-- What is reported for an observation. -/
def view (o : ObsArg K) : DoubleDifference K :=
  ⟨o.e1, o.e2, o.sta, o.phase, o.timeDiff, o.xcorrUsed, o.xcorrCoeff⟩

variable [Field K] [LinearOrder K]

/-- The weights of the rows (below `n`) in which event `e` is free and the station-phase is `ph`,
leaving out rows with weight zero. -/
def weightsAt (n : Nat) (W : Nat → K) (ev1 ev2 : Nat → Option Nat) (phSta : Nat → Nat) (e ph : Nat) : List K :=
  (List.range n).flatMap (fun i =>
    if W i ≠ 0 ∧ phSta i = ph then
      (if ev1 i = some e then [W i] else []) ++ (if ev2 i = some e then [W i] else [])
    else [])

/-- Residual weight of row `i` in a system with residuals `d`: 1 without down-weighting. -/
def IsResidualWeight (nth : NthElement (id : K → K)) (residualDownWeight : K) (n : Nat) (d : Nat → K)
    (i : Nat) (w : K) : Prop :=
  if residualDownWeight > 0 then
    let res := (List.range n).map d
    residualWeight residualDownWeight (Stats.computeMAD nth res (Stats.computeMedian nth res)) (d i) = .num w
  else w = 1

/-- `p` is the double-difference system of the observations of the history `ops`. -/
structure IsSystemOf (ops : List (SolverOp K)) (nth : NthElement (id : K → K))
    (ttConstraint residualDownWeight : K) (p : Prepared K) : Prop where
  /-- one row per distinct observation -/
  rows : p.dd.nObs = (firstBy ObsArg.quad (obsOf ops)).length
  /-- with travel time constraints, room for one more row per free event, station and phase -/
  constraints : p.dd.nTT =
    if ttConstraint > 0 then ((firstBy ParArg.triple (parOf ops)).filter (·.free)).length else 0
  /-- every index used by a row is inside the arrays -/
  inRange : ∀ r < p.dd.numRows, p.dd.phSta r < p.dd.nPhStas ∧
    ∀ e, p.dd.ev1 r = some e ∨ p.dd.ev2 r = some e →
      e < p.dd.nEvts ∧ p.dd.idxG e r < p.dd.nEvts * p.dd.nPhStas
  /-- the row of an observation -/
  observation : ∀ i o, (firstBy ObsArg.quad (obsOf ops))[i]? = some o →
    ∃ e1 e2 ph p1 p2 w, (run ops).evConv.toIdx o.e1 = .ok e1 ∧ (run ops).evConv.toIdx o.e2 = .ok e2 ∧
      (run ops).phStaConv.toIdx (phStaKey o.phase o.sta) = .ok ph ∧
      paramsOf ops o.e1 o.sta o.phase = some p1 ∧ paramsOf ops o.e2 o.sta o.phase = some p2 ∧
      p.dd.ev1 i = (if p1.free then some e1 else none) ∧
      p.dd.ev2 i = (if p2.free then some e2 else none) ∧
      p.dd.phSta i = ph ∧
      p.computed i = p1.tt - p2.tt ∧
      p.dd.d i = o.timeDiff - (p1.tt - p2.tt) ∧
      IsResidualWeight nth residualDownWeight p.dd.nObs p.dd.d i w ∧
      p.dd.W i = o.weight * w
  /-- the table of derivatives -/
  derivatives : ∀ q ∈ firstBy ParArg.triple (parOf ops), ∃ e ph,
    (run ops).evConv.toIdx q.ev = .ok e ∧ (run ops).phStaConv.toIdx (phStaKey q.phase q.sta) = .ok ph ∧
    e < p.dd.nEvts ∧ ph < p.dd.nPhStas ∧
    p.dd.G (e * p.dd.nPhStas + ph) 0 = q.dx ∧ p.dd.G (e * p.dd.nPhStas + ph) 1 = q.dy ∧
    p.dd.G (e * p.dd.nPhStas + ph) 2 = q.dz ∧ p.dd.G (e * p.dd.nPhStas + ph) 3 = 1
  /-- constraint rows: one for each free event, station and phase with an observation of non-zero
  weight, holding the travel time residual, weighted by the mean weight of these observations; the
  rest of the rows is empty -/
  constraintRows : ttConstraint > 0 → ∃ cs : List (ParArg K),
    (∀ q, q ∈ cs ↔ q ∈ firstBy ParArg.triple (parOf ops) ∧ q.free = true ∧
      ∃ e ph, (run ops).evConv.toIdx q.ev = .ok e ∧
        (run ops).phStaConv.toIdx (phStaKey q.phase q.sta) = .ok ph ∧
        weightsAt p.dd.nObs p.dd.W p.dd.ev1 p.dd.ev2 p.dd.phSta e ph ≠ []) ∧
    (cs.map ParArg.triple).Nodup ∧ cs.length ≤ p.dd.nTT ∧
    (∀ j q, cs[j]? = some q → ∃ e ph, (run ops).evConv.toIdx q.ev = .ok e ∧
      (run ops).phStaConv.toIdx (phStaKey q.phase q.sta) = .ok ph ∧
      p.dd.ev1 (p.dd.nObs + j) = some e ∧ p.dd.ev2 (p.dd.nObs + j) = none ∧
      p.dd.phSta (p.dd.nObs + j) = ph ∧ p.dd.d (p.dd.nObs + j) = q.ttRes ∧
      p.dd.W (p.dd.nObs + j) = ttConstraint *
        ((weightsAt p.dd.nObs p.dd.W p.dd.ev1 p.dd.ev2 p.dd.phSta e ph).sum /
          (weightsAt p.dd.nObs p.dd.W p.dd.ev1 p.dd.ev2 p.dd.phSta e ph).length)) ∧
    (∀ r, p.dd.nObs + cs.length ≤ r → r < p.dd.numRows →
      p.dd.W r = 0 ∧ p.dd.d r = 0 ∧ p.dd.ev1 r = none ∧ p.dd.ev2 r = none)

end Verif.Solver
