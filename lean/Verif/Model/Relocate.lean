import Verif.Model.Catalog
import Verif.Model.Solver
import Verif.Model.XCorrCache
import Verif.Model.Neighbours

/-!
# Model of the relocation loop of `libs/hdd/dd.cpp`

Numbers are elements of an ordered field (no rounding).  What the code asks other components is a
parameter (`Env`, `SolverAnswers`): travel times, trigonometry, the new coordinates of a moved event,
and what the least-squares solver answers.  A `Solver` object is represented by the calls made to it
(`List (SolverOp K)`), its state is `Solver.run` of them; `Verif.Model.Solver` models the rest of it.

Simplifications: logging is left out, with it the five-number summary of the event residuals
(dd.cpp:1092-1096), whose undefined behaviour for fewer than four events is theorem `five_numbers_ub`.
Doubles from the cross-correlation cache are rationals.
-/

namespace Verif.Relocate
open Verif.Catalog

variable {K : Type} [Field K] [LinearOrder K]

/-- output of `TravelTimeTable::compute`, dd.cpp:977-978 -/
structure TravelTimeInfo (K : Type) where
  tt : K
  azim : K
  dip : K
  dtdd : K
  dtdh : K
deriving DecidableEq

/-- What is asked from other components. -/
structure Env (K : Type) where
  /-- `TravelTimeTable::compute`; `none` is a thrown `Exception` -/
  ttt : Event K → Station K → String → Option (TravelTimeInfo K)
  /-- `_cfg.PSTableOnly` -/
  psTableOnly : Bool
  /-- cosine and sine of an angle in degrees -/
  cosDeg : K → K
  sinDeg : K → K
  /-- `kmOfDegree()` -/
  kmOfDegree : K
  /-- `computeCoordinates` of the point at the given distance east and north (dd.cpp:1141-1149) of
  (latitude, longitude, depth) -/
  coords : K → K → K → K → K → K × K
  /-- `secToDur` -/
  secToDur : K → Int
  /-- `std::sqrt` -/
  sqrt : K → K

/-- The options used by `addObservations`. -/
structure ObsOptions (K : Type) where
  keepNeighboursFixed : Bool
  usePickUncertainties : Bool
  xcorrWeightScaler : K
  /-- `xcorrOpt.phase.at(type).minCoef`; `none`: `at` throws -/
  minCoef : PhaseType → Option K

/-- durations are microseconds -/
def durToSec (d : Int) : K := (d : K) / 1000000

/-- catalog.cpp:349-361: the first phase found; `none` is the end iterator -/
def searchPhase (c : Catalog K) (evId : Nat) (sp : StaPhase) : Option (Phase K) :=
  (c.phasesOf evId).find? (fun p => decide (p.stationId = sp.1 ∧ p.type = sp.2))

/-- solver.cpp:338-371 -/
def getObservationParams (s : Solver K) (evId : Nat) (sta phase : String) : Option (ObsParams K) :=
  match s.evConv.fwd.find? evId, s.phStaConv.fwd.find? (Solver.phStaKey phase.toList sta.toList) with
  | some e, some p => s.obsParams.find? (e, p)
  | _, _ => none

/-- dd.cpp:965-976 -/
def phaseName (env : Env K) (p : Phase K) : String :=
  if env.psTableOnly then
    match p.procType with
    | .P => "P"
    | .S => "S"
    | .NO => p.type
  else p.type

/-- dd.cpp:988-1008: the calls to the solver for computed travel times -/
def paramCalls (env : Env K) (ev : Event K) (st : Station K) (p : Phase K) (free : Bool)
    (i : TravelTimeInfo K) : List (SolverOp K) :=
  let dtdd := i.dtdd / env.kmOfDegree
  let angle := 90 - i.azim
  [ .event ev.id ev.latitude ev.longitude ev.depth,
    .station st.id.toList st.latitude st.longitude st.elevation,
    .params
      { ev := ev.id, sta := st.id.toList, phase := p.type.toList, free := free, tt := i.tt,
        ttRes := durToSec (p.time - ev.time) - i.tt
        dx := dtdd * -env.cosDeg angle, dy := dtdd * -env.sinDeg angle, dz := -i.dtdh } ]

/-- dd.cpp:944-1011 `addObservationParams`; the calls made so far, and the result -/
def addParams (env : Env K) (ops : List (SolverOp K)) (ev : Event K) (st : Station K) (p : Phase K)
    (free : Bool) : List (SolverOp K) × Bool :=
  if (getObservationParams (Solver.run ops) ev.id st.id p.type).isSome then (ops, true)
  else
    match env.ttt ev st (phaseName env p) with
    | none => (ops, false)
    | some i => (ops ++ paramCalls env ev st p free i, true)

/-- dd.cpp:904-926: the cache is consulted only if it is not empty, only valid results count -/
def xcorrEntry (xc : XCorr.Cache) (e1 e2 : Nat) (sp : StaPhase) : Option XCorr.Entry :=
  if XCorr.empty xc then none
  else (XCorr.get xc e1 e2 sp.1 sp.2).bind (fun e => if e.valid then some e else none)

/-- dd.cpp:875-929: the observation of a pair of phases -/
def observation (o : ObsOptions K) (xc : XCorr.Cache) (minCoef : K) (refEv ev : Event K)
    (sp : StaPhase) (rp p : Phase K) : ObsArg K :=
  let diff : K := durToSec ((rp.time - refEv.time) - (p.time - ev.time))
  let w : K := if o.usePickUncertainties then (rp.classWeight + p.classWeight) / 2 else 1
  match xcorrEntry xc refEv.id ev.id sp with
  | none => ⟨refEv.id, ev.id, sp.1.toList, sp.2.toList, diff, w, false, 0⟩
  | some e =>
    if minCoef ≤ |(e.coeff : K)| then
      ⟨refEv.id, ev.id, sp.1.toList, sp.2.toList, diff - (e.lag : K),
        w + (w * o.xcorrWeightScaler - w) * |(e.coeff : K)|, true, (e.coeff : K)⟩
    else ⟨refEv.id, ev.id, sp.1.toList, sp.2.toList, diff, w, false, (e.coeff : K)⟩

/-- local variables of `addObservations`, dd.cpp:805-821 -/
structure ObsState (K : Type) where
  ops : List (SolverOp K)
  station : Option (Station K)
  refPhase : Option (Phase K)
  tttError : Bool
  attempted : Nat
  available : Nat

/-- dd.cpp:828-831: the station is looked up again only when it changes -/
def currentStation (cat : Catalog K) (cached : Option (Station K)) (id : String) :
    Outcome (Station K) :=
  match cached with
  | some st => if st.id = id then .ok st else .ofOption (cat.stations.find? id)
  | none => .ofOption (cat.stations.find? id)

/-- dd.cpp:833-834 -/
def sameRef (cached : Option (Phase K)) (sp : StaPhase) : Bool :=
  match cached with
  | some p => decide (p.stationId = sp.1 ∧ p.type = sp.2)
  | none => false

/-- dd.cpp:833-858: the phase of the reference event -/
def refStep (env : Env K) (cat : Catalog K) (refEv : Event K) (st : Station K) (s : ObsState K)
    (sp : StaPhase) : Outcome (ObsState K × Phase K) :=
  match s.refPhase, sameRef s.refPhase sp with
  | some p, true => .ok (s, p)
  | _, _ =>
    match searchPhase cat refEv.id sp with
    | none => .ub
    | some p =>
      let r := addParams env s.ops refEv st p true
      .ok ({ s with
              ops := r.1, refPhase := some p, tttError := !r.2, attempted := s.attempted + 1
              available := if r.2 then s.available + 1 else s.available }, p)

/-- dd.cpp:860-929: the phase of the neighbour and the observation -/
def neighStep (env : Env K) (o : ObsOptions K) (cat : Catalog K) (xc : XCorr.Cache) (refEv : Event K)
    (st : Station K) (rp : Phase K) (s : ObsState K) (sp : StaPhase) (n : Nat) :
    Outcome (ObsState K) :=
  if s.tttError then .ok s
  else
    match o.minCoef rp.procType, cat.events.find? n with
    | some mc, some ev =>
      match searchPhase cat ev.id sp with
      | none => .ub
      | some p =>
        let r := addParams env s.ops ev st p (!o.keepNeighboursFixed)
        if r.2 = false then .ok { s with ops := r.1 }
        else if rp.time - refEv.time < 0 then .ok { s with ops := r.1 }
        else if p.time - ev.time < 0 then .ok { s with ops := r.1 }
        else .ok { s with ops := r.1 ++ [.obs (observation o xc mc refEv ev sp rp p)] }
    | _, _ => .throws

/-- dd.cpp:822-930: one round of the loop -/
def obsStep (env : Env K) (o : ObsOptions K) (cat : Catalog K) (xc : XCorr.Cache) (refEv : Event K)
    (s : ObsState K) (t : StaPhase × Nat) : Outcome (ObsState K) := do
  let st ← currentStation cat s.station t.1.1
  let (s, rp) ← refStep env cat refEv st { s with station := some st } t.1
  neighStep env o cat xc refEv st rp s t.1 t.2

/-- `operator<` of `tuple<string, string, unsigned>`, reflexive closure (dd.cpp:814) -/
def tupleLe (a b : StaPhase × Nat) : Prop :=
  a.1.1 < b.1.1 ∨ (a.1.1 = b.1.1 ∧ (a.1.2 < b.1.2 ∨ (a.1.2 = b.1.2 ∧ a.2 ≤ b.2)))

instance : DecidableRel tupleLe := fun a b => by unfold tupleLe; infer_instance

/-- dd.cpp:794-942: the calls made so far, and the result -/
def addObservations (env : Env K) (o : ObsOptions K) (cat : Catalog K) (xc : XCorr.Cache)
    (nb : Neighbours) (ops : List (SolverOp K)) : Outcome (List (SolverOp K) × Bool) := do
  let refEv ← Outcome.ofOption (cat.events.find? nb.refId)
  let s ← (nb.phases.insertionSort tupleLe).foldlM (obsStep env o cat xc refEv)
    ⟨ops, none, none, false, 0, 0⟩
  .ok (s.ops, decide (s.attempted = 0 ∨ s.available > 0))

/-! ## One iteration -/

/-- the options of the loop, dd.cpp:652-659 -/
structure SolverOptions (K : Type) where
  algoIterations : Nat
  dampingFactorStart : K
  dampingFactorEnd : K
  downWeightingByResidualStart : K
  downWeightingByResidualEnd : K
  absLocConstraintStart : K
  absLocConstraintEnd : K

/-- dd.cpp:677-680 -/
def interpolate (algoIterations iteration : Nat) (start stop : K) : K :=
  if algoIterations < 2 then (start + stop) / 2
  else start + (stop - start) * (iteration : K) / ((algoIterations - 1 : Nat) : K)

/-- changes of an event: east, north, up in km and seconds -/
structure Change (K : Type) where
  x : K
  y : K
  z : K
  t : K
deriving DecidableEq

/-- `getEventChanges` and `isEventPhaseUsed` of a solved solver -/
structure Answer (K : Type) where
  changes : Nat → Option (Change K)
  used : Nat → String → String → Bool

/-- What `Solver::prepare` and `Solver::solve` do in each iteration, for the calls made to the solver
and the parameters given: `prepare` returns, throws or is undefined, `solve` answers or throws. -/
structure SolverAnswers (K : Type) where
  prepare : Nat → List (SolverOp K) → K → K → Outcome Unit
  solve : Nat → List (SolverOp K) → K → Option (Answer K)

/-- the events of a cluster in iteration order -/
abbrev Cluster := List (Nat × Neighbours)

/-- state of the loop over the cluster, dd.cpp:698-724 -/
structure ObserveState (K : Type) where
  cur : Catalog K
  ops : List (SolverOp K)
  reverted : List Nat

/-- catalog.cpp:217-220 -/
def isEmpty (c : Catalog K) : Bool := c.stations.isEmpty && c.events.isEmpty && c.phases.isEmpty

/-- dd.cpp:702-723: one event of the cluster -/
def observeStep (env : Env K) (o : ObsOptions K) (xc : XCorr.Cache) (prev : Catalog K)
    (s : ObserveState K) (kv : Nat × Neighbours) : Outcome (ObserveState K) := do
  let (ops, ok) ← addObservations env o s.cur xc kv.2 s.ops
  if ok || isEmpty prev then .ok { s with ops := ops }
  else do
    let ev ← Outcome.ofOption (s.cur.events.find? kv.1)
    if ev.isRelocated then
      match (s.cur.removeEvent kv.1).addFrom kv.1 prev true with
      | (cur, .ok _) => do
        let (ops, _) ← addObservations env o cur xc kv.2 ops
        .ok ⟨cur, ops, s.reverted ++ [kv.1]⟩
      | (_, .throws) => .throws
      | (_, .ub) => .ub
    else .ok { s with ops := ops }

/-- dd.cpp:700-724 -/
def observe (env : Env K) (o : ObsOptions K) (xc : XCorr.Cache) (cluster : Cluster)
    (prev cur : Catalog K) : Outcome (ObserveState K) :=
  cluster.foldlM (observeStep env o xc prev) ⟨cur, [], []⟩

/-- dd.cpp:1043-1074: residual and weight of one phase -/
def residualPhase (usePickUncertainties first : Bool) (residual : Option K) (p : Phase K) : Phase K :=
  { p with
    startResidual := if first then residual.getD 0 else p.startResidual
    finalResidual := if first then 0 else residual.getD 0
    weight := if usePickUncertainties then p.classWeight else 1 }

/-- dd.cpp:1055-1059: the residual the solver was given for a phase of event `id` -/
def residualOf (ops : List (SolverOp K)) (cat : Catalog K) (id : Nat) (p : Phase K) : Option K :=
  match cat.stations.find? p.stationId with
  | none => none
  | some st => (getObservationParams (Solver.run ops) id st.id p.type).map (·.ttRes)

/-- dd.cpp:1072-1079: root mean square of the weighted residuals of event `id` -/
def rmsOf (env : Env K) (usePickUncertainties : Bool) (ops : List (SolverOp K)) (cat : Catalog K)
    (id : Nat) : K :=
  let res := residualOf ops cat id
  let w : Phase K → K := fun p => if usePickUncertainties then p.classWeight else 1
  let used := (cat.phasesOf id).filter (fun p => (res p).isSome)
  let sumR := (used.map (fun p => ((res p).getD 0 * w p) * ((res p).getD 0 * w p))).sum
  let sumW := (used.map (fun p => w p * w p)).sum
  if 0 < sumW then env.sqrt (sumR / sumW) else 0

/-- dd.cpp:1030-1089: one event of the cluster -/
def residualsStep (env : Env K) (usePickUncertainties first : Bool) (ops : List (SolverOp K))
    (cat : Catalog K) (kv : Nat × Neighbours) : Outcome (Catalog K) := do
  let ev ← Outcome.ofOption (cat.events.find? kv.2.refId)
  let _ ← (cat.phasesOf ev.id).mapM (fun p => Outcome.ofOption (cat.stations.find? p.stationId))
  let rms := rmsOf env usePickUncertainties ops cat ev.id
  .ok { cat with
    events := cat.events.set kv.2.refId
      { ev with
        startRms := if first then rms else ev.startRms
        finalRms := if first then 0 else rms }
    phases := cat.phases.map (fun kp =>
      if kp.1 = ev.id then
        (kp.1, residualPhase usePickUncertainties first (residualOf ops cat ev.id kp.2) kp.2)
      else kp) }

/-- dd.cpp:1013-1099 -/
def computeEventResiduals (env : Env K) (usePickUncertainties first : Bool) (ops : List (SolverOp K))
    (cluster : Cluster) (cat : Catalog K) : Outcome (Catalog K) :=
  cluster.foldlM (residualsStep env usePickUncertainties first ops) cat

/-- dd.cpp:1135-1158: an event moved by the changes -/
def moveEvent (env : Env K) (ev : Event K) (d : Change K) : Event K :=
  let ll := env.coords d.x d.y ev.latitude ev.longitude ev.depth
  { ev with
    latitude := ll.1, longitude := ll.2, depth := ev.depth - d.z
    time := ev.time + env.secToDur d.t, isRelocated := true }

/-- dd.cpp:1163-1176: status of a phase of event `id` after an update -/
def updatePhase (first : Bool) (ans : Answer K) (cat : Catalog K) (id : Nat) (p : Phase K) : Phase K :=
  { p with
    isRelocated := (match cat.stations.find? p.stationId with
      | none => false
      | some st => ans.used id st.id p.type) || (!first && p.isRelocated) }

/-- dd.cpp:1118-1179: one event of the cluster -/
def updateStep (env : Env K) (first : Bool) (ans : Answer K) (cat : Catalog K)
    (kv : Nat × Neighbours) : Outcome (Catalog K) := do
  let ev0 ← Outcome.ofOption (cat.events.find? kv.2.refId)
  let ev := { ev0 with isRelocated := if first then false else ev0.isRelocated }
  match ans.changes ev.id with
  | none => .ok { cat with events := cat.events.set kv.2.refId ev }
  | some d => do
    let _ ← (cat.phasesOf ev.id).mapM (fun p => Outcome.ofOption (cat.stations.find? p.stationId))
    .ok { cat with
      events := cat.events.set kv.2.refId (moveEvent env ev d)
      phases := cat.phases.map (fun kp =>
        if kp.1 = ev.id then
          (kp.1, updatePhase first ans cat ev.id kp.2)
        else kp) }

/-- dd.cpp:1101-1185 -/
def updateRelocatedEvents (env : Env K) (first : Bool) (ans : Answer K) (cluster : Cluster)
    (cat : Catalog K) : Outcome (Catalog K) :=
  cluster.foldlM (updateStep env first ans) cat

/-! ## The loop -/

/-- What an iteration did, for the statements: the catalog before it and after the observations (the
value of `currentCatalog` at dd.cpp:670 and :729), the parameters, the calls made to the solver, the
events restored, and the solver's answer (`none` if it was not or could not be solved). -/
structure IterLog (K : Type) where
  before : Catalog K
  after : Catalog K
  damping : K
  downWeighting : K
  absLoc : K
  ops : List (SolverOp K)
  reverted : List Nat
  answer : Option (Answer K)

/-- dd.cpp:666-669 -/
structure LoopState (K : Type) where
  cur : Catalog K
  prev : Catalog K
  log : List (IterLog K)

/-- the arguments of `relocate` that do not change -/
structure Args (K : Type) where
  env : Env K
  so : SolverOptions K
  o : ObsOptions K
  xc : XCorr.Cache
  cluster : Cluster
  sol : SolverAnswers K

/-- dd.cpp:670-772: iteration `it`; `last` iterations only observe. The result says whether the loop
goes on. -/
def iteration (a : Args K) (it : Nat) (s : LoopState K) : Outcome (LoopState K × Bool) := do
  let first := decide (it = 0)
  let damping := interpolate a.so.algoIterations it a.so.dampingFactorStart a.so.dampingFactorEnd
  let down := interpolate a.so.algoIterations it a.so.downWeightingByResidualStart
    a.so.downWeightingByResidualEnd
  let absLoc := interpolate a.so.algoIterations it a.so.absLocConstraintStart a.so.absLocConstraintEnd
  let ob ← observe a.env a.o a.xc a.cluster s.prev s.cur
  let cur ← computeEventResiduals a.env a.o.usePickUncertainties first ob.ops a.cluster ob.cur
  let _ ← a.sol.prepare it ob.ops absLoc down
  let entry : Option (Answer K) → IterLog K := fun ans =>
    ⟨s.cur, cur, damping, down, absLoc, ob.ops, ob.reverted, ans⟩
  if it = a.so.algoIterations then
    .ok (⟨cur, s.prev, s.log ++ [entry none]⟩, false)
  else
    match a.sol.solve it ob.ops damping with
    | none => .ok (⟨cur, s.prev, s.log ++ [entry none]⟩, false)
    | some ans => do
      let new ← updateRelocatedEvents a.env first ans a.cluster cur
      .ok (⟨new, cur, s.log ++ [entry (some ans)]⟩, true)

/-- dd.cpp:668-772: the remaining `n` iterations, from iteration `it` on -/
def loop (a : Args K) : Nat → Nat → LoopState K → Outcome (LoopState K)
  | 0, _, s => .ok s
  | n + 1, it, s => do
    let (s, goOn) ← iteration a it s
    if goOn then loop a n (it + 1) s else .ok s

/-- dd.cpp:777-786 -/
def returnedLoop (cur : Catalog K) : Catalog K → List (Nat × Event K) → Outcome (Catalog K)
  | r, [] => .ok r
  | r, kv :: kvs =>
    if kv.2.isRelocated then
      match r.addFrom kv.2.id cur true with
      | (r', .ok _) => returnedLoop cur r' kvs
      | (_, .throws) => .throws
      | (_, .ub) => .ub
    else returnedLoop cur r kvs

/-- dd.cpp:652-787: the catalog returned, and what the iterations did -/
def relocate (a : Args K) (cat : Catalog K) : Outcome (Catalog K × List (IterLog K)) := do
  let s ← loop a (a.so.algoIterations + 1) 0 ⟨cat, Catalog.init, []⟩
  let r ← returnedLoop s.cur Catalog.init s.cur.eventsSorted
  .ok (r, s.log)

end Verif.Relocate
