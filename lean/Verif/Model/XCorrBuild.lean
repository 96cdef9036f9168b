import Verif.Model.RelocateTop

/-!
# Model of the cross-correlation of clusters and of multi-event relocation

libs/hdd/dd.cpp:1187-1352 and :407-532.  Distances and the correlation of two waveforms are
parameters; the correlation may answer differently each time it is asked (waveforms may appear or
disappear), so it is told how many were done before.  The calls made are recorded.

Simplifications: logging, waveform preloading (dd.cpp:1256-1261, modelled in `Verif.Access`) and the files written when processing
data are saved are left out.  `coeff` and `lag` are uninitialised variables when `xcorrPhases` gives up
before trying a component (dd.cpp:1337-1342); here they are then whatever `correlate` answers.
-/

namespace Verif.Relocate
open Verif.Catalog

variable {K : Type} [Field K] [LinearOrder K]

/-- What cross-correlation uses. -/
structure XcorrArgs (K : Type) where
  /-- `xcorrOpt.enable`, `minEvStaDist`, `maxEvStaDist`, `maxInterEvDist` -/
  enable : Bool
  minEvStaDist : K
  maxEvStaDist : K
  maxInterEvDist : K
  /-- `computeDistance(event, station)` and `computeDistance(event, event)` -/
  evSta : Event K → Station K → K
  evEv : Event K → Event K → K
  /-- `xcorrPhases`, with the number of calls made before -/
  correlate : Nat → Event K → Phase K → Event K → Phase K → Outcome XCorr.Entry

/-- A call of `xcorrPhases` and what it answered. -/
structure XcorrCall (K : Type) where
  refEv : Event K
  refPhase : Phase K
  ev : Event K
  phase : Phase K
  result : XCorr.Entry

/-- The cache being built and the calls made so far. -/
structure BuildState (K : Type) where
  cache : XCorr.Cache
  calls : List (XcorrCall K)

/-- dd.cpp:1313-1348: one pick pair -/
def request (x : XcorrArgs K) (pre : XCorr.Cache) (refEv : Event K) (rp : Phase K) (ev : Event K) (p : Phase K)
    (s : BuildState K) : Outcome (BuildState K) :=
  if XCorr.has s.cache refEv.id ev.id rp.stationId rp.type then .ok s
  else
    match XCorr.get pre refEv.id ev.id rp.stationId rp.type with
    | some e => .ok { s with cache := XCorr.add s.cache refEv.id ev.id rp.stationId rp.type e }
    | none => do
      let e ← x.correlate s.calls.length refEv rp ev p
      .ok ⟨XCorr.add s.cache refEv.id ev.id rp.stationId rp.type e, s.calls ++ [⟨refEv, rp, ev, p, e⟩]⟩

/-- dd.cpp:1296-1349: one neighbour -/
def pairStep (x : XcorrArgs K) (cat : Catalog K) (pre : XCorr.Cache) (nb : Neighbours) (refEv : Event K)
    (rp : Phase K) (s : BuildState K) (n : Nat) : Outcome (BuildState K) :=
  match cat.events.find? n with
  | none => .throws
  | some ev =>
    if x.maxInterEvDist < x.evEv refEv ev ∧ 0 ≤ x.maxInterEvDist then .ok s
    else if nb.hasPhase n (rp.stationId, rp.type) then
      match searchPhase cat ev.id (rp.stationId, rp.type) with
      | none => .ub
      | some p => if p.source ≠ Source.catalog then .throws else request x pre refEv rp ev p s
    else .ok s

/-- dd.cpp:1269-1350: one pick of the reference event -/
def refPhaseStep (x : XcorrArgs K) (cat : Catalog K) (pre : XCorr.Cache) (nb : Neighbours) (refEv : Event K)
    (s : BuildState K) (rp : Phase K) : Outcome (BuildState K) :=
  match cat.stations.find? rp.stationId with
  | none => .throws
  | some st =>
    if x.evSta refEv st < x.minEvStaDist then .ok s
    else if x.maxEvStaDist < x.evSta refEv st ∧ 0 ≤ x.maxEvStaDist then .ok s
    else nb.ids.foldlM (pairStep x cat pre nb refEv rp) s

/-- dd.cpp:1208-1212 and :1240-1352: one event of the cluster -/
def clusterStep (x : XcorrArgs K) (cat : Catalog K) (pre : XCorr.Cache) (s : BuildState K) (kv : Nat × Neighbours) :
    Outcome (BuildState K) :=
  match cat.events.find? kv.2.refId with
  | none => .throws
  | some refEv => (cat.phasesOf refEv.id).foldlM (refPhaseStep x cat pre kv.2 refEv) s

/-- dd.cpp:1187-1234 `buildXCorrCache`, after the calls `calls` were made -/
def buildXCorrCache (x : XcorrArgs K) (cat : Catalog K) (cluster : Cluster) (pre : XCorr.Cache)
    (calls : List (XcorrCall K)) : Outcome (BuildState K) :=
  if x.enable then cluster.foldlM (clusterStep x cat pre) ⟨[], calls⟩ else .ok ⟨[], calls⟩

/-! ## Multi-event relocation -/

/-- What multi-event relocation uses; `sol` is the solver for each cluster. -/
structure MultiArgs (K : Type) where
  env : Env K
  so : SolverOptions K
  usePickUncertainties : Bool
  xcorrWeightScaler : K
  minCoef : PhaseType → Option K
  x : XcorrArgs K
  sol : Nat → SolverAnswers K

/-- The arguments of `relocate` for a cluster, dd.cpp:493-496. -/
def MultiArgs.toArgs (m : MultiArgs K) (i : Nat) (cluster : Cluster) (xc : XCorr.Cache) : Args K :=
  ⟨m.env, m.so, ⟨false, m.usePickUncertainties, m.xcorrWeightScaler, m.minCoef⟩, xc, cluster, m.sol i⟩

/-- The relocated catalog, `xcorrData`, the correlations done, and what was done for each cluster: the
correlation results it used, the catalog returned, and its iterations. -/
structure MultiState (K : Type) where
  reloc : Catalog K
  xcorrData : XCorr.Cache
  calls : List (XcorrCall K)
  done : List (XCorr.Cache × Catalog K × List (IterLog K))

/-- dd.cpp:466-520: one cluster -/
def multiStep (m : MultiArgs K) (bg : Catalog K) (s : MultiState K) (cluster : Cluster) : Outcome (MultiState K) := do
  let b ← buildXCorrCache m.x bg cluster s.xcorrData s.calls
  let (r, log) ← relocate (m.toArgs s.done.length cluster b.cache) bg
  match s.reloc.addAll r true with
  | (reloc, .ok ()) =>
    .ok ⟨reloc, XCorr.merge s.xcorrData b.cache, b.calls, s.done ++ [(b.cache, r, log)]⟩
  | (_, .throws) => .throws
  | (_, .ub) => .ub

/-- dd.cpp:407-532 `relocateMultiEvents` -/
def relocateMultiEvents (m : MultiArgs K) (bg : Catalog K) (clusters : List Cluster) (xcorrData : XCorr.Cache) :
    Outcome (MultiState K) :=
  clusters.foldlM (multiStep m bg) ⟨Catalog.init, xcorrData, [], []⟩

end Verif.Relocate
