import Verif.Model.Waveform
import Verif.Model.XCorr
import Verif.Model.XCorrBuild

/-!
# Model of how cross-correlation gets its waveforms

libs/hdd/dd.cpp:208-221, :1240-1352, :1354-1440, :1472-1648 and :1691-1725: the components tried for a pair of picks, the
request made to a waveform processor, and the batch download of the waveforms of the event relocated in
single-event mode.

Simplifications: a processor is a function of the request.  `Waveform::MemCachedProc`, which is put around both
processors (dd.cpp:1257, :1439, :190-191), is left out: see C37.  `coeff` and `lag` are 0 when no correlation was
performed; they are uninitialised in the code when the channels differ (dd.cpp:1337-1342).  Log messages and counters are
left out.
-/

namespace Verif.Access
open Verif.Catalog Verif.Waveform
noncomputable section

/-- `XcorrOptions::XCorr`, dd.h:101-110 (the minimum coefficient is used by `addObservations`) -/
structure PhaseOptions where
  win : XCorr.Config
  components : List String

/-- `XcorrOptions`, dd.h:95-113, the waveform settings of `Config` (dd.h:59-67), and `computeDistance` -/
structure Options where
  minEvStaDist : ℝ
  maxEvStaDist : ℝ
  maxInterEvDist : ℝ
  phase : PhaseType → Option PhaseOptions
  filterStr : String
  resampleFreq : ℚ
  evSta : Event ℝ → Station ℝ → ℝ
  evEv : Event ℝ → Event ℝ → ℝ

/-- waveform.h:399-403 `getOrientationCode` -/
def orientation (channel : List Char) : List Char := if channel.length = 3 then channel.drop 2 else []

/-- dd.cpp:208-221 `xcorrComponents` -/
def components (o : Options) (ph : Phase ℝ) : Outcome (List String) :=
  match o.phase ph.procType with
  | none => .throws
  | some c =>
    .ok (if c.components = [] ∨ c.components = [""] then [String.ofList (orientation ph.channelCode.toList)] else c.components)

/-- dd.cpp:1442-1451 `xcorrTimeWindowLong` for a pick -/
def longWindow (o : Options) (ev : Event ℝ) (ph : Phase ℝ) : Outcome TimeWindow :=
  match o.phase ph.procType with
  | none => .throws
  | some c =>
    match XCorr.windowLong c.win ev.time ph.time with
    | none => .ub
    | some tw => .ok tw

/-- dd.cpp:1699-1721: the transformation and the channel of a component; `none` for an empty component -/
def channelOf (ph : Phase ℝ) (component : String) : Option (Transform × String) :=
  if component = "" then none
  else if component = "T" then some (.transversal, ph.channelCode)
  else if component = "R" then some (.radial, ph.channelCode)
  else if component = "L2" then some (.l2, ph.channelCode)
  else some (.none, String.ofList (bandAndInstrument ph.channelCode.toList) ++ component)

/-- dd.cpp:1691-1725 `getWaveform`: what the processor is asked for; `stations` are those of the background catalog -/
def waveformRequest (o : Options) (stations : AMap String (Station ℝ)) (tw : TimeWindow) (ev : Event ℝ) (ph : Phase ℝ)
    (component : String) : Outcome (Option Request) :=
  match stations.find? ph.stationId with
  | none => .throws
  | some sta =>
    match channelOf ph component with
    | none => .ok none
    | some (kind, cha) => .ok (some ⟨tw, { ph with channelCode := cha }, ev, sta, o.filterStr, o.resampleFreq, kind⟩)

/-- dd.cpp:1691-1725 `getWaveform` -/
def getWaveform (o : Options) (stations : AMap String (Station ℝ)) (wf : Request → Outcome (Option (Trace ℝ)))
    (tw : TimeWindow) (ev : Event ℝ) (ph : Phase ℝ) (component : String) : Outcome (Option (Trace ℝ)) := do
  match (← waveformRequest o stations tw ev ph component) with
  | none => .ok none
  | some r => wf r

/-! ## one pair of picks -/

/-- dd.cpp:1573-1576 -/
def trusted (ph : Phase ℝ) : Bool := ph.source == .catalog || ph.source == .rtEventManual

/-- dd.cpp:1521-1648 `xcorrPhasesOneComponent`: the two waveforms are loaded, the second only if there is a first -/
def oneComponent (o : Options) (stations : AMap String (Station ℝ)) (wf1 wf2 : Request → Outcome (Option (Trace ℝ)))
    (ev1 : Event ℝ) (ph1 : Phase ℝ) (ev2 : Event ℝ) (ph2 : Phase ℝ) (component : String) : Outcome (Option (ℚ × Fl ℝ)) :=
  match o.phase ph1.procType with
  | none => .throws
  | some c => do
    let tw1 ← longWindow o ev1 ph1
    let tw2 ← longWindow o ev2 ph2
    match (← getWaveform o stations wf1 tw1 ev1 ph1 component) with
    | none => .ok none
    | some t1 =>
      let t2 ← getWaveform o stations wf2 tw2 ev2 ph2 component
      match o.phase ph2.procType with
      | none => .throws
      | some c2 =>
        XCorr.onePhase c.win c2.win ⟨some t1, ev1.time, ph1.time, trusted ph1⟩ ⟨t2, ev2.time, ph2.time, trusted ph2⟩

/-- dd.cpp:1506-1518: the components are tried in order until one can be correlated -/
def tryComponents (f : String → Outcome (Option (ℚ × Fl ℝ))) : List String → Outcome (Option (String × ℚ × Fl ℝ))
  | [] => .ok none
  | c :: cs => do
    match (← f c) with
    | some r => .ok (some (c, r))
    | none => tryComponents f cs

/-- dd.cpp:1472-1519 `xcorrPhases`: the component used, lag and coefficient; `none` when it returns false -/
def xcorrPhases (o : Options) (stations : AMap String (Station ℝ)) (wf1 wf2 : Request → Outcome (Option (Trace ℝ)))
    (ev1 : Event ℝ) (ph1 : Phase ℝ) (ev2 : Event ℝ) (ph2 : Phase ℝ) : Outcome (Option (String × ℚ × Fl ℝ)) :=
  if ph1.type ≠ ph2.type then .ok none
  else if bandAndInstrument ph1.channelCode.toList ≠ bandAndInstrument ph2.channelCode.toList then .ok none
  else do
    let cs ← components o ph1
    tryComponents (oneComponent o stations wf1 wf2 ev1 ph1 ev2 ph2) cs

/-- what is put into the cache, dd.cpp:1337-1346; `num` is the number stored for a coefficient -/
def toEntry (num : Fl ℝ → ℚ) : Option (String × ℚ × Fl ℝ) → XCorr.Entry
  | none => ⟨false, 0, 0⟩
  | some (_, lag, coeff) => ⟨true, num coeff, lag⟩

/-- the arguments of the loops over pairs of picks -/
def Options.args (o : Options) (stations : AMap String (Station ℝ)) (num : Fl ℝ → ℚ)
    (wf1 wf2 : Request → Outcome (Option (Trace ℝ))) : Relocate.XcorrArgs ℝ where
  enable := true
  minEvStaDist := o.minEvStaDist
  maxEvStaDist := o.maxEvStaDist
  maxInterEvDist := o.maxInterEvDist
  evSta := o.evSta
  evEv := o.evEv
  correlate := fun _ ev1 ph1 ev2 ph2 => do
    .ok (toEntry num (← xcorrPhases o stations wf1 wf2 ev1 ph1 ev2 ph2))

/-! ## the batch download of the waveforms of one event -/

/-- the loads made by `BasicProcessor::get` for a request, waveform.cpp:340-434: they do not depend on what was loaded
before (`process_congr`) -/
def loads (e : Env) (r : Request) : List (TimeWindow × Phase ℝ) :=
  let tw := r.tw.extend e.extra e.extra
  match r.trans with
  | .none => [(tw, r.ph)]
  | kind =>
    match e.components r.ph with
    | none => []
    | some (names, _) =>
      match kind with
      | .l2 => [(tw, { r.ph with channelCode := names 1 }), (tw, { r.ph with channelCode := names 2 })]
      | _ => [(tw, { r.ph with channelCode := names 0 }), (tw, { r.ph with channelCode := names 1 }),
          (tw, { r.ph with channelCode := names 2 })]

/-- a load before `BatchLoader::load`, waveform.cpp:122-129 -/
def askBatch (b : Batch ℝ) (x : TimeWindow × Phase ℝ) : Outcome (Batch ℝ) := b.request x.1 (streamId x.2)

/-- dd.cpp:1420-1425: the call of `getWaveform` for one component -/
def askComponent (o : Options) (stations : AMap String (Station ℝ)) (e : Env) (tw : TimeWindow) (ev : Event ℝ)
    (ph : Phase ℝ) (b : Batch ℝ) (component : String) : Outcome (Batch ℝ) := do
  match (← waveformRequest o stations tw ev ph component) with
  | none => .ok b
  | some r => (loads e r).foldlM askBatch b

/-- dd.cpp:1396-1427: one neighbour -/
def preloadNeighbour (o : Options) (stations : AMap String (Station ℝ)) (e : Env) (cat : Catalog ℝ) (nb : Neighbours)
    (refEv : Event ℝ) (rp : Phase ℝ) (cs : List String) (b : Batch ℝ) (n : Nat) : Outcome (Batch ℝ) :=
  match cat.events.find? n with
  | none => .throws
  | some ev =>
    if o.maxInterEvDist < o.evEv refEv ev ∧ 0 ≤ o.maxInterEvDist then .ok b
    else if nb.hasPhase n (rp.stationId, rp.type) then do
      let tw ← longWindow o refEv rp
      cs.foldlM (askComponent o stations e tw refEv rp) b
    else .ok b

/-- dd.cpp:1376-1428: one pick of the reference event -/
def preloadPhase (o : Options) (stations : AMap String (Station ℝ)) (e : Env) (cat : Catalog ℝ) (nb : Neighbours)
    (refEv : Event ℝ) (b : Batch ℝ) (rp : Phase ℝ) : Outcome (Batch ℝ) :=
  match cat.stations.find? rp.stationId with
  | none => .throws
  | some st => do
    let cs ← components o rp
    if o.evSta refEv st < o.minEvStaDist then .ok b
    else if o.maxEvStaDist < o.evSta refEv st ∧ 0 ≤ o.maxEvStaDist then .ok b
    else nb.ids.foldlM (preloadNeighbour o stations e cat nb refEv rp cs) b

/-- dd.cpp:1354-1428 `preloadNonCatalogWaveforms`: the loader before the download -/
def preload (o : Options) (stations : AMap String (Station ℝ)) (e : Env) (cat : Catalog ℝ) (nb : Neighbours)
    (refEv : Event ℝ) : Outcome (Batch ℝ) :=
  (cat.phasesOf refEv.id).foldlM (preloadPhase o stations e cat nb refEv) Batch.init

/-- the loader after the download, as the loader of a processor; a window is always found or not (`batch_available`, C39) -/
def batchLoad (order : List (Trace ℝ) → List (Trace ℝ)) (b : Batch ℝ) (tw : TimeWindow) (ph : Phase ℝ) : Option (Trace ℝ) :=
  match b.get order tw (streamId ph) with
  | .ok r => r.1
  | _ => none

/-- what the two processors of dd.cpp:1256-1261 are made of: `e` has the filter, the component names and the extra length
(its `load` is not used), `source` is `Proxy::loadTraces`, `order` the order of the traces of a stream, `wf` the processor
of catalog waveforms -/
structure Sources where
  e : Env
  source : List (String × TimeWindow) → List (Batch.Reply ℝ)
  order : List (Trace ℝ) → List (Trace ℝ)
  wf : Request → Outcome (Option (Trace ℝ))

/-- the processor of the waveforms of the reference event after the download, dd.cpp:1367-1368, :1431 and :1439 -/
def Sources.preloaded (s : Sources) (b : Batch ℝ) : Request → Outcome (Option (Trace ℝ)) :=
  process { s.e with load := batchLoad s.order (b.load s.source).1 }

/-- dd.cpp:1240-1352 `buildXcorrDiffTTimePairs` when the waveforms of the reference event are not those of the catalog -/
def buildPairs (o : Options) (stations : AMap String (Station ℝ)) (num : Fl ℝ → ℚ) (s : Sources) (cat : Catalog ℝ)
    (pre : XCorr.Cache) (nb : Neighbours) (refEv : Event ℝ) (st : Relocate.BuildState ℝ) : Outcome (Relocate.BuildState ℝ) := do
  let b ← preload o stations s.e cat nb refEv
  (cat.phasesOf refEv.id).foldlM
    (Relocate.refPhaseStep (o.args stations num (s.preloaded b) s.wf) cat pre nb refEv) st

/-- dd.cpp:1208-1212: one event of the cluster -/
def buildEvent (o : Options) (stations : AMap String (Station ℝ)) (num : Fl ℝ → ℚ) (s : Sources) (cat : Catalog ℝ)
    (pre : XCorr.Cache) (st : Relocate.BuildState ℝ) (kv : Nat × Neighbours) : Outcome (Relocate.BuildState ℝ) :=
  match cat.events.find? kv.2.refId with
  | none => .throws
  | some refEv => buildPairs o stations num s cat pre kv.2 refEv st

/-- dd.cpp:1187-1234 `buildXCorrCache` as called in single-event mode (dd.cpp:627) -/
def buildCache (o : Options) (stations : AMap String (Station ℝ)) (num : Fl ℝ → ℚ) (s : Sources) (cat : Catalog ℝ)
    (cluster : Relocate.Cluster) : Outcome XCorr.Cache :=
  (cluster.foldlM (buildEvent o stations num s cat []) ⟨[], []⟩).map (·.cache)

end
end Verif.Access
