import Verif.Model.Trace
import Verif.Model.UtcTime
import Verif.Model.Catalog
import Verif.Model.Geo
import Verif.Base.AMap
import Verif.Base.Outcome

/-!
# Model of `libs/hdd/waveform.cpp`

The data source (`Proxy`) and the auxiliary loaders and processors are parameters.  Log messages are left
out; the counters are modelled where they are observable.  Sample values of the loaders and caches are of
any type; the transforms and the resampling use real numbers (simplification: no rounding).  The network,
station, location and channel codes of a trace are not used by the functions modelled.  `none` stands for
the null pointer.
-/

namespace Verif.Waveform
open Verif.Catalog (Phase Event Station)

/-- waveform.h:297-303 -/
inductive Transform where
  | none
  | l2
  | transversal
  | radial
deriving DecidableEq, Repr

/-- waveform.h:393-397 `getBandAndInstrumentCodes` -/
def bandAndInstrument (channel : List Char) : List Char := if 2 ≤ channel.length then channel.take 2 else []

/-- waveform.cpp:43-54 `waveformId` -/
def waveformId (tw : TimeWindow) (net sta loc cha : List Char) : List Char :=
  net ++ '.' :: (sta ++ '.' :: (loc ++ '.' :: (cha ++ '.' :: (Utc.toString tw.startTime ++ '.' ::
    Utc.toString tw.endTime))))

variable {D α : Type}

/-- waveform.cpp:56-60 -/
def phaseId (tw : TimeWindow) (ph : Phase D) : List Char :=
  waveformId tw ph.networkCode.toList ph.stationCode.toList ph.locationCode.toList ph.channelCode.toList

/-- waveform.cpp:62-88 -/
def transformId (tw : TimeWindow) (ph : Phase D) (trans : Transform) : List Char :=
  let withCode (c : Char) := waveformId tw ph.networkCode.toList ph.stationCode.toList ph.locationCode.toList
    (bandAndInstrument ph.channelCode.toList ++ [c])
  match trans with
  | .transversal => withCode 'T'
  | .radial => withCode 'R'
  | .l2 => withCode 'L'
  | .none => phaseId tw ph

/-- stream id, waveform.cpp:132-133, 164-165 -/
def streamId (ph : Phase D) : String :=
  ph.networkCode ++ "." ++ ph.stationCode ++ "." ++ ph.locationCode ++ "." ++ ph.channelCode

/-! ## longer windows -/

/-- waveform.cpp:202-230 `ExtraLenLoader::traceTimeWindowToLoad`.  The lengths are converted by `secToDur`
by the caller of this model: microseconds. -/
def windowToLoad (before after : Int) (needed : TimeWindow) (pick : Int) : Outcome TimeWindow := do
  let tw := (TimeWindow.mk' (pick - before) (pick + after)).merge needed
  let s := Utc.toDate tw.startTime
  let tw ← (if s.usec > 0 then do
      let t ← Utc.fromDate { s with usec := 0 }
      .ok (tw.setStartTime t)
    else .ok tw)
  let e := Utc.toDate tw.endTime
  if e.usec > 0 then do
    let t ← Utc.fromDate { e with sec := e.sec + 1, usec := 0 }
    .ok (tw.setEndTime t)
  else .ok tw

/-- `Trace::slice` on a copy: `ok none` when it returns false -/
def sliced (t : Trace α) (tw : TimeWindow) : Outcome (Option (Trace α)) :=
  match t.slice tw with
  | some (true, t') => .ok (some t')
  | some (false, _) => .ok none
  | none => .ub

/-- waveform.cpp:232-248 `ExtraLenLoader::get`; `aux` is the auxiliary loader -/
def extraLenGet (before after : Int) (aux : TimeWindow → Phase D → Option (Trace α)) (tw : TimeWindow) (ph : Phase D) :
    Outcome (Option (Trace α)) := do
  let twToLoad ← windowToLoad before after tw ph.time
  match aux twToLoad ph with
  | none => .ok none
  | some t => if twToLoad ≠ tw then sliced t tw else .ok (some t)

/-! ## the batch loader -/

/-- waveform.h:192-215 -/
structure Batch (α : Type) where
  loaded : Bool
  requests : List (String × TimeWindow)
  traces : List (String × Trace α)
  downloaded : Nat
  noAvail : Nat

namespace Batch

/-- waveform.h:195 -/
def init : Batch α := ⟨false, [], [], 0, 0⟩

/-- waveform.cpp:157-172 -/
def request (b : Batch α) (tw : TimeWindow) (stream : String) : Outcome (Batch α) :=
  if b.loaded then .throws
  else if (stream, tw) ∈ b.requests then .ok b
  else .ok { b with requests := (stream, tw) :: b.requests }

/-- waveform.cpp:134-153: loop over the traces of the stream -/
def findTrace (tw : TimeWindow) : List (Trace α) → Outcome (Option (Trace α))
  | [] => .ok none
  | t :: ts =>
    if t.timeWindow.contains tw then
      if t.timeWindow ≠ tw then sliced t tw else .ok (some t)
    else findTrace tw ts

/-- waveform.cpp:122-155.  `order` is the order in which `equal_range` lists the traces of the stream. -/
def get (order : List (Trace α) → List (Trace α)) (b : Batch α) (tw : TimeWindow) (stream : String) :
    Outcome (Option (Trace α) × Batch α) :=
  if !b.loaded then (b.request tw stream).map (fun b => (none, b))
  else (findTrace tw (order ((b.traces.filter (fun x => x.1 = stream)).map (·.2)))).map (fun r => (r, b))

/-- a callback of `Proxy::loadTraces` (waveform.h:79-84) -/
inductive Reply (α : Type) where
  | traceLoaded (stream : String) (tw : TimeWindow) (trace : Trace α)
  | traceFailed (stream : String) (tw : TimeWindow)

/-- waveform.cpp:178-187 -/
def reply (b : Batch α) : Reply α → Batch α
  | .traceLoaded stream _ trace => { b with traces := (stream, trace) :: b.traces, downloaded := b.downloaded + 1 }
  | .traceFailed _ _ => { b with noAvail := b.noAvail + 1 }

/-- waveform.cpp:174-200; `source` is `Proxy::loadTraces`: the callbacks it makes for the requests.  The
second result is the list of requests passed to the source, if it is called. -/
def load (source : List (String × TimeWindow) → List (Reply α)) (b : Batch α) :
    Batch α × Option (List (String × TimeWindow)) :=
  if b.loaded then (b, none)
  else if 0 < b.requests.length then
    ({ (source b.requests).foldl reply b with requests := [], loaded := true }, some b.requests)
  else ({ b with loaded := true }, none)

end Batch

/-! ## the disk cache -/

/-- content of a cache file: what `Proxy::readTrace` makes of it (waveform.h:110-111; hddsc/waveform.cpp:393-424)
-/
inductive File (α : Type) where
  | readable (t : Trace α)
  | unreadable
deriving DecidableEq

/-- effect of a call to `Proxy::writeTrace`, which writes straight into the file (hddsc/waveform.cpp:380-391):
everything written; the file could not be created; something that cannot be read; or, when the process is
killed or the disk is full, the records written so far -/
inductive Written where
  | complete
  | nothing
  | garbage
  | truncated (samples : Nat)
deriving DecidableEq, Repr

/-- the file system: `Proxy::writeTrace` -/
def store (fs : AMap (List Char) (File α)) (path : List Char) (t : Trace α) : Written → AMap (List Char) (File α)
  | .complete => fs.set path (.readable t)
  | .nothing => fs
  | .garbage => fs.set path .unreadable
  | .truncated n => fs.set path (.readable { t with data := t.data.take n })

/-- waveform.cpp:285-305: `none` when there is no file or it cannot be read -/
def fromCache (fs : AMap (List Char) (File α)) (path : List Char) : Option (Trace α) :=
  match fs.find? path with
  | some (.readable t) => some t
  | _ => none

/-- waveform.cpp:250-273 `DiskCachedLoader::get`: result, file system, and whether the auxiliary loader was
called.  `answer` is what the auxiliary loader returns now, `effect` what happens if the trace is written.
The path (waveform.cpp:327-338) is the directory, the id and an extension; here just the id. -/
def diskGet (fs : AMap (List Char) (File α)) (tw : TimeWindow) (ph : Phase D) (answer : Option (Trace α)) (effect : Written) :
    Option (Trace α) × AMap (List Char) (File α) × Bool :=
  match fromCache fs (phaseId tw ph) with
  | some t => (some t, fs, false)
  | none =>
    match answer with
    | some t => (some t, store fs (phaseId tw ph) t effect, true)
    | none => (none, fs, true)

/-! ## the memory cache -/

/-- waveform.h:388-390 -/
structure Mem (T : Type) where
  traces : AMap (List Char) T
  unloadables : List (List Char)

/-- waveform.h:361 -/
def Mem.init {T : Type} : Mem T := ⟨[], []⟩

/-- waveform.cpp:461-494 `MemCachedProc::get`: result, cache, and whether the auxiliary processor was called.
`answer` is what the auxiliary processor returns now. -/
def Mem.get {T : Type} (m : Mem T) (wfId : List Char) (answer : Option T) : Option T × Mem T × Bool :=
  match m.traces.find? wfId with
  | some t => (some t, m, false)
  | none =>
    if wfId ∈ m.unloadables then (none, m, false)
    else
      match answer with
      | some t => (some t, { m with traces := m.traces.set wfId t }, true)
      | none => (none, { m with unloadables := wfId :: m.unloadables }, true)

/-! ## transforms -/

/-- the common part of two traces (waveform.cpp:536-562): number of samples and first sample of each;
`none` when the function returns a null pointer.  The conversion of a negative number of samples to
`size_t` is undefined behaviour. -/
def samplesFrom (startTime : Int) (count : Nat) (t : Trace α) : Option Nat :=
  let first := cround (t.index startTime)
  if first < 0 ∨ first + count > t.data.length then none else some first.toNat

/-- waveform.cpp:538-539, 681-682 -/
def sampleCount (startTime endTime : Int) (freq : ℚ) : Outcome Nat :=
  let n := ⌊Trace.durToSec (endTime - startTime) * freq⌋ + 1
  if n < 0 then .ub else .ok n.toNat

noncomputable section

/-- waveform.cpp:518-577 `transformL2` -/
def transformL2 (h1 h2 : Trace ℝ) : Outcome (Option (Trace ℝ)) :=
  if h1.freq ≠ h2.freq then .ok none
  else do
    let startTime := max h1.stime h2.stime
    let endTime := min h1.endTime h2.endTime
    let count ← sampleCount startTime endTime h1.freq
    if count ≤ 0 then .ok none
    else
      match samplesFrom startTime count h1, samplesFrom startTime count h2 with
      | some s1, some s2 =>
        .ok (some ⟨startTime, h1.freq, (List.range count).map (fun i =>
          Real.sqrt (h1.data.getD (s1 + i) 0 ^ 2 + h2.data.getD (s2 + i) 0 ^ 2))⟩)
      | _, _ => .ok none

/-- waveform.h:42-53: orientation of the sensor, in degrees; vertical, first and second horizontal -/
structure Components where
  dip : Fin 3 → ℝ
  azimuth : Fin 3 → ℝ

/-- waveform.cpp:600-619 `Vector3d` -/
structure Vec3 where
  x : ℝ
  y : ℝ
  z : ℝ

/-- waveform.cpp:603-618 `fromAngles(..).normalize()` -/
def Vec3.fromAngles (azimuth dip : ℝ) : Vec3 :=
  let x := Real.cos dip * Real.sin azimuth
  let y := Real.cos dip * Real.cos azimuth
  let z := Real.sin dip
  let scale := 1 / Real.sqrt (x * x + y * y + z * z)
  ⟨x * scale, y * scale, z * scale⟩

/-- waveform.cpp:624-637: a column of the sensor's orientation matrix: the direction (east, north, up) of a
component -/
def column (tc : Components) (i : Fin 3) : Vec3 :=
  Vec3.fromAngles (Geo.degToRad (tc.azimuth i)) (-Geo.degToRad (tc.dip i))

/-- waveform.cpp:647-650 (utils.cpp:211-217, 248-251): the direction from the event to the station, at the
station, in radians -/
def stationAzimuth (evLat evLon staLat staLon : ℝ) : ℝ :=
  Geo.computeAzimuth staLat staLon evLat evLon + Geo.degToRad 180

/-- waveform.cpp:651-673 and 722-733: one output sample.  The sensor's orientation matrix has the columns
of the second horizontal, first horizontal and vertical component. -/
def rotateSample (tc : Components) (az : ℝ) (trans : Transform) (h2 h1 v : ℝ) : ℝ :=
  let c2 := column tc 2
  let c1 := column tc 1
  let cv := column tc 0
  let row (a b c : ℝ) : ℝ :=
    (a * c2.x + b * c2.y + c * c2.z) * h2 + (a * c1.x + b * c1.y + c * c1.z) * h1 + (a * cv.x + b * cv.y + c * cv.z) * v
  match trans with
  | .transversal => row (Real.cos az) (-Real.sin az) 0
  | .radial => row (Real.sin az) (Real.cos az) 0
  | _ => row 0 0 1

/-- waveform.cpp:579-746 `transformRT` -/
def transformRT (tc : Components) (az : ℝ) (trV trH1 trH2 : Trace ℝ) (trans : Transform) : Outcome (Option (Trace ℝ)) :=
  if trH1.freq ≠ trH2.freq ∨ trH1.freq ≠ trV.freq then .ok none
  else do
    let startTime := max (max trH1.stime trH2.stime) trV.stime
    let endTime := min (min trH1.endTime trH2.endTime) trV.endTime
    let count ← sampleCount startTime endTime trH1.freq
    if count ≤ 0 then .ok none
    else
      match samplesFrom startTime count trH1, samplesFrom startTime count trH2, samplesFrom startTime count trV with
      | some s1, some s2, some sv =>
        .ok (some ⟨trH1.stime, trH1.freq, (List.range count).map (fun i =>
          rotateSample tc az trans (trH2.data.getD (s2 + i) 0) (trH1.data.getD (s1 + i) 0) (trV.data.getD (sv + i) 0))⟩)
      | _, _, _ => .ok none

/-! ## resampling and processing -/

/-- conversion of a double to `int`: towards zero -/
def toInt (x : ℚ) : Int := if 0 ≤ x then ⌊x⌋ else ⌈x⌉

/-- waveform.cpp:790-794: the input samples used for the output sample at `x`, in order.  `win_i` runs from
the truncation of `-(win_len / 2.)` up to below `win_len - win_len / 2.` -/
def windowIndexes (x : ℚ) (winLen : Int) : List Int :=
  let first := toInt (-((winLen : ℚ) / 2))
  let n := (⌈(winLen : ℚ) - winLen / 2⌉ - first).toNat
  (List.range n).map (fun (k : Nat) => toInt (x + ((first + k : Int) : ℚ)))

/-- waveform.cpp:784-808 `new_sample` -/
def newSample (data : List ℝ) (dataSf x fmax : ℚ) (winLen : Int) : ℝ :=
  ((windowIndexes x winLen).map (fun (i : Int) =>
    if 0 ≤ i ∧ i < (data.length : Int) then
      let winX : ℚ := (i : ℚ) - x
      let hann := Real.sin (Real.pi * (1 / 2 + ((winX / winLen : ℚ) : ℝ))) ^ 2
      let a : ℝ := 2 * Real.pi * winX * fmax / dataSf
      let sinc := open Classical in if a = 0 then 1 else Real.sin a / a
      ((2 * fmax / dataSf : ℚ) : ℝ) * hann * sinc * data.getD i.toNat 0
    else 0)).sum

/-- waveform.cpp:763-825 `resample` -/
def resample (t : Trace ℝ) (newSf : ℚ) : Trace ℝ :=
  if newSf ≤ 0 ∨ t.freq = newSf then t
  else
    let factor := newSf / t.freq
    let nyquist := min newSf t.freq / 2
    let transition := nyquist * (1 / 10)
    let winLen := ⌈(598 / 100 : ℚ) * t.freq / transition⌉
    ⟨t.stime, newSf, (List.range ⌊(t.data.length : ℚ) * factor⌋.toNat).map (fun (i : Nat) =>
      newSample t.data t.freq ((i : ℚ) / factor) nyquist winLen)⟩

/-- waveform.cpp:444-448 -/
def demean (t : Trace ℝ) : Trace ℝ :=
  { t with data := t.data.map (fun x => x - t.data.sum / t.data.length) }

/-- waveform.cpp:436-459 `BasicProcessor::filter`; `wf` is `Proxy::filter`, `none` when it throws -/
def filter (wf : String → Trace ℝ → Option (Trace ℝ)) (t : Trace ℝ) (filterStr : String) (resampleFreq : ℚ) :
    Option (Trace ℝ) :=
  let t := demean t
  let t := if resampleFreq > 0 then resample t resampleFreq else t
  if filterStr ≠ "" then wf filterStr t else some t

/-- what a processor is asked for (waveform.h:313-319) -/
structure Request where
  tw : TimeWindow
  ph : Phase ℝ
  ev : Event ℝ
  sta : Station ℝ
  filterStr : String
  resampleFreq : ℚ
  trans : Transform

/-- the surroundings of a `BasicProcessor`: its loader, `Proxy::filter`, `Proxy::getComponentsInfo` (names
and orientation of the components), and the extra length in microseconds -/
structure Env where
  load : TimeWindow → Phase ℝ → Option (Trace ℝ)
  wf : String → Trace ℝ → Option (Trace ℝ)
  components : Phase ℝ → Option ((Fin 3 → String) × Components)
  extra : Int

/-- waveform.cpp:402-434 `loadAndProcess` -/
def loadAndProcess (e : Env) (tw : TimeWindow) (ph : Phase ℝ) (channel : String) (filterStr : String) (resampleFreq : ℚ) :
    Outcome (Option (Trace ℝ)) :=
  match e.load (tw.extend e.extra e.extra) { ph with channelCode := channel } with
  | none => .ok none
  | some t =>
    match filter e.wf t filterStr resampleFreq with
    | none => .ok none
    | some t => sliced t tw

/-- waveform.cpp:340-400 `BasicProcessor::get` -/
def process (e : Env) (r : Request) : Outcome (Option (Trace ℝ)) :=
  match r.trans with
  | Transform.none => loadAndProcess e r.tw r.ph r.ph.channelCode r.filterStr r.resampleFreq
  | kind =>
    match e.components r.ph with
    | none => .ok none
    | some (names, tc) =>
      match kind with
      | .l2 => do
        let h1 ← loadAndProcess e r.tw r.ph (names 1) r.filterStr r.resampleFreq
        let h2 ← loadAndProcess e r.tw r.ph (names 2) r.filterStr r.resampleFreq
        match h1, h2 with
        | some h1, some h2 => transformL2 h1 h2
        | _, _ => .ok none
      | other => do
        let v ← loadAndProcess e r.tw r.ph (names 0) r.filterStr r.resampleFreq
        let h1 ← loadAndProcess e r.tw r.ph (names 1) r.filterStr r.resampleFreq
        let h2 ← loadAndProcess e r.tw r.ph (names 2) r.filterStr r.resampleFreq
        match v, h1, h2 with
        | some v, some h1, some h2 =>
          transformRT tc (stationAzimuth r.ev.latitude r.ev.longitude r.sta.latitude r.sta.longitude) v h1 h2 other
        | _, _, _ => .ok none

/-- the id of a request in the memory cache, waveform.cpp:469 -/
def Request.id (r : Request) : List Char := transformId r.tw r.ph r.trans

end

end Verif.Waveform
