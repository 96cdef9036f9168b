import Verif.Model.Preload

/-!
# Model of the waveform access of a relocation object

libs/hdd/dd.cpp:130-206 with dd.h:153-168 and :340-350: the chain of loaders and processors is built when the object is
constructed, rebuilt when the disk cache is switched on or off and when waveforms are unloaded, and its last loader is
replaced while the disk cache is filled (dd.cpp:223-312).

Simplifications: `diskCache` is not null exactly when the disk cache is part of the chain, so that there is no separate
pointer.  Lengths are in microseconds: `half` is half of `diskTraceMinLen` after `secToDur` (waveform.h:220-229).  When filling
the cache throws, the files written for the event in question are left out, and so are the waveforms noted by the batch
loader that stays behind: it has not downloaded anything, so they do not matter (waveform.cpp:125-129).  The counters and
the log messages are left out.
-/

namespace Verif.WfAccess
open Verif.Catalog Verif.Waveform Verif.Access
noncomputable section

/-- the cache files -/
abbrev Files := Preload.Files

/-- the last loader of the chain: `BasicLoader`, or a `BatchLoader` that has not downloaded anything -/
inductive Base where
  | basic
  | waiting
deriving DecidableEq

/-- the loader of `basicProc` (dd.cpp:171-191): the last loader, or `ExtraLenLoader` and `DiskCachedLoader` before it -/
inductive Chain where
  | direct (b : Base)
  | cached (dir : String) (half : Int) (b : Base)
deriving DecidableEq

/-- `_wfAccess`, dd.h:340-350, and the files in all directories -/
structure State where
  useCache : Bool
  cacheDir : String
  half : Int
  chain : Chain
  mem : Mem (Trace ℝ)
  files : String → Files

/-- what does not change: `e` has the data centre for one waveform (`BasicLoader`), the filter, the names of the components and
the extra length; `source` is the data centre for many waveforms (`Proxy::loadTraces`), `order` the order of the traces of a
stream, `cat` the catalog -/
structure Device where
  e : Env
  source : List (String × TimeWindow) → List (Batch.Reply ℝ)
  order : List (Trace ℝ) → List (Trace ℝ)
  cat : Catalog ℝ

/-! ## building the chain -/

/-- dd.cpp:169-192 `initWaveformAccess` -/
def initAccess (st : State) : State :=
  { st with
    chain := if st.useCache then .cached st.cacheDir st.half .basic else .direct .basic
    mem := Mem.init }

/-- dd.cpp:130-144, the constructor; `diskTraceMinLen` is 10 s (dd.h:344) -/
def construct (files : String → Files) : State :=
  initAccess ⟨false, "", 5000000, .direct .basic, Mem.init, files⟩

/-- dd.cpp:146-150 `disableCatalogWaveformDiskCache` -/
def disable (st : State) : State := initAccess { st with useCache := false }

/-- dd.cpp:152-167 `enableCatalogWaveformDiskCache`; `available` says whether the directory exists or can be created.  The
second result is false when it throws. -/
def enable (st : State) (dir : String) (half : Int) (available : Bool) : State × Bool :=
  let st := { st with useCache := true, cacheDir := dir, half := half }
  if available then (initAccess st, true) else (st, false)

/-- dd.cpp:194-204 `replaceWaveformLoader`: undefined if there should be a disk cache and there is none -/
def replaceLoader (st : State) (b : Base) : Outcome State :=
  if st.useCache then
    match st.chain with
    | .cached dir half _ => .ok { st with chain := .cached dir half b }
    | .direct _ => .ub
  else .ok { st with chain := .direct b }

/-! ## loading -/

/-- the last loader: waveform.cpp:93-120, or :125-129 -/
def loadBase (e : Env) (b : Base) (tw : TimeWindow) (ph : Phase ℝ) : Option (Trace ℝ) :=
  match b with
  | .basic => e.load tw ph
  | .waiting => none

/-- the whole chain: waveform.cpp:232-248 and :250-273; `effect` says what happens when a file is written -/
def loadChain (e : Env) (c : Chain) (effect : List Char → Written) (fs : String → Files) (tw : TimeWindow) (ph : Phase ℝ) :
    Outcome (Option (Trace ℝ) × (String → Files)) :=
  match c with
  | .direct b => .ok (loadBase e b tw ph, fs)
  | .cached dir half b => do
    let w ← windowToLoad half half tw ph.time
    let r := diskGet (fs dir) w ph (loadBase e b w ph) (effect (phaseId w ph))
    let fs := Function.update fs dir r.2.1
    match r.1 with
    | none => .ok (none, fs)
    | some t =>
      if w ≠ tw then do
        let t ← sliced t tw
        .ok (t, fs)
      else .ok (some t, fs)

/-- waveform.cpp:402-434 `loadAndProcess`, with a loader that has a state -/
def loadAndProcessM {σ : Type} (e : Env) (load : σ → TimeWindow → Phase ℝ → Outcome (Option (Trace ℝ) × σ)) (s : σ)
    (tw : TimeWindow) (ph : Phase ℝ) (channel filterStr : String) (resampleFreq : ℚ) : Outcome (Option (Trace ℝ) × σ) := do
  let (t, s) ← load s (tw.extend e.extra e.extra) { ph with channelCode := channel }
  match t with
  | none => .ok (none, s)
  | some t =>
    match filter e.wf t filterStr resampleFreq with
    | none => .ok (none, s)
    | some t => do
      let t ← sliced t tw
      .ok (t, s)

/-- waveform.cpp:340-400 `BasicProcessor::get`, with a loader that has a state -/
def processM {σ : Type} (e : Env) (load : σ → TimeWindow → Phase ℝ → Outcome (Option (Trace ℝ) × σ)) (s : σ) (r : Request) :
    Outcome (Option (Trace ℝ) × σ) :=
  match r.trans with
  | Transform.none => loadAndProcessM e load s r.tw r.ph r.ph.channelCode r.filterStr r.resampleFreq
  | kind =>
    match e.components r.ph with
    | none => .ok (none, s)
    | some (names, tc) =>
      match kind with
      | .l2 => do
        let (h1, s) ← loadAndProcessM e load s r.tw r.ph (names 1) r.filterStr r.resampleFreq
        let (h2, s) ← loadAndProcessM e load s r.tw r.ph (names 2) r.filterStr r.resampleFreq
        match h1, h2 with
        | some h1, some h2 => do
          let t ← transformL2 h1 h2
          .ok (t, s)
        | _, _ => .ok (none, s)
      | other => do
        let (v, s) ← loadAndProcessM e load s r.tw r.ph (names 0) r.filterStr r.resampleFreq
        let (h1, s) ← loadAndProcessM e load s r.tw r.ph (names 1) r.filterStr r.resampleFreq
        let (h2, s) ← loadAndProcessM e load s r.tw r.ph (names 2) r.filterStr r.resampleFreq
        match v, h1, h2 with
        | some v, some h1, some h2 => do
          let t ← transformRT tc (stationAzimuth r.ev.latitude r.ev.longitude r.sta.latitude r.sta.longitude) v h1 h2 other
          .ok (t, s)
        | _, _, _ => .ok (none, s)

/-- waveform.cpp:461-494: a request to `memCache`, which asks `basicProc` for what it does not know -/
def request (e : Env) (st : State) (r : Request) (effect : List Char → Written) : Outcome (Option (Trace ℝ) × State) :=
  if (st.mem.get r.id none).2.2 then do
    let (t, fs) ← processM e (loadChain e st.chain effect) st.files r
    .ok ((st.mem.get r.id t).1, { st with mem := (st.mem.get r.id t).2.1, files := fs })
  else .ok ((st.mem.get r.id none).1, st)

/-! ## filling the disk cache -/

/-- dd.cpp:243-303: the events, one after the other; `fails` tells for which one the data centre throws (:273), before any of
its files is written.  The second result is false when an exception leaves the loop. -/
def fillEvents (s : Preload.Settings) (cat : Catalog ℝ) (fails : Nat → Bool) : List (Event ℝ) → Files → Outcome (Files × Bool)
  | [], fs => .ok (fs, true)
  | ev :: evs, fs =>
    if fails ev.id then .ok (fs, false)
    else match Preload.event s cat ⟨fs, []⟩ ev with
      | .ok st => fillEvents s cat fails evs st.files
      | .throws => .ok (fs, false)
      | .ub => .ub

/-- dd.cpp:223-312 `loadCatalogWaveformDiskCache`: the second result is false when it throws -/
def preload (d : Device) (st : State) (o : Options) (effect : Nat → List Char → Written) (fails : Nat → Bool) :
    Outcome (State × Bool) :=
  if !st.useCache then .ok (st, true)
  else if d.cat.eventsSorted = [] then do
    let st ← replaceLoader st .basic
    .ok (st, true)
  else
    match st.chain with
    | .direct _ => .ub
    | .cached dir half _ =>
      let s : Preload.Settings := ⟨o, d.cat.stations, d.e, half, half, d.order, d.source, effect⟩
      do
      let (fs, ended) ← fillEvents s d.cat fails (d.cat.eventsSorted.map (·.2)) (st.files dir)
      let st := { st with files := Function.update st.files dir fs }
      if ended then do
        let st ← replaceLoader st .basic
        .ok (st, true)
      else do
        let st ← replaceLoader st .waiting
        .ok (st, false)

/-! ## calls -/

/-- the public calls (dd.h:153-168), and a request for a waveform of the catalog made while correlating -/
inductive Op where
  | enable (dir : String) (half : Int) (available : Bool)
  | disable
  | unload
  | preload (o : Options) (effect : Nat → List Char → Written) (fails : Nat → Bool)
  | request (r : Request) (effect : List Char → Written)

/-- what a call returns -/
inductive Reply where
  | done
  | exception
  | waveform (t : Option (Trace ℝ))

/-- dd.cpp:146-167, :206, :223-312 and waveform.cpp:461-494 -/
def step (d : Device) (st : State) : Op → Outcome (State × Reply)
  | .enable dir half available =>
    let (st, ended) := enable st dir half available
    .ok (st, if ended then .done else .exception)
  | .disable => .ok (disable st, .done)
  | .unload => .ok (initAccess st, .done)
  | .preload o effect fails => do
    let (st, ended) ← preload d st o effect fails
    .ok (st, if ended then .done else .exception)
  | .request r effect => do
    let (t, st) ← request d.e st r effect
    .ok (st, .waveform t)

/-- a sequence of calls, whatever they return -/
def run (d : Device) (st : State) : List Op → Outcome (State × List Reply)
  | [] => .ok (st, [])
  | o :: os => do
    let (st, r) ← step d st o
    let (st, rs) ← run d st os
    .ok (st, r :: rs)

end
end Verif.WfAccess
