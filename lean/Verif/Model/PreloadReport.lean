import Verif.Model.Preload

/-!
# Model of what is reported after filling the disk cache

libs/hdd/dd.cpp:47-86 and :239-311: the numbers of waveforms downloaded, not available and loaded from the disk cache that are
logged at the end.

The passes over the catalog are those of `Verif.Preload` with the counters of the loaders (waveform.h:207-208, :266) added.
The counters are natural numbers; `unsigned` would wrap around.
-/

namespace Verif.Preload
open Verif.Catalog Verif.Waveform Verif.Access
noncomputable section

/-- dd.cpp:47-51 `WfCounters` -/
structure Counters where
  downloaded : Nat
  noAvail : Nat
  cached : Nat
deriving DecidableEq

/-- waveform.cpp:232-273 with a batch loader that has not loaded; `_counters_wf_cached` is counted at :259 -/
def askC (s : Settings) (fs : Files) (b : Batch ℝ × Nat) (x : TimeWindow × Phase ℝ) : Outcome (Batch ℝ × Nat) := do
  let w ← windowToLoad s.before s.after x.1 x.2.time
  match fromCache fs (phaseId w x.2) with
  | some _ => .ok (b.1, b.2 + 1)
  | none => do
    let b' ← b.1.request w (streamId x.2)
    .ok (b', b.2)

/-- waveform.cpp:232-273 with a batch loader that has loaded; `_counters_wf_cached` is counted at :259 -/
def keepC (s : Settings) (ev : Nat) (b : Batch ℝ) (fs : Files × Nat) (x : TimeWindow × Phase ℝ) : Outcome (Files × Nat) := do
  let w ← windowToLoad s.before s.after x.1 x.2.time
  match fromCache fs.1 (phaseId w x.2) with
  | some _ => .ok (fs.1, fs.2 + 1)
  | none => do
    let r ← b.get s.order w (streamId x.2)
    .ok ((diskGet fs.1 w x.2 r.1 (s.effect ev (phaseId w x.2))).2.1, fs.2)

/-- dd.cpp:66-75: the counters of a batch loader are added to those of the report -/
def Counters.update (c : Counters) (b : Batch ℝ) : Counters :=
  { c with downloaded := c.downloaded + b.downloaded, noAvail := c.noAvail + b.noAvail }

/-- dd.cpp:243-291: one event.  `cached` is here the counter of the disk cache, which is added to the report at the end. -/
def eventC (s : Settings) (cat : Catalog ℝ) (st : State × Counters) (ev : Event ℝ) : Outcome (State × Counters) := do
  let ls ← concatM (pickLoads s ev) (cat.phasesOf ev.id)
  let b ← ls.foldlM (askC s st.1.files) (Batch.init, st.2.cached)
  let l := b.1.load s.source
  let fs ← ls.foldlM (keepC s ev.id l.1) (st.1.files, b.2)
  .ok (⟨fs.1, st.1.downloads ++ l.2.toList⟩, { st.2.update l.1 with cached := fs.2 })

/-- dd.cpp:223-312 `loadCatalogWaveformDiskCache` with the numbers that it logs.  `leftover` is what the counter of the disk cache
holds when the call begins: it is set to zero when it is reported (:78-85), not when loading starts. -/
def catalogC (s : Settings) (cat : Catalog ℝ) (fs : Files) (leftover : Nat) : Outcome (State × Counters) :=
  (cat.eventsSorted.map (·.2)).foldlM (eventC s cat) (⟨fs, []⟩, ⟨0, 0, leftover⟩)

end
end Verif.Preload
