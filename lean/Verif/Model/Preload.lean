import Verif.Model.Access

/-!
# Model of filling the disk cache with the waveforms of the catalog

libs/hdd/dd.cpp:223-312 with :146-206: the waveforms of every pick of the catalog are asked for twice, first to collect what
has to be downloaded and then, after one download per event, to write it into the disk cache.

Simplifications: the loads made for a pick (`pickLoads`) are the same both times.  What the processor makes of the waveforms
is thrown away in the code and left out here.  The disk cache is enabled (otherwise nothing is done); when a call throws, what
was written before is not followed up.  The log messages are left out; the counters are in `Model/PreloadReport.lean`.
-/

namespace Verif.Preload
open Verif.Catalog Verif.Waveform Verif.Access
noncomputable section

/-- the cache files -/
abbrev Files := AMap (List Char) (File ℝ)

/-- The settings: `o` and `stations` are those of the cross-correlation, `e` has the names of the components and the extra
length (its `load` is not used), `before` and `after` are half of `diskTraceMinLen` in microseconds (waveform.h:220-229), `order`
is the order of the traces of a stream, `source` is `Proxy::loadTraces`, and `effect` says what happens when a file is
written for an event -/
structure Settings where
  o : Options
  stations : AMap String (Station ℝ)
  e : Env
  before : Int
  after : Int
  order : List (Trace ℝ) → List (Trace ℝ)
  source : List (String × TimeWindow) → List (Batch.Reply ℝ)
  effect : Nat → List Char → Written

/-- dd.cpp:263-267, :282-288: the loads made by the processor for one component -/
def componentLoads (s : Settings) (tw : TimeWindow) (ev : Event ℝ) (ph : Phase ℝ) (component : String) :
    Outcome (List (TimeWindow × Phase ℝ)) := do
  match (← waveformRequest s.o s.stations tw ev ph component) with
  | none => .ok []
  | some r => .ok (loads s.e r)

/-- a list of lists, one after the other -/
def concatM {A B : Type} (f : A → Outcome (List B)) : List A → Outcome (List B)
  | [] => .ok []
  | a :: as => do
    let x ← f a
    let xs ← concatM f as
    .ok (x ++ xs)

/-- dd.cpp:258-267, :277-288: one pick -/
def pickLoads (s : Settings) (ev : Event ℝ) (ph : Phase ℝ) : Outcome (List (TimeWindow × Phase ℝ)) :=
  if ph.procType = .NO then .ok []
  else do
    let tw ← longWindow s.o ev ph
    let cs ← components s.o ph
    concatM (componentLoads s tw ev ph) cs

/-- waveform.cpp:232-273 with a batch loader that has not loaded (waveform.cpp:122-129): a waveform that is not in the cache is
noted -/
def ask (s : Settings) (fs : Files) (b : Batch ℝ) (x : TimeWindow × Phase ℝ) : Outcome (Batch ℝ) := do
  let w ← windowToLoad s.before s.after x.1 x.2.time
  if (diskGet fs w x.2 none .complete).2.2 then b.request w (streamId x.2) else .ok b

/-- waveform.cpp:232-273 with a batch loader that has loaded: a waveform that is not in the cache is written -/
def keep (s : Settings) (ev : Nat) (b : Batch ℝ) (fs : Files) (x : TimeWindow × Phase ℝ) : Outcome Files := do
  let w ← windowToLoad s.before s.after x.1 x.2.time
  match fromCache fs (phaseId w x.2) with
  | some _ => .ok fs
  | none => do
    let r ← b.get s.order w (streamId x.2)
    .ok (diskGet fs w x.2 r.1 (s.effect ev (phaseId w x.2))).2.1

/-- the files and the downloads so far -/
structure State where
  files : Files
  downloads : List (List (String × TimeWindow))

/-- dd.cpp:243-289: one event -/
def event (s : Settings) (cat : Catalog ℝ) (st : State) (ev : Event ℝ) : Outcome State := do
  let ls ← concatM (pickLoads s ev) (cat.phasesOf ev.id)
  let b ← ls.foldlM (ask s st.files) Batch.init
  let fs ← ls.foldlM (keep s ev.id (b.load s.source).1) st.files
  .ok ⟨fs, st.downloads ++ (b.load s.source).2.toList⟩

/-- dd.cpp:223-312 `loadCatalogWaveformDiskCache` -/
def catalog (s : Settings) (cat : Catalog ℝ) (fs : Files) : Outcome State :=
  (cat.eventsSorted.map (·.2)).foldlM (event s cat) ⟨fs, []⟩

end
end Verif.Preload
