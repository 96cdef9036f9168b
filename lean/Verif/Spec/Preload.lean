import Verif.Spec.Access
import Verif.Spec.Waveform
import Verif.Model.Preload

/-!
# Which waveforms of the catalog belong into the disk cache (C95)

The words of the property; the window that is loaded for a pick (C40, C65) and the name of a cache file (C38) are those of
the model.
-/

namespace Verif.PreloadSpec
open Verif.Catalog Verif.Access Verif.AccessSpec Verif.Preload

/-- A waveform of the catalog: a channel of a component of a P or S pick of the event, for the correlation window extended by
the maximum lag, by what the filter needs, and to the minimum length of a cached trace.  `rec` is the pick on that
channel. -/
structure Wanted (s : Settings) (cat : Catalog ℝ) (ev : Event ℝ) (rec : Phase ℝ) (w : TimeWindow) : Prop where
  wanted : ∃ pick ∈ cat.phasesOf ev.id, pick.procType ≠ .NO ∧ ∃ c, Component s.o pick c ∧ ∃ cha, Channel s.e.components pick c cha ∧
    rec = { pick with channelCode := cha } ∧ ∃ cfg w0, s.o.phase pick.procType = some cfg ∧
      XCorr.windowLong cfg.win ev.time pick.time = some w0 ∧
      Waveform.windowToLoad s.before s.after (w0.extend s.e.extra s.e.extra) pick.time = .ok w

/-- the readable content of a cache file -/
def Cached (fs : Files) (w : TimeWindow) (rec : Phase ℝ) (t : Trace ℝ) : Prop :=
  fs.find? (Waveform.phaseId w rec) = some (.readable t)

/-- the stream of a channel -/
def stream (rec : Phase ℝ) : String :=
  rec.networkCode ++ "." ++ rec.stationCode ++ "." ++ rec.locationCode ++ "." ++ rec.channelCode

/-- the window and the codes of the stream can be told from the name of the file (C38): codes without dots, years 1970–9999 -/
def Plain (rec : Phase ℝ) (w : TimeWindow) : Prop := Waveform.PlainPhase rec ∧ Waveform.PlainWindow w

/-- the stations of the picks of the event are known -/
def Known (s : Settings) (cat : Catalog ℝ) (ev : Event ℝ) : Prop :=
  ∀ pick ∈ cat.phasesOf ev.id, (s.stations.find? pick.stationId).isSome = true

/-- the data centre is consistent on the waveforms of the event -/
def ConsistentFor (srv : String → TimeWindow → Option (Trace ℝ)) (s : Settings) (cat : Catalog ℝ) (ev : Event ℝ) : Prop :=
  ∀ reqs : List (String × TimeWindow), (∀ y ∈ reqs, ∃ rec w, Wanted s cat ev rec w ∧ y = (stream rec, w)) → Consistent srv reqs

/-- the events of the catalog -/
def events (cat : Catalog ℝ) : List (Event ℝ) := cat.eventsSorted.map (·.2)

end Verif.PreloadSpec
