import Verif.Model.DumpWaveforms
import Verif.Spec.WaveformAccess
import Verif.Spec.Correlation

/-!
# What is dumped (C106)

The words `Component`, `Obtains` and `Works` are those of C88, C94 and C104.
-/

namespace Verif.DumpSpec
open Verif.Catalog Verif.Waveform Verif.Access Verif.AccessSpec Verif.PreloadSpec Verif.WfAccess Verif.CorrelationSpec

/-- what is asked for a component of a pick: the waveform in the correlation window, without the maximum lag -/
def ShortRequest (d : Device) (o : Options) (ev : Event ℝ) (pick : Phase ℝ) (c : String) (r : Request) : Prop :=
  ∃ cfg w sta kind cha, o.phase pick.procType = some cfg ∧ XCorr.windowShort cfg.win ev.time pick.time = some w ∧
    d.cat.stations.find? pick.stationId = some sta ∧ Obtains pick c kind cha ∧
    r = ⟨w, { pick with channelCode := cha }, ev, sta, o.filterStr, o.resampleFreq, kind⟩

/-- a component to dump -/
def Selected (d : Device) (o : Options) (ev : Event ℝ) (pick : Phase ℝ) (c : String) : Prop :=
  ev ∈ events d.cat ∧ pick ∈ d.cat.phasesOf ev.id ∧ pick.procType ≠ .NO ∧ Component o pick c

/-- the waveform of a component, as the data centre has it -/
def Shows (d : Device) (o : Options) (ev : Event ℝ) (pick : Phase ℝ) (c : String) (t : Trace ℝ) : Prop :=
  ∃ r, ShortRequest d o ev pick c r ∧ process d.e r = .ok (some t)

/-- the first two letters of a channel, if there are two -/
def firstTwo (channel : String) : String := if 2 ≤ channel.toList.length then String.ofList (channel.toList.take 2) else ""

/-- the file of a component of a pick -/
def file (ev : Event ℝ) (pick : Phase ℝ) (c : String) : String :=
  "ev" ++ toString ev.id ++ "." ++ pick.networkCode ++ "." ++ pick.stationCode ++ "." ++ pick.locationCode ++ "." ++
    (firstTwo pick.channelCode ++ c) ++ "." ++ pick.type ++ ".mseed"

/-- no two different waveforms have the same file -/
def NoClash (d : Device) (o : Options) : Prop :=
  ∀ ev pick c t ev' pick' c' t', Selected d o ev pick c → Shows d o ev pick c t → Selected d o ev' pick' c' → Shows d o ev' pick' c' t' →
    file ev pick c = file ev' pick' c' → t = t'

/-- The settings are made for every pick, and every waveform can be processed. -/
structure Ready (d : Device) (o : Options) : Prop where
  stations : ∀ ev ∈ events d.cat, ∀ pick ∈ d.cat.phasesOf ev.id, (d.cat.stations.find? pick.stationId).isSome = true
  windows : ∀ ev ∈ events d.cat, ∀ pick ∈ d.cat.phasesOf ev.id, pick.procType ≠ .NO →
    ∃ cfg w, o.phase pick.procType = some cfg ∧ XCorr.windowShort cfg.win ev.time pick.time = some w
  process : ∀ ev pick c r, Selected d o ev pick c → ShortRequest d o ev pick c r → ∃ t, process d.e r = .ok t

/-- the codes in the file name have no dots -/
def Codes (pick : Phase ℝ) (c : String) : Prop :=
  '.' ∉ pick.networkCode.toList ∧ '.' ∉ pick.stationCode.toList ∧ '.' ∉ pick.locationCode.toList ∧
  '.' ∉ pick.channelCode.toList ∧ '.' ∉ pick.type.toList ∧ '.' ∉ c.toList

end Verif.DumpSpec
