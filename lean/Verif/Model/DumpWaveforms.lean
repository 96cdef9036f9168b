import Verif.Model.WaveformAccess

/-!
# Model of dumping the waveforms of the catalog (libs/hdd/dd.cpp:314-376 `dumpWaveforms`)

The directory is there or can be created (:316-322).  The picks of an event are visited in the order of the catalog; their
order in the code is unspecified.  A file that cannot be written is left as it was.  Log messages are left out.
-/

namespace Verif.Dump
open Verif.Catalog Verif.Waveform Verif.Access Verif.WfAccess
noncomputable section

/-- dd.cpp:324-332: the name of the file, without the directory -/
def fileName (ev : Event ℝ) (ph : Phase ℝ) (channel : String) : String :=
  "ev" ++ toString ev.id ++ "." ++ ph.networkCode ++ "." ++ ph.stationCode ++ "." ++ ph.locationCode ++ "." ++ channel ++ "." ++
    ph.type ++ ".mseed"

/-- the files of the disk cache and the files written -/
structure State where
  files : String → Files
  dumped : AMap String (Trace ℝ)

/-- dd.cpp:1453-1470 `xcorrTimeWindowShort` for a pick -/
def shortWindow (o : Options) (ev : Event ℝ) (ph : Phase ℝ) : Outcome TimeWindow :=
  match o.phase ph.procType with
  | none => .throws
  | some c =>
    match XCorr.windowShort c.win ev.time ph.time with
    | none => .ub
    | some tw => .ok tw

/-- dd.cpp:349-373: one component; `effect` says what happens when a cache file is written, `written` whether a file can be -/
def component (d : Device) (o : Options) (chain : Chain) (effect : List Char → Written) (written : String → Bool)
    (tw : TimeWindow) (ev : Event ℝ) (ph : Phase ℝ) (s : State) (c : String) : Outcome State := do
  match (← waveformRequest o d.cat.stations tw ev ph c) with
  | none => .ok s
  | some r => do
    let (t, fs) ← processM d.e (loadChain d.e chain effect) s.files r
    match t with
    | none => .ok { s with files := fs }
    | some t =>
      let name := fileName ev ph (String.ofList (bandAndInstrument ph.channelCode.toList) ++ c)
      .ok ⟨fs, if written name then s.dumped.set name t else s.dumped⟩

/-- dd.cpp:338-374: one pick -/
def dumpPick (d : Device) (o : Options) (chain : Chain) (effect : List Char → Written) (written : String → Bool)
    (ev : Event ℝ) (s : State) (ph : Phase ℝ) : Outcome State :=
  if ph.procType = .NO then .ok s
  else do
    let tw ← shortWindow o ev ph
    let cs ← components o ph
    cs.foldlM (component d o chain effect written tw ev ph) s

/-- dd.cpp:314-376 `dumpWaveforms`; `found` are the files found in the directory -/
def dumpWaveforms (d : Device) (o : Options) (st : WfAccess.State) (effect : List Char → Written) (written : String → Bool)
    (found : AMap String (Trace ℝ)) : Outcome State :=
  (d.cat.eventsSorted.map (·.2)).foldlM (fun s ev => (d.cat.phasesOf ev.id).foldlM (dumpPick d o st.chain effect written ev) s)
    ⟨st.files, found⟩

end
end Verif.Dump
