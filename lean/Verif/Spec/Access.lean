import Verif.Model.Access

/-!
# Which waveforms cross-correlation needs (C88)

The words of the property; only the data types of the model and the time window of a pick (C65) are used.
-/

namespace Verif.AccessSpec
open Verif.Catalog Verif.Access

/-- The pick is used: its station is within the configured distances of the event, and some neighbour that is close
enough has a pick of the same phase at the same station. -/
def Used (o : Options) (cat : Catalog ℝ) (nb : Neighbours) (ev : Event ℝ) (pick : Phase ℝ) : Prop :=
  (∃ st, cat.stations.find? pick.stationId = some st ∧ o.minEvStaDist ≤ o.evSta ev st ∧
    (0 ≤ o.maxEvStaDist → o.evSta ev st ≤ o.maxEvStaDist)) ∧
  ∃ n ∈ nb.ids, (∃ other, cat.events.find? n = some other ∧ (0 ≤ o.maxInterEvDist → o.evEv ev other ≤ o.maxInterEvDist)) ∧
    nb.hasPhase n (pick.stationId, pick.type) = true

/-- A component to try for the pick: one of those configured for its type or, if none is configured, that of the channel
on which it was picked (the third of its three letters). -/
def Component (o : Options) (pick : Phase ℝ) (c : String) : Prop :=
  ∃ cfg, o.phase pick.procType = some cfg ∧
    ((cfg.components ≠ [] ∧ cfg.components ≠ [""] ∧ c ∈ cfg.components) ∨
     ((cfg.components = [] ∨ cfg.components = [""]) ∧
        c = if pick.channelCode.toList.length = 3 then String.ofList (pick.channelCode.toList.drop 2) else ""))

/-- A channel that has to be recorded to get a component: all three of the sensor for the transversal and the radial
component, the two horizontal ones for their combination L2, and otherwise the one with the letter of the component.
`sensor` gives the vertical and the two horizontal channels. -/
def Channel (sensor : Phase ℝ → Option ((Fin 3 → String) × Waveform.Components)) (pick : Phase ℝ) (c cha : String) : Prop :=
  ((c = "T" ∨ c = "R") ∧ ∃ names info, sensor pick = some (names, info) ∧ ∃ i, cha = names i) ∨
  (c = "L2" ∧ ∃ names info, sensor pick = some (names, info) ∧ (cha = names 1 ∨ cha = names 2)) ∨
  (c ≠ "T" ∧ c ≠ "R" ∧ c ≠ "L2" ∧ c ≠ "" ∧
    cha = (if 2 ≤ pick.channelCode.toList.length then String.ofList (pick.channelCode.toList.take 2) else "") ++ c)

/-- A waveform needed for the cross-correlations of the event: a channel of a component of a used pick, for the
correlation window extended by the maximum lag, plus what the filter needs before and after it. -/
def Needed (o : Options) (sensor : Phase ℝ → Option ((Fin 3 → String) × Waveform.Components)) (extra : Int)
    (cat : Catalog ℝ) (nb : Neighbours) (ev : Event ℝ) (stream : String) (tw : TimeWindow) : Prop :=
  ∃ pick ∈ cat.phasesOf ev.id, Used o cat nb ev pick ∧ ∃ c, Component o pick c ∧ ∃ cha, Channel sensor pick c cha ∧
    stream = pick.networkCode ++ "." ++ pick.stationCode ++ "." ++ pick.locationCode ++ "." ++ cha ∧
    ∃ cfg w, o.phase pick.procType = some cfg ∧ XCorr.windowLong cfg.win ev.time pick.time = some w ∧
      tw = w.extend extra extra

/-- The data centre: what it has of a stream in a window.  It is consistent on the windows `reqs` if what it delivers for
one of them covers it, and what it delivers for another window of the same stream has, cut to the window, the same
samples. -/
structure Consistent (srv : String → TimeWindow → Option (Trace ℝ)) (reqs : List (String × TimeWindow)) : Prop where
  covers : ∀ s tw t, (s, tw) ∈ reqs → srv s tw = some t → t.timeWindow.contains tw = true
  agree : ∀ s tw tw' t', (s, tw) ∈ reqs → (s, tw') ∈ reqs → srv s tw' = some t' → t'.timeWindow.contains tw = true →
    (if t'.timeWindow = tw then .ok (some t') else Waveform.sliced t' tw) = .ok (srv s tw)

/-- the answers of the data centre to a list of requests -/
def answers (srv : String → TimeWindow → Option (Trace ℝ)) (reqs : List (String × TimeWindow)) : List (Waveform.Batch.Reply ℝ) :=
  reqs.map fun x => match srv x.1 x.2 with
    | some t => .traceLoaded x.1 x.2 t
    | none => .traceFailed x.1 x.2

end Verif.AccessSpec
