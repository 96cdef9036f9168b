import Verif.Spec.Correlation
import Verif.Spec.FittedData
import Verif.Spec.LagShift

/-!
# What a differential time obtained from waveforms is (specification of C124)

Times are in microseconds, except in observations, which are in seconds.
-/

namespace Verif.LagSpec
open Verif Verif.Catalog Verif.Relocate Verif.CorrelationSpec

/-- Every waveform obtained is cut to the window asked for (C123d, C123e), and the maximum lag is a number of its samples that fits. -/
def Delivers (o : Access.Options) (late : ℚ) (wf : Waveform.Request → Outcome (Option (Trace ℝ))) : Prop :=
  ∀ r tr, wf r = .ok (some tr) → tr.data ≠ [] ∧ 0 < tr.freq ∧ Cut tr late r.tw ∧
    ∀ t cfg, o.phase t = some cfg → cfg.win.maxDelay * tr.freq < 2147483648

/-- The catalog the waveforms are correlated with: no pick is before its origin, no event has two different picks of the same phase at
the same station, and picks of the same phase are of the same kind (P or S). -/
structure Picked (cat : Catalog ℝ) : Prop where
  after : ∀ k ev, cat.events.find? k = some ev → ∀ p ∈ cat.phasesOf k, ev.time ≤ p.time
  one : FittedData.OnePick cat
  kind : ∀ k k', ∀ p ∈ cat.phasesOf k, ∀ p' ∈ cat.phasesOf k', p.type = p'.type → p.procType = p'.procType

/-- The catalog of an iteration has the events moved, but no pick that was not there before. -/
def SamePicks (cat cur : Catalog ℝ) : Prop :=
  ∀ k sp p, IsPick cur k sp p → ∃ p0, IsPick cat k sp p0 ∧ p0.time = p.time

/-- The waveforms of the two picks of an observation on one component; which of them is cut to the window of the reference event
(`wf1`) depends on which of the two events was the first one to be correlated. -/
def Waveforms (o : Access.Options) (stations : AMap String (Station ℝ)) (wf1 wf2 : Waveform.Request → Outcome (Option (Trace ℝ)))
    (ev1 : Event ℝ) (pick1 : Phase ℝ) (ev2 : Event ℝ) (pick2 : Phase ℝ) (tr1 tr2 : Trace ℝ) : Prop :=
  ∃ c, (Recorded o stations wf1 ev1 pick1 c tr1 ∧ Recorded o stations wf2 ev2 pick2 c tr2) ∨
    (Recorded o stations wf2 ev1 pick1 c tr1 ∧ Recorded o stations wf1 ev2 pick2 c tr2)

/-- The observation is, up to the error `err`, the time from the origin of its first event to a part of a waveform less the time from
the origin of its second event to a part of a waveform that was compared with it. -/
structure MeasuredOn (o : Access.Options) (stations : AMap String (Station ℝ))
    (wf1 wf2 : Waveform.Request → Outcome (Option (Trace ℝ))) (late : ℚ) (cat : Catalog ℝ) (refEv ev : Event ℝ) (sp : StaPhase)
    (x : ObsArg ℝ) : Prop where
  shown : ∃ ev1 pick1 ev2 pick2 cfg tr1 tr2 i1 i2 n k,
    cat.events.find? refEv.id = some ev1 ∧ IsPick cat refEv.id sp pick1 ∧ cat.events.find? ev.id = some ev2 ∧ IsPick cat ev.id sp pick2 ∧
    o.phase pick1.procType = some cfg ∧ Waveforms o stations wf1 wf2 ev1 pick1 ev2 pick2 tr1 tr2 ∧ Compared tr1 tr2 i1 i2 n k ∧
    |x.timeDiff * 1000000 - ((((timeOf tr1 i1 - refEv.time) - (timeOf tr2 i2 - ev.time) : ℚ)) : ℝ) -
        ((bias cfg.win (((pick2.time : ℚ) - ev2.time) - (pick1.time - ev1.time)) : ℚ) : ℝ)| ≤
      (((3 / 2 + late / 2) * step tr1 + 8 : ℚ) : ℝ)

end Verif.LagSpec
