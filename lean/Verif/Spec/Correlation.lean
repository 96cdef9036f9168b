import Verif.Model.Access

/-!
# What the correlation of two picks is (C94)

Only the data types of the model, the time windows of a pick (C65), the cutting of a trace (C33) and the correlation of
two traces (C35, C36) are used.
-/

namespace Verif.CorrelationSpec
open Verif.Catalog Verif.Access

/-- a pick that can be relied on: of the catalog, or made by hand -/
def Reliable (pick : Phase ℝ) : Prop := pick.source = .catalog ∨ pick.source = .rtEventManual

/-- the waveform and the channel a component is obtained with -/
def Obtains (pick : Phase ℝ) (c : String) (kind : Waveform.Transform) (cha : String) : Prop :=
  (c = "T" ∧ kind = .transversal ∧ cha = pick.channelCode) ∨
  (c = "R" ∧ kind = .radial ∧ cha = pick.channelCode) ∨
  (c = "L2" ∧ kind = .l2 ∧ cha = pick.channelCode) ∨
  (c ≠ "T" ∧ c ≠ "R" ∧ c ≠ "L2" ∧ c ≠ "" ∧ kind = .none ∧
    cha = (if 2 ≤ pick.channelCode.toList.length then String.ofList (pick.channelCode.toList.take 2) else "") ++ c)

/-- the waveform of a component of a pick, for the correlation window extended by the maximum lag -/
def Recorded (o : Options) (stations : AMap String (Station ℝ)) (wf : Waveform.Request → Outcome (Option (Trace ℝ)))
    (ev : Event ℝ) (pick : Phase ℝ) (c : String) (tr : Trace ℝ) : Prop :=
  ∃ cfg w sta kind cha, o.phase pick.procType = some cfg ∧ XCorr.windowLong cfg.win ev.time pick.time = some w ∧
    stations.find? pick.stationId = some sta ∧ Obtains pick c kind cha ∧
    wf ⟨w, { pick with channelCode := cha }, ev, sta, o.filterStr, o.resampleFreq, kind⟩ = .ok (some tr)

/-- the waveform cut to the correlation window -/
def CutTo (cfg : XCorr.Config) (ev : Event ℝ) (pick : Phase ℝ) (tr short : Trace ℝ) : Prop :=
  ∃ w, XCorr.windowShort cfg ev.time pick.time = some w ∧ tr.slice w = some (true, short)

/-- The lag and the coefficient for two waveforms of the same sampling rate.  The window of the reliable pick is searched in the
longer waveform of the other.  If both or none are reliable both are searched, and the result with the larger
coefficient counts, the one found with the window of the second pick if they are equally large.  `cfg` and `cfg2` are the
settings for the types of the picks. -/
inductive Matches (cfg cfg2 : XCorr.Config) (ev1 : Event ℝ) (pick1 : Phase ℝ) (ev2 : Event ℝ) (pick2 : Phase ℝ) (tr1 tr2 : Trace ℝ) :
    ℚ → ℝ → Prop
  | second {short : Trace ℝ} {lag : ℚ} {k : ℝ} (h1 : ¬Reliable pick1) (h2 : Reliable pick2) (hs : CutTo cfg2 ev2 pick2 tr2 short)
      (hx : XCorr.xcorr tr1 short cfg.maxDelay 0 = .ok (lag, .num k)) : Matches cfg cfg2 ev1 pick1 ev2 pick2 tr1 tr2 lag k
  | first {short : Trace ℝ} {lag : ℚ} {k : ℝ} (h1 : Reliable pick1) (h2 : ¬Reliable pick2) (hs : CutTo cfg ev1 pick1 tr1 short)
      (hx : XCorr.xcorr short tr2 cfg.maxDelay 0 = .ok (lag, .num k)) : Matches cfg cfg2 ev1 pick1 ev2 pick2 tr1 tr2 lag k
  | bothSecond {s1 s2 : Trace ℝ} {lag lag' : ℚ} {k : ℝ} {k' : Fl ℝ} (h : Reliable pick1 ↔ Reliable pick2)
      (hs1 : CutTo cfg ev1 pick1 tr1 s1) (hs2 : CutTo cfg2 ev2 pick2 tr2 s2)
      (hx2 : XCorr.xcorr tr1 s2 cfg.maxDelay 0 = .ok (lag, .num k))
      (hx1 : XCorr.xcorr s1 tr2 cfg.maxDelay 0 = .ok (lag', k')) (hmax : ∀ q, k' = .num q → |q| ≤ |k|) :
      Matches cfg cfg2 ev1 pick1 ev2 pick2 tr1 tr2 lag k
  | bothFirst {s1 s2 : Trace ℝ} {lag lag' : ℚ} {k : ℝ} {k' : Fl ℝ} (h : Reliable pick1 ↔ Reliable pick2)
      (hs1 : CutTo cfg ev1 pick1 tr1 s1) (hs2 : CutTo cfg2 ev2 pick2 tr2 s2)
      (hx2 : XCorr.xcorr tr1 s2 cfg.maxDelay 0 = .ok (lag', k'))
      (hx1 : XCorr.xcorr s1 tr2 cfg.maxDelay 0 = .ok (lag, .num k)) (hmax : ∀ q, k' = .num q → |q| < |k|) :
      Matches cfg cfg2 ev1 pick1 ev2 pick2 tr1 tr2 lag k

/-- the two picks correlate on a component -/
def Correlates (o : Options) (stations : AMap String (Station ℝ)) (wf1 wf2 : Waveform.Request → Outcome (Option (Trace ℝ)))
    (ev1 : Event ℝ) (pick1 : Phase ℝ) (ev2 : Event ℝ) (pick2 : Phase ℝ) (c : String) (lag : ℚ) (k : ℝ) : Prop :=
  ∃ cfg cfg2 tr1 tr2, o.phase pick1.procType = some cfg ∧ o.phase pick2.procType = some cfg2 ∧ Recorded o stations wf1 ev1 pick1 c tr1 ∧
    Recorded o stations wf2 ev2 pick2 c tr2 ∧ tr1.freq = tr2.freq ∧ Matches cfg.win cfg2.win ev1 pick1 ev2 pick2 tr1 tr2 lag k

/-- the components to try for a pick, in order: those configured or, if there are none, that of its channel -/
def Tried (o : Options) (pick : Phase ℝ) (cs : List String) : Prop :=
  ∃ cfg, o.phase pick.procType = some cfg ∧
    ((cfg.components ≠ [] ∧ cfg.components ≠ [""] ∧ cs = cfg.components) ∨
     ((cfg.components = [] ∨ cfg.components = [""]) ∧
        cs = [if pick.channelCode.toList.length = 3 then String.ofList (pick.channelCode.toList.drop 2) else ""]))

/-- the first two letters of a channel of at least two -/
def sensor (channel : String) : List Char := if 2 ≤ channel.toList.length then channel.toList.take 2 else []

/-- The result for two picks: they are of the same phase and on sensors of the same kind, and `c` is the first
component on which they correlate. -/
def Result (o : Options) (stations : AMap String (Station ℝ)) (wf1 wf2 : Waveform.Request → Outcome (Option (Trace ℝ)))
    (ev1 : Event ℝ) (pick1 : Phase ℝ) (ev2 : Event ℝ) (pick2 : Phase ℝ) (c : String) (lag : ℚ) (k : ℝ) : Prop :=
  pick1.type = pick2.type ∧ sensor pick1.channelCode = sensor pick2.channelCode ∧
  ∃ cs before after, Tried o pick1 cs ∧ cs = before ++ c :: after ∧
    (∀ c' ∈ before, ∀ lag' k', ¬Correlates o stations wf1 wf2 ev1 pick1 ev2 pick2 c' lag' k') ∧
    Correlates o stations wf1 wf2 ev1 pick1 ev2 pick2 c lag k

end Verif.CorrelationSpec
