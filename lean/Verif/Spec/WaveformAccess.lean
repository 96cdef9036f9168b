import Verif.Model.WaveformAccess
import Verif.Spec.Preload

/-!
# Calls that do not change the waveforms (C104)

What is asked of the data centre, of the files found in the cache directories and of the calls; the words `Plain`, `Wanted`,
`Known` and `ConsistentFor` are those of C95, `PlainRequest`, `SameWaveform` and `SameProcessing` those of C37.
-/

namespace Verif.WfAccessSpec
open Verif.Catalog Verif.Waveform Verif.Access Verif.AccessSpec Verif.PreloadSpec Verif.WfAccess

/-- what the cache files contain is what the data centre has -/
def Honest (e : Env) (fs : Files) : Prop :=
  ∀ (w : TimeWindow) (rec : Phase ℝ) (t : Trace ℝ), Plain rec w → Cached fs w rec t → e.load w rec = some t

/-- The data centre has a waveform exactly if it has the longer one that is kept in a cache for traces of at least twice
`half`, and that one, cut to the shorter window, has the same samples. -/
def KeepsLonger (e : Env) (half : Int) (tw : TimeWindow) (rec : Phase ℝ) : Prop :=
  ∀ w, windowToLoad half half tw rec.time = .ok w → Plain rec w ∧
    match e.load w rec with
    | none => e.load tw rec = none
    | some t => (if w = tw then .ok (some t) else sliced t tw) = .ok (e.load tw rec)

/-- a write that was not cut off in the middle, leaving a shorter trace that can be read -/
def NotCut : Written → Prop
  | .truncated _ => False
  | _ => True

/-- the requests among the calls -/
def requests : List Op → List Request
  | [] => []
  | .request r _ :: os => r :: requests os
  | _ :: os => requests os

/-- the lengths for which a disk cache is switched on -/
def lengths : List Op → List Int
  | [] => []
  | .enable _ half _ :: os => half :: lengths os
  | _ :: os => lengths os

/-- The data centre that answers for many waveforms at once is the one that answers for a single one. -/
def SameCentre (d : Device) (srv : String → TimeWindow → Option (Trace ℝ)) : Prop :=
  d.source = answers srv ∧ (∀ l, (d.order l).Perm l) ∧ ∀ (rec : Phase ℝ) (w : TimeWindow), d.e.load w rec = srv (stream rec) w

/-- the settings of C95 for filling a cache with traces of at least twice `half` -/
noncomputable def settings (d : Device) (o : Options) (effect : Nat → List Char → Written) (half : Int) : Preload.Settings :=
  ⟨o, d.cat.stations, d.e, half, half, d.order, d.source, effect⟩

/-- A call that does its work: the cache directory is there or can be created; the cache is filled with settings for every
pick, from a consistent data centre that does not fail; no file is cut off while it is written. -/
def Works (d : Device) (srv : String → TimeWindow → Option (Trace ℝ)) (halves : List Int) : Op → Prop
  | .enable _ _ available => available = true
  | .disable => True
  | .unload => True
  | .preload o effect fails => (∀ n, fails n = false) ∧ (∀ n p, NotCut (effect n p)) ∧
      ∀ half ∈ halves, ∀ ev ∈ events d.cat, Known (settings d o effect half) d.cat ev ∧
        ConsistentFor srv (settings d o effect half) d.cat ev ∧
        (∀ rec w, Wanted (settings d o effect half) d.cat ev rec w → Plain rec w) ∧
        ∀ pick ∈ d.cat.phasesOf ev.id, pick.procType ≠ .NO →
          ∃ cfg w, o.phase pick.procType = some cfg ∧ XCorr.windowLong cfg.win ev.time pick.time = some w
  | .request _ effect => ∀ p, NotCut (effect p)

/-- The same waveform is always asked for with the same filter, sampling and, for rotated components, positions (C37). -/
def OneProcessing (rs : List Request) : Prop :=
  (∀ r ∈ rs, PlainRequest r) ∧ ∀ r ∈ rs, ∀ s ∈ rs, SameWaveform r s → SameProcessing r s

/-- what a call returns if all goes well: a waveform where one was asked for, and no exception -/
def answer (f : Request → Option (Trace ℝ)) : Op → Reply
  | .request r _ => .waveform (f r)
  | _ => .done

end Verif.WfAccessSpec
