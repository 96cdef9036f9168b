import Verif.Model.XCorr
import Verif.Spec.XCorr

/-!
# When the lag of a correlation is a shift in time (C123)

Times are in microseconds.
-/

namespace Verif.LagSpec
open Verif Verif.XCorr.Spec

/-- the time of sample `i` of a waveform -/
def timeOf (t : Trace ℝ) (i : ℚ) : ℚ := t.stime + i / t.freq * 1000000

/-- the time from one sample to the next -/
def step (t : Trace ℝ) : ℚ := 1000000 / t.freq

/-- The waveform is cut to a window of time: it covers the window, or ends at most `late` samples before it, and its first and last
samples are the only ones outside; all this to within two microseconds. -/
structure Cut (t : Trace ℝ) (late : ℚ) (w : TimeWindow) : Prop where
  starts : t.stime ≤ w.startTime
  tightly : (w.startTime : ℚ) < timeOf t 1 + 2
  ends : (w.endTime : ℚ) ≤ timeOf t ((t.data.length : ℚ) - 1) + late * step t + 2
  tightlyEnds : timeOf t ((t.data.length : ℚ) - 2) < w.endTime + 2

/-- `k` is the correlation coefficient of the `n` samples from `i1` on in the first waveform with those from `i2` on in the
second. -/
structure Compared (tr1 tr2 : Trace ℝ) (i1 i2 n : ℕ) (k : ℝ) : Prop where
  some : 0 < n
  in1 : i1 + n ≤ tr1.data.length
  in2 : i2 + n ≤ tr2.data.length
  coeff : k = pearson (window tr1.data i1 n) (window tr2.data i2 n)

/-- by how much later after its pick sample `i2` of the second waveform is than sample `i1` of the first one -/
def shift (tr1 : Trace ℝ) (pick1 : Int) (i1 : ℕ) (tr2 : Trace ℝ) (pick2 : Int) (i2 : ℕ) : ℚ :=
  (timeOf tr2 i2 - pick2) - (timeOf tr1 i1 - pick1)

/-- where the middle of a window is, relative to the pick -/
def centre (w : TimeWindow) (pick : Int) : ℚ := ((w.startTime : ℚ) + w.endTime) / 2 - pick

/-- Settings for the correlation that make sense: a window that does not end before it starts, given to the microsecond, not
shortened with the distance, and a maximum lag that is not negative. -/
def Settings (c : XCorr.Config) : Prop :=
  ∃ a b : Int, c.startOffset * 1000000 = a ∧ c.endOffset * 1000000 = b ∧ a < b ∧ 0 ≤ c.winScaling ∧ 0 ≤ c.maxDelay

/-- by how much a window lengthened in proportion to the travel time moves its middle, for so much more of travel time -/
def bias (c : XCorr.Config) (moreTravelTime : ℚ) : ℚ :=
  (c.startOffset + c.endOffset) / 2 / (c.endOffset - c.startOffset) * c.winScaling * moreTravelTime

end Verif.LagSpec
