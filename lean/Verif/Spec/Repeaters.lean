import Verif.Spec.LagShift
import Mathlib.Data.Real.Sign

/-!
# Records of the same signal by different instruments, or of a repeating earthquake (specification of C125)
-/

namespace Verif.RepeaterSpec
open Verif

/-- the samples with another gain and another offset -/
def amplify (gain offset : ℝ) (l : List ℝ) : List ℝ := l.map fun x => gain * x + offset

/-- the waveform with another gain and another offset -/
def amplified (gain offset : ℝ) (t : Trace ℝ) : Trace ℝ := { t with data := amplify gain offset t.data }

/-- the same signal, up to the gain (which can be negative: the polarity of the sensor) and the offset -/
def SameSignal (X Y : List ℝ) : Prop := ∃ gain offset, gain ≠ 0 ∧ Y = amplify gain offset X

/-- the same signal with the same polarity -/
def SamePolarity (X Y : List ℝ) : Prop := ∃ gain offset, 0 < gain ∧ Y = amplify gain offset X

end Verif.RepeaterSpec
