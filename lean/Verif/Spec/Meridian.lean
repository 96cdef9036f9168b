import Mathlib.MeasureTheory.Integral.IntervalIntegral.Basic
import Mathlib.Analysis.SpecialFunctions.Trigonometric.Basic

/-!
# The length of an arc of meridian on an ellipsoid

Geometry only: nothing here refers to the model of the code.
-/

namespace Verif.MeridianSpec
noncomputable section

/-- the radius of curvature of the meridian at latitude `phi` (radians) of the ellipsoid with equatorial radius `a` and
flattening `f` -/
def curvatureRadius (a f phi : ℝ) : ℝ :=
  a * (1 - f) ^ 2 / Real.sqrt (1 - (1 - (1 - f) ^ 2) * Real.sin phi ^ 2) ^ 3

/-- the length of the meridian from latitude `lat1` to latitude `lat2`, both in degrees -/
def arcLength (a f lat1 lat2 : ℝ) : ℝ :=
  ∫ t in (lat1 * (Real.pi / 180))..(lat2 * (Real.pi / 180)), curvatureRadius a f t

end
end Verif.MeridianSpec
