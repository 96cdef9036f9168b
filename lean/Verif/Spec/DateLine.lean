import Verif.Model.Geo

/-!
# Longitudes have no beginning and no end (specification of C127)
-/

namespace Verif.DateLine
open Verif.Geo

/-- `p'` is the place `p` turned by `c` degrees to the east, with the longitude written in any of the possible ways -/
def Turned (c : ℝ) (p p' : Pt ℝ) : Prop := p'.lat = p.lat ∧ p'.depth = p.depth ∧ ∃ k : ℤ, p'.lon = p.lon + c + 360 * k

/-- the places are not the same, up to about 6 mm on the ground -/
def Apart (p q : Pt ℝ) : Prop := ∀ k : ℤ, ¬ (|p.lat - q.lat| < 1e-9 ∧ |degToRad (q.lon - p.lon + 360 * k)| < 1e-9)

end Verif.DateLine
