import Mathlib.Data.List.Sort
import Mathlib.Algebra.Order.Ring.Rat

/-!
# Model of the azimuthal gaps of an origin  (libs/hddsc/utils.cpp:553-569)

Azimuths are rationals instead of doubles, one per *used phase* (line 548).
-/

namespace Verif.AzGap

/-- libs/hddsc/utils.cpp:564-565 (`step` = 1) and 566-567 (`step` = 2): running maximum from 0 over the
sorted and extended list -/
def maxGap (ext : List ℚ) (n step : Nat) : ℚ :=
  (List.range n).foldl (fun acc i =>
    let gap := ext.getD (i + step) 0 - ext.getD i 0
    if gap > acc then gap else acc) 0

/-- libs/hddsc/utils.cpp:554-569: (primary, secondary) -/
def gaps (azi : List ℚ) : ℚ × ℚ :=
  if azi.length ≥ 2 then
    let sorted := azi.insertionSort (· ≤ ·)
    let ext := sorted ++ [sorted.getD 0 0 + 360, sorted.getD 1 0 + 360]
    (maxGap ext azi.length 1, maxGap ext azi.length 2)
  else (360, 360)

end Verif.AzGap
