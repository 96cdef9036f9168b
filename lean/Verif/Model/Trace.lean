import Verif.Model.TimeWindow
import Verif.Base.Round

/-!
# Model of `libs/hdd/trace.h`

Sampling frequency and sample values are doubles in the code.  Frequency arithmetic is done here in
exact rationals (simplification: no floating point rounding); the sample type is arbitrary.  The
conversion of seconds to the integer microseconds of the clock is kept, including its rounding.
The network/station/location/channel codes are not touched by the functions modelled and are left
out.
-/

namespace Verif

/-- trace.h:35-46 (codes left out) -/
structure Trace (α : Type) where
  stime : Int
  freq : ℚ
  data : List α
deriving DecidableEq

namespace Trace
variable {α : Type}

/-- utctime.h:71-76 `secToDur`: seconds to integer microseconds by `std::round` -/
def secToDur (s : ℚ) : Int := cround (s * 1000000)

/-- utctime.h:78-81 `durToSec` -/
def durToSec (d : Int) : ℚ := (d : ℚ) / 1000000

/-- trace.h:112-117 -/
def endTime (t : Trace α) : Int :=
  if t.data.length = 0 then t.stime
  else t.stime + secToDur (((t.data.length : ℚ) - 1) / t.freq)

/-- trace.h:120 -/
def setEndTime (t : Trace α) (time : Int) : Trace α :=
  { t with stime := t.stime + (time - t.endTime) }

/-- trace.h:122 -/
def timeWindow (t : Trace α) : TimeWindow := TimeWindow.mk' t.stime t.endTime

/-- trace.h:150-153 -/
def index (t : Trace α) (time : Int) : ℚ := durToSec (time - t.stime) * t.freq

/-- trace.h:155-173.  `none` is undefined behaviour: an iterator range `[startOfs, endOfs+1)` that
is not inside the vector. -/
def slice (t : Trace α) (tw : TimeWindow) : Option (Bool × Trace α) :=
  if t.timeWindow = tw then some (true, t)
  else if t.timeWindow.contains tw = false then some (false, t)
  else
    let startOfs : Int := ⌊t.index tw.startTime⌋
    let endOfs : Int := ⌈t.index tw.endTime⌉
    if startOfs < 0 then some (false, t)
    else if endOfs ≥ (t.data.length : Int) then some (false, t)
    else if startOfs ≤ endOfs + 1 then
      some (true,
        { t with
          stime := t.stime + secToDur ((startOfs : ℚ) / t.freq)
          data := (t.data.drop startOfs.toNat).take (endOfs + 1 - startOfs).toNat })
    else none

end Trace
end Verif
