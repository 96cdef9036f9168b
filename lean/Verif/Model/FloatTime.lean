import Verif.Base.Round
import Verif.Model.Trace

/-!
# Times as seconds, in floating point (`libs/hdd/utctime.h`, `libs/hdd/trace.h`)

The functions of `Model/Trace.lean` with the rounding of each operation on doubles: `fl` rounds the exact result.  A number of
seconds is the exact value of the double.  Undefined behaviour is `none`: the conversion to a 64 bit integer of a number that
does not fit, and an iterator range that is not inside the vector.  Left out: the overflow of the 64 bit sums of microseconds.
-/

namespace Verif.FloatTime

variable (fl : ℚ → ℚ) {α : Type}

/-- utctime.h:78-81 `durToSec`: `duration<double>(d)` converts the count of microseconds and divides it by a million
(libstdc++ `__duration_cast_impl`) -/
def durToSec (d : Int) : ℚ := fl (fl d / 1000000)

/-- utctime.h:71-76 `secToDur`: the product, `std::round` (exact) and the conversion to `int64_t` -/
def secToDur (s : ℚ) : Option Int :=
  let m := cround (fl (s * 1000000))
  if -2 ^ 63 ≤ m ∧ m < 2 ^ 63 then some m else none

/-- trace.h:112-117: the number of samples is converted to a double and divided -/
def endTime (t : Trace α) : Option Int :=
  if t.data.length = 0 then some t.stime
  else (secToDur fl (fl (fl ((t.data.length : ℚ) - 1) / t.freq))).map (t.stime + ·)

/-- trace.h:150-153 -/
def index (t : Trace α) (time : Int) : ℚ := fl (durToSec fl (time - t.stime) * t.freq)

/-- trace.h:155-173 -/
def slice (t : Trace α) (tw : TimeWindow) : Option (Bool × Trace α) :=
  match endTime fl t with
  | none => none
  | some e =>
    let own := TimeWindow.mk' t.stime e
    if own = tw then some (true, t)
    else if own.contains tw = false then some (false, t)
    else
      let startOfs : Int := ⌊index fl t tw.startTime⌋
      let endOfs : Int := ⌈index fl t tw.endTime⌉
      if startOfs < 0 then some (false, t)
      else if (endOfs : ℚ) ≥ fl t.data.length then some (false, t)
      else if endOfs + 1 ≤ (t.data.length : Int) ∧ startOfs ≤ endOfs + 1 then
        match secToDur fl (fl ((startOfs : ℚ) / t.freq)) with
        | none => none
        | some d => some (true, { t with
            stime := t.stime + d
            data := (t.data.drop startOfs.toNat).take (endOfs + 1 - startOfs).toNat })
      else none

/-- hddsc/utils.h:104-107 `toSC`: the seconds since 1970 are handed to the constructor of `Seiscomp::Core::Time`, which keeps
whole microseconds.  How it rounds is a parameter. -/
def toSC (core : ℚ → Int) (t : Int) : Int := core (durToSec fl t)

/-- hddsc/utils.h:109-116 `fromSC`: the seconds since 1970 of a SeisComP time `t` (whole microseconds), as the double nearest
to it (what `Time::epoch()` and `Time::length()` return is a parameter) -/
def fromSC (epoch : Int → ℚ) (t : Int) : Option Int := secToDur fl (epoch t)

end Verif.FloatTime
