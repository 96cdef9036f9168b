import Mathlib.Data.Int.Basic

/-!
# Model of `libs/hdd/timewindow.h`

`UTCTime` is a 64 bit count of microseconds since 1970 (utctime.h:39-42); here an unbounded `Int`
(simplification: no overflow of int64 microseconds, i.e. ±292 000 years).
-/

namespace Verif

/-- timewindow.h:39 -/
structure TimeWindow where
  startTime : Int
  endTime : Int
deriving DecidableEq, Repr

namespace TimeWindow

/-- timewindow.h:91-95 -/
def setEndTime (w : TimeWindow) (t : Int) : TimeWindow :=
  if t < w.startTime then { w with endTime := w.startTime } else { w with endTime := t }

/-- timewindow.h:82-89 -/
def setStartTime (w : TimeWindow) (t : Int) : TimeWindow :=
  if w.endTime < t then { startTime := t, endTime := t } else { w with startTime := t }

/-- timewindow.h:42: both time points are value initialised to the epoch -/
def default : TimeWindow := { startTime := 0, endTime := 0 }

/-- timewindow.h:46-50 (the member `_endTime` is overwritten by `setEndTime`) -/
def mk' (s e : Int) : TimeWindow := setEndTime { startTime := s, endTime := 0 } e

/-- timewindow.h:43-45, constructor from start and length -/
def ofLength (s len : Int) : TimeWindow := mk' s (s + len)

/-- timewindow.h:74 -/
def length (w : TimeWindow) : Int := w.endTime - w.startTime

/-- timewindow.h:76-80 -/
def set (w : TimeWindow) (s e : Int) : TimeWindow := (w.setStartTime s).setEndTime e

/-- timewindow.h:97 -/
def empty (w : TimeWindow) : Bool := w.startTime = w.endTime

/-- timewindow.h:99 -/
def containsTime (w : TimeWindow) (t : Int) : Bool := t ≥ w.startTime ∧ t ≤ w.endTime

/-- timewindow.h:101-104 -/
def contains (w o : TimeWindow) : Bool := o.startTime ≥ w.startTime ∧ o.endTime ≤ w.endTime

/-- timewindow.h:136-140 -/
def overlap (w o : TimeWindow) : TimeWindow :=
  mk' (max w.startTime o.startTime) (min w.endTime o.endTime)

/-- timewindow.h:106-109 -/
def overlaps (w o : TimeWindow) : Bool := !(overlap w o).empty

/-- timewindow.h:111-114 -/
def contiguous (w o : TimeWindow) : Bool := o.startTime = w.endTime ∨ o.endTime = w.startTime

/-- timewindow.h:116-120 -/
def trim (w : TimeWindow) (a b : Int) : TimeWindow := mk' (w.startTime + a) (w.endTime - b)

/-- timewindow.h:122-126 -/
def extend (w : TimeWindow) (a b : Int) : TimeWindow := mk' (w.startTime - a) (w.endTime + b)

/-- timewindow.h:128-134 -/
def merge (w o : TimeWindow) : TimeWindow :=
  let tw := if o.startTime < w.startTime then w.setStartTime o.startTime else w
  if o.endTime > tw.endTime then tw.setEndTime o.endTime else tw

end TimeWindow
end Verif
