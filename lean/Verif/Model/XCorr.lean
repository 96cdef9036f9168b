import Verif.Model.Trace
import Verif.Base.Fl
import Verif.Base.Outcome
import Mathlib.Analysis.SpecialFunctions.Pow.NNReal
import Mathlib.Analysis.SpecialFunctions.Sqrt

/-!
# Model of `libs/hdd/xcorr.cpp` and of the cross-correlation functions of `libs/hdd/dd.cpp`

Samples are real numbers, times and frequencies rationals (simplification: no rounding, and samples
are finite); the coefficient is an `Fl ℝ`, so that 0/0 is NaN as in the code.  Array reads are explicit:
a read outside the array is undefined behaviour.  `int` is unbounded (simplification) except in the
conversion of the maximum delay, where a value that does not fit is undefined behaviour.
-/

namespace Verif.XCorr

/-- `data[i]` -/
def read {K : Type} (data : List K) (i : Int) : Outcome K :=
  if 0 ≤ i then (match data[i.toNat]? with | some x => .ok x | none => .ub) else .ub

/-- `std::sqrt` -/
noncomputable def sqrt (x : ℝ) : Fl ℝ := open Classical in if x < 0 then .nan else .num (Real.sqrt x)

/-- `std::abs(a) > std::abs(b)` -/
noncomputable def absGt : Fl ℝ → Fl ℝ → Bool
  | .num x, .num y => open Classical in decide (|y| < |x|)
  | .inf _, .num _ => true
  | _, _ => false

structure Sums where
  sumS : ℝ
  sumS2 : ℝ
  sumL : ℝ
  sumL2 : ℝ

/-- xcorr.cpp:93-100, `k` samples left; `base` is where `dataL` points to in the array -/
noncomputable def prepLoop (S L : List ℝ) (base : Int) (n : Nat) : Nat → Nat → Sums → Outcome Sums
  | 0, _, s => .ok s
  | k + 1, i, s => do
    let x ← read S i
    let s := { s with sumS := s.sumS + x, sumS2 := s.sumS2 + x * x }
    if (n : Int) - 1 ≤ i then prepLoop S L base n k (i + 1) s
    else do
      let y ← read L (base + i)
      prepLoop S L base n k (i + 1) { s with sumL := s.sumL + y, sumL2 := s.sumL2 + y * y }

/-- xcorr.cpp:118-119 -/
noncomputable def dotLoop (S L : List ℝ) (base : Int) (delay : Nat) : Nat → Nat → ℝ → Outcome ℝ
  | 0, _, acc => .ok acc
  | k + 1, i, acc => do
    let x ← read S i
    let y ← read L (base + (i + delay))
    dotLoop S L base delay k (i + 1) (acc + x * y)

/-- xcorr.cpp:121; the numerator is finite -/
noncomputable def coefficient (n : Nat) (sumS sumL sumSL : ℝ) (denomS denomL : Fl ℝ) : Fl ℝ :=
  open Classical in (Fl.num (n * sumSL - sumS * sumL)).div (denomS.mul denomL)

/-- xcorr.cpp:106-128, `k` delays left -/
noncomputable def corrLoop (S L : List ℝ) (base : Int) (n : Nat) (sumS : ℝ) (denomS : Fl ℝ) :
    Nat → Nat → ℝ → ℝ → ℝ → (Int × Fl ℝ) → Outcome (Int × Fl ℝ)
  | 0, _, _, _, _, best => .ok best
  | k + 1, delay, sumL, sumL2, last, best => do
    let new ← read L (base + (delay + n - 1))
    let sumL := sumL + (new - last)
    let sumL2 := sumL2 + (new * new - last * last)
    let last ← read L (base + delay)
    let denomL := sqrt (n * sumL2 - sumL * sumL)
    let sumSL ← dotLoop S L base delay n 0 0
    let coeff := coefficient n sumS sumL sumSL denomS denomL
    let best := if !best.2.isFinite || absGt coeff best.2 then ((delay : Int), coeff) else best
    corrLoop S L base n sumS denomS k (delay + 1) sumL sumL2 last best

/-- xcorr.cpp:38-139.  `dataS` is the whole array `S`, `dataL` points to element `base` of the array `L`;
`delayIn` is the value of `delayOut` before the call (it is not written when the loop body is never
executed).  The floating point exception flags only produce log messages. -/
noncomputable def crossCorrelation (S L : List ℝ) (base sizeL : Int) (delayIn : Int) : Outcome (Int × Fl ℝ) := do
  let n := S.length
  let s ← prepLoop S L base n n 0 ⟨0, 0, 0, 0⟩
  let denomS := sqrt (n * s.sumS2 - s.sumS * s.sumS)
  corrLoop S L base n s.sumS denomS (sizeL - n + 1).toNat 0 s.sumL s.sumL2 0 (delayIn, .nan)

/-- conversion of a double to `int`: truncation, undefined behaviour when the result does not fit -/
def toInt (x : ℚ) : Outcome Int :=
  let t := if 0 ≤ x then ⌊x⌋ else ⌈x⌉
  if -2147483648 ≤ t ∧ t ≤ 2147483647 then .ok t else .ub

/-- dd.cpp:1659-1689 `DD::xcorr`: lag and coefficient.  `lagIn` is the value of the output variable before
the call (dd.cpp:1589 and 1609: 0).  Integer division truncates; both sizes are not negative and the
long trace is not shorter. -/
noncomputable def xcorr (tr1 tr2 : Trace ℝ) (maxDelay : ℚ) (lagIn : Int) : Outcome (ℚ × Fl ℝ) := do
  let freq := tr1.freq
  let swap : Bool := tr1.data.length > tr2.data.length
  let short := if swap then tr2 else tr1
  let long := if swap then tr1 else tr2
  let availableData : Int := ((long.data.length : Int) - short.data.length) / 2
  let maxDelaySmps ← toInt (maxDelay * freq)
  let maxDelaySmps := if maxDelaySmps > availableData then availableData else maxDelaySmps
  let r ← crossCorrelation short.data long.data (availableData - maxDelaySmps)
    (short.data.length + maxDelaySmps * 2) lagIn
  let lag : ℚ := ((r.1 : ℚ) - maxDelaySmps) / freq
  .ok (if swap then -lag else lag, r.2)

/-- the cross-correlation settings of a phase type (dd.h:99-109; the components and the minimum
coefficient are used elsewhere) -/
structure Config where
  startOffset : ℚ
  endOffset : ℚ
  winScaling : ℚ
  maxDelay : ℚ

/-- `duration_cast` of a floating point number of microseconds: towards zero -/
def truncate (x : ℚ) : Int := if 0 ≤ x then ⌊x⌋ else ⌈x⌉

/-- dd.cpp:1453-1470 `xcorrTimeWindowShort`, in microseconds; `none` when the length of the window is 0
(0/0, then conversion of NaN to an integer: undefined behaviour) -/
def windowShort (c : Config) (eventTime phaseTime : Int) : Option TimeWindow :=
  let winLen := Trace.secToDur (c.endOffset - c.startOffset)
  if winLen = 0 then none
  else
    let travelTime := phaseTime - eventTime
    let extension : ℚ := travelTime * c.winScaling
    let scaler : ℚ := (winLen + extension) / winLen
    let winStart : ℚ := Trace.secToDur c.startOffset * scaler
    some (TimeWindow.ofLength (phaseTime + truncate winStart) (truncate (winLen + extension)))

/-- dd.cpp:1442-1451 `xcorrTimeWindowLong` -/
def windowLong (c : Config) (eventTime phaseTime : Int) : Option TimeWindow :=
  (windowShort c eventTime phaseTime).map (fun tw =>
    let tw := tw.setStartTime (tw.startTime - Trace.secToDur c.maxDelay)
    tw.setEndTime (tw.endTime + Trace.secToDur c.maxDelay))

/-- one side of a cross-correlation: the trace of the long window (none: no data), the origin and pick
times, and whether the pick is trusted (dd.cpp:1573-1576: from the catalog or manual) -/
structure Side where
  trace : Option (Trace ℝ)
  eventTime : Int
  phaseTime : Int
  trusted : Bool

/-- dd.cpp:1594-1604 and 1614-1624: trim one trace to its short window; `ok none` is failure -/
noncomputable def trim (c : Config) (s : Side) (tr : Trace ℝ) : Outcome (Option (Trace ℝ)) :=
  match windowShort c s.eventTime s.phaseTime with
  | none => .ub
  | some tw =>
    match tr.slice tw with
    | none => .ub
    | some (true, t) => .ok (some t)
    | some (false, _) => .ok none

/-- dd.cpp:1590-1605; `c` are the settings of the first pick, `c2` those of the second -/
noncomputable def first (c c2 : Config) (s2 : Side) (tr1 tr2 : Trace ℝ) (want : Bool) : Outcome (Option (ℚ × Fl ℝ)) :=
  if want then do
    match (← trim c2 s2 tr2) with
    | none => .ok none
    | some short => do .ok (some (← xcorr tr1 short c.maxDelay 0))
  else .ok (some (0, .nan))

/-- dd.cpp:1610-1625 -/
noncomputable def second (c : Config) (s1 : Side) (tr1 tr2 : Trace ℝ) (want : Bool) : Outcome (Option (ℚ × Fl ℝ)) :=
  if want then do
    match (← trim c s1 tr1) with
    | none => .ok none
    | some short => do .ok (some (← xcorr short tr2 c.maxDelay 0))
  else .ok (some (0, .nan))

/-- dd.cpp:1521-1648 `xcorrPhasesOneComponent`: coefficient and lag, `none` when it returns false.  The
traces are those returned by `getWaveform` for the long windows; `c` and `c2` are the settings for the types of the two
picks. -/
noncomputable def onePhase (c c2 : Config) (s1 s2 : Side) : Outcome (Option (ℚ × Fl ℝ)) :=
  match s1.trace, s2.trace with
  | some tr1, some tr2 =>
    if tr1.freq ≠ tr2.freq then .ok none
    else do
      let same := s1.trusted == s2.trusted
      match (← first c c2 s2 tr1 tr2 ((!s1.trusted && s2.trusted) || same)) with
      | none => .ok none
      | some r1 =>
        match (← second c s1 tr1 tr2 ((s1.trusted && !s2.trusted) || same)) with
        | none => .ok none
        | some r2 =>
          if !r1.2.isFinite && !r2.2.isFinite then .ok none
          else if r2.2.isFinite then
            if !r1.2.isFinite || absGt r2.2 r1.2 then .ok (some r2) else .ok (some r1)
          else .ok (some r1)
  | _, _ => .ok none

end Verif.XCorr
