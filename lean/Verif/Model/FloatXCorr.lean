import Verif.Model.XCorr
import Verif.Model.Double

/-!
# Model of `libs/hdd/xcorr.cpp` in the arithmetic of doubles

The same function as in `Model/XCorr.lean`, with every operation rounded: `fl` is the rounding of a sum, a difference, a product or a
quotient, `sq` the rounded square root.  Samples are rational numbers, as doubles are.  Simplifications: nothing overflows, operations are
not contracted (no fused multiply-add) nor kept in wider registers, zero has no sign.
-/

namespace Verif.FloatXCorr
open Verif.XCorr (read)

/-- the largest whole number whose square is at most `n`, for `n` below `4 ^ fuel` -/
def isqrt : Nat → Nat → Nat
  | 0, _ => 0
  | fuel + 1, n => let r := 2 * isqrt fuel (n / 4); if (r + 1) * (r + 1) ≤ n then r + 1 else r

/-- the exponent of the last of the 53 bits of the square root of `x` -/
def rootBit (x : ℚ) : ℤ := Int.log 2 x / 2 - 52

/-- `std::sqrt` of a number that is not negative: the double nearest to the square root (IEEE 754) -/
def sqrt64 (x : ℚ) : ℚ :=
  if x ≤ 0 then 0 else (((isqrt 60 ⌊4 * (x / 4 ^ rootBit x)⌋.toNat + 1) / 2 : ℕ) : ℚ) * 2 ^ rootBit x

variable (fl sq : ℚ → ℚ)

structure Sums where
  sumS : ℚ
  sumS2 : ℚ
  sumL : ℚ
  sumL2 : ℚ

/-- xcorr.cpp:93-100, `k` samples left; `base` is where `dataL` points to in the array -/
def prepLoop (S L : List ℚ) (base : Int) (n : Nat) : Nat → Nat → Sums → Outcome Sums
  | 0, _, s => .ok s
  | k + 1, i, s => do
    let x ← read S i
    let s := { s with sumS := fl (s.sumS + x), sumS2 := fl (s.sumS2 + fl (x * x)) }
    if (n : Int) - 1 ≤ i then prepLoop S L base n k (i + 1) s
    else do
      let y ← read L (base + i)
      prepLoop S L base n k (i + 1) { s with sumL := fl (s.sumL + y), sumL2 := fl (s.sumL2 + fl (y * y)) }

/-- xcorr.cpp:118-119 -/
def dotLoop (S L : List ℚ) (base : Int) (delay : Nat) : Nat → Nat → ℚ → Outcome ℚ
  | 0, _, acc => .ok acc
  | k + 1, i, acc => do
    let x ← read S i
    let y ← read L (base + (i + delay))
    dotLoop S L base delay k (i + 1) (fl (acc + fl (x * y)))

/-- `std::sqrt(n * a - b * c)`, xcorr.cpp:101 and 116; of a negative number it is NaN -/
def root (n : Nat) (a b c : ℚ) : Fl ℚ :=
  let v := fl (fl (n * a) - fl (b * c))
  if v < 0 then .nan else .num (sq v)

/-- rounding of a result that is a number -/
def rounded : Fl ℚ → Fl ℚ
  | .num x => .num (fl x)
  | y => y

/-- xcorr.cpp:121 -/
def coefficient (n : Nat) (sumS sumL sumSL : ℚ) (denomS denomL : Fl ℚ) : Fl ℚ :=
  rounded fl ((Fl.num (fl (fl (n * sumSL) - fl (sumS * sumL)))).div (rounded fl (denomS.mul denomL)))

/-- `std::abs(a) > std::abs(b)` -/
def absGt : Fl ℚ → Fl ℚ → Bool
  | .num x, .num y => decide (|y| < |x|)
  | .inf _, .num _ => true
  | _, _ => false

/-- xcorr.cpp:106-128, `k` delays left -/
def corrLoop (S L : List ℚ) (base : Int) (n : Nat) (sumS : ℚ) (denomS : Fl ℚ) :
    Nat → Nat → ℚ → ℚ → ℚ → (Int × Fl ℚ) → Outcome (Int × Fl ℚ)
  | 0, _, _, _, _, best => .ok best
  | k + 1, delay, sumL, sumL2, last, best => do
    let new ← read L (base + (delay + n - 1))
    let sumL := fl (sumL + fl (new - last))
    let sumL2 := fl (sumL2 + fl (fl (new * new) - fl (last * last)))
    let last ← read L (base + delay)
    let denomL := root fl sq n sumL2 sumL sumL
    let sumSL ← dotLoop fl S L base delay n 0 0
    let coeff := coefficient fl n sumS sumL sumSL denomS denomL
    let best := if !best.2.isFinite || absGt coeff best.2 then ((delay : Int), coeff) else best
    corrLoop S L base n sumS denomS k (delay + 1) sumL sumL2 last best

/-- xcorr.cpp:38-139, with the arguments as in `XCorr.crossCorrelation` -/
def crossCorrelation (S L : List ℚ) (base sizeL : Int) (delayIn : Int) : Outcome (Int × Fl ℚ) := do
  let n := S.length
  let s ← prepLoop fl S L base n n 0 ⟨0, 0, 0, 0⟩
  let denomS := root fl sq n s.sumS2 s.sumS s.sumS
  corrLoop fl sq S L base n s.sumS denomS (sizeL - n + 1).toNat 0 s.sumL s.sumL2 0 (delayIn, .nan)

end Verif.FloatXCorr
