import Verif.Model.PairFile
import Verif.Base.Fl
import Mathlib.Data.Rat.Floor
import Mathlib.Data.Int.Log

/-!
# Numbers as text: `printf` of `%.<n>f` and `%g`, and `std::stod`

These are the C library functions the file formats of the code rely on (libs/hdd/catalog.cpp:102-206,
:424-426, :438-439, :467-483, :505-507, libs/hdd/xcorrcache.cpp:50-52, :82-83).  A double is an exact
rational number, an infinity or NaN (one zero, one NaN).

`stod` is the one of libstdc++ and glibc on x86-64 in the C locale: a number that does not fit a double, or that
would be stored with less than its usual precision and is not exact, is an exception.  The rounding of a number to a
double is the parameter `rnd`.
-/

namespace Verif.Decimal
open Verif.Csv

/-- the nearest integer, ties to even: how glibc's `printf` rounds (for `x` not negative) -/
def roundEven (x : ℚ) : Nat :=
  let f := ⌊x⌋₊
  if x - f < 1 / 2 then f
  else if 1 / 2 < x - f then f + 1
  else if f % 2 = 0 then f else f + 1

/-- at least `k` digits -/
def pad (k : Nat) (l : Str) : Str := List.replicate (k - l.length) '0' ++ l

/-- the sign `printf` writes -/
def signText (x : ℚ) : Str := if x < 0 then ['-'] else []

/-- the number `m / 10^k` with `k` decimals -/
def pointText (m k : Nat) : Str :=
  decimal (m / 10 ^ k) ++ (if k = 0 then [] else '.' :: pad k (decimal (m % 10 ^ k)))

/-- `printf("%.<n>f", x)` -/
def fixedText (n : Nat) (x : ℚ) : Str := signText x ++ pointText (roundEven (|x| * 10 ^ n)) n

/-- the zeros at the end are removed -/
def trimZeros (l : Str) : Str := (l.reverse.dropWhile (· == '0')).reverse

/-- the number `m / 10^k` without zeros at the end, and without the point if nothing is left after it -/
def shortText (m k : Nat) : Str :=
  let f := if k = 0 then [] else trimZeros (pad k (decimal (m % 10 ^ k)))
  decimal (m / 10 ^ k) ++ (if f = [] then [] else '.' :: f)

/-- six significant digits and the decimal exponent of a positive number -/
def sixDigits (x : ℚ) : Nat × Int :=
  let e := Int.log 10 x
  let m := roundEven (x / (10 : ℚ) ^ (e - 5))
  if m = 1000000 then (100000, e + 1) else (m, e)

/-- `printf("%g", x)` -/
def generalText (x : ℚ) : Str :=
  if x = 0 then ['0']
  else
    let (m, e) := sixDigits |x|
    signText x ++
      (if -4 ≤ e ∧ e < 6 then shortText m (5 - e).toNat
       else shortText m 5 ++ 'e' :: (if e < 0 then '-' else '+') :: pad 2 (decimal e.natAbs))

/-- infinities and NaN -/
def flText (f : ℚ → Str) : Fl ℚ → Str
  | .num x => f x
  | .inf neg => if neg then "-inf".toList else "inf".toList
  | .nan => "nan".toList

/-- the exponent `stod` reads after the digits, 0 if there is none; `l` and `u` are the letters it may begin with -/
def exponent (l u : Char) (s : Str) : Int :=
  match s with
  | c :: s =>
    if c = l ∨ c = u then
      let neg := s.head? = some '-'
      let s := if s.head? = some '-' ∨ s.head? = some '+' then s.tail else s
      let v : Int := Nat.ofDigitChars 10 (s.takeWhile Char.isDigit) 0
      if neg then -v else v
    else 0
  | [] => 0

/-- `stod` after white space and sign, of a number that is not hexadecimal -/
def magnitude (s : Str) : Outcome (Fl ℚ) :=
  if (s.take 3).map Char.toLower = "nan".toList then .ok .nan
  else if (s.take 3).map Char.toLower = "inf".toList then .ok (.inf false)
  else
    let a := s.takeWhile Char.isDigit
    let r := s.dropWhile Char.isDigit
    let f := if r.head? = some '.' then r.tail.takeWhile Char.isDigit else []
    let r := if r.head? = some '.' then r.tail.dropWhile Char.isDigit else r
    if a ++ f = [] then .throws
    else .ok (.num ((Nat.ofDigitChars 10 (a ++ f) 0 : ℚ) * (10 : ℚ) ^ (exponent 'e' 'E' r - f.length)))

/-- the digits of a hexadecimal number -/
def isHex (c : Char) : Bool := "0123456789abcdefABCDEF".toList.contains c

/-- the value of hexadecimal digits -/
def hexValue (s : Str) : Nat := s.foldl (fun n c => 16 * n + "0123456789abcdef".toList.idxOf c.toLower) 0

/-- `stod` after white space and sign: a hexadecimal number, if there is one -/
def hexMagnitude (s : Str) : Option ℚ :=
  match s with
  | z :: x :: s =>
    if z = '0' ∧ (x = 'x' ∨ x = 'X') then
      let a := s.takeWhile isHex
      let r := s.dropWhile isHex
      let f := if r.head? = some '.' then r.tail.takeWhile isHex else []
      let r := if r.head? = some '.' then r.tail.dropWhile isHex else r
      if a ++ f = [] then none
      else some ((hexValue (a ++ f) : ℚ) * (2 : ℚ) ^ (exponent 'p' 'P' r - 4 * f.length))
    else none
  | _ => none

/-- `strtod` after white space and sign -/
def unsigned (s : Str) : Outcome (Fl ℚ) :=
  match hexMagnitude s with
  | some x => .ok (.num x)
  | none => magnitude s

/-- `strtod` sets `errno` to `ERANGE`: the number is above the largest double, or it is below the smallest normal one
and not a multiple of the smallest double -/
def outOfRange : Fl ℚ → Bool
  | .num x => (2 ^ 1024 - 2 ^ 970) * x.den ≤ x.num.natAbs ||
      (x.num ≠ 0 && (x.num.natAbs * 2 ^ 1076 < (2 ^ 54 - 1) * x.den && !decide (x.den ∣ 2 ^ 1074)))
  | _ => false

/-- the nearest double -/
def _root_.Verif.Fl.round (rnd : ℚ → ℚ) : Fl ℚ → Fl ℚ
  | .num x => .num (rnd x)
  | .inf s => .inf s
  | .nan => .nan

/-- `std::stod(s)` -/
def stod (rnd : ℚ → ℚ) (s : Str) : Outcome (Fl ℚ) :=
  let s := s.dropWhile PairFile.isSpace
  let neg := s.head? = some '-'
  let s := if s.head? = some '-' ∨ s.head? = some '+' then s.tail else s
  match unsigned s with
  | .ok v => if outOfRange v then .throws else .ok ((if neg then v.neg else v).round rnd)
  | .throws => .throws
  | .ub => .ub

end Verif.Decimal
