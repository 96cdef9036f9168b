import Verif.Spec.Calendar
import Verif.Base.Outcome
import Mathlib.Data.Int.Basic
import Mathlib.Data.List.Basic

/-!
# Model of `libs/hdd/utctime.cpp`

A `UTCTime` is an `Int` number of microseconds since 1970-01-01T00:00:00Z (simplification: no
64 bit overflow, `int` for the year does not overflow either).  `gmtime_r` and `timegm` are calls
into libc; they are modelled by their contract — day counting in the proleptic Gregorian calendar
without leap seconds — with the loops `yearUp`, `yearDown`, `monthLoop` and the sums
`daysBeforeYear`, `daysBeforeMonth`.  Strings are lists of characters.
-/

namespace Verif.Utc
open Calendar

/-- libc `gmtime_r` (called at utctime.cpp:96): go up year by year from year `y` with `r` days
left -/
def yearUp : Nat → Int → Int → Int × Int
  | 0, y, r => (y, r)
  | n + 1, y, r => if r < yearLen y then (y, r) else yearUp n (y + 1) (r - yearLen y)

/-- libc `gmtime_r` (called at utctime.cpp:96): go down year by year while the day number is
negative -/
def yearDown : Nat → Int → Int → Int × Int
  | 0, y, r => (y, r)
  | n + 1, y, r => if 0 ≤ r then (y, r) else yearDown n (y - 1) (r + yearLen (y - 1))

/-- libc `gmtime_r` (called at utctime.cpp:96): month and day of the month from the day of the
year -/
def monthLoop (y : Int) : Nat → Nat → Int → Nat × Int
  | 0, m, r => (m, r)
  | n + 1, m, r => if r < monthLen y m then (m, r) else monthLoop y n (m + 1) (r - monthLen y m)

/-- libc `gmtime_r` (called at utctime.cpp:96), date part: day number relative to 1970-01-01 to
calendar date -/
def civil (z : Int) : Date :=
  let yr := if 0 ≤ z then yearUp (z.toNat + 1) 1970 z else yearDown (z.natAbs + 1) 1970 z
  let md := monthLoop yr.1 12 1 yr.2
  ⟨yr.1, md.1, md.2 + 1⟩

/-- days in the `n` years from 1970 -/
def daysUp : Nat → Int
  | 0 => 0
  | n + 1 => daysUp n + yearLen (1970 + n)

/-- days in the `n` years before 1970 -/
def daysDown : Nat → Int
  | 0 => 0
  | n + 1 => daysDown n + yearLen (1970 - (n + 1))

/-- libc `timegm` (called at utctime.cpp:76): day number of 1 January -/
def daysBeforeYear (y : Int) : Int :=
  if 1970 ≤ y then daysUp (y - 1970).toNat else -daysDown (1970 - y).toNat

/-- libc `timegm` (called at utctime.cpp:76): days of the year before the first of month `m` -/
def daysBeforeMonth (y : Int) : Nat → Int
  | 0 => 0
  | 1 => 0
  | m + 2 => daysBeforeMonth y (m + 1) + monthLen y (m + 1)

/-- libc `timegm`, date part; out of range days simply count on -/
def dayNumber (d : Date) : Int :=
  daysBeforeYear d.year + daysBeforeMonth d.year d.month + (d.day - 1)

/-- libc `timegm` (called at utctime.cpp:76).  Simplification: the month is in 1–12 (every call in
the code ensures it); day, hour, minute and second are arbitrary and carried over as libc does. -/
def timegm (d : Date) (h mi s : Int) : Int := dayNumber d * 86400 + h * 3600 + mi * 60 + s

/-- broken down time as `UTCClock::toDate` returns it -/
structure Fields where
  date : Date
  hour : Int
  min : Int
  sec : Int
  usec : Int
deriving DecidableEq, Repr

/-- utctime.cpp:64-83 -/
def fromDate (f : Fields) : Outcome Int :=
  let tt := timegm f.date f.hour f.min f.sec
  if tt = -1 ∧ (f.date.year < 1970 ∨ f.date.year > 2038) then .throws
  else .ok (tt * 1000000 + f.usec)

/-- utctime.cpp:40-44: `duration_cast` truncates toward zero -/
def toTimeT (t : Int) : Int := t.tdiv 1000000

/-- utctime.cpp:85-106 with libc `gmtime_r` -/
def toDate (t : Int) : Fields :=
  let tt := toTimeT t
  let day := tt / 86400
  let rem := tt % 86400
  { date := civil day, hour := rem / 3600, min := rem % 3600 / 60, sec := rem % 60,
    usec := t - tt * 1000000 }

/-! ## text -/

/-- character of a decimal digit -/
def digitChar (d : Nat) : Char :=
  match d with
  | 0 => '0' | 1 => '1' | 2 => '2' | 3 => '3' | 4 => '4'
  | 5 => '5' | 6 => '6' | 7 => '7' | 8 => '8' | _ => '9'

/-- value of a decimal digit character -/
def digitVal? (c : Char) : Option Nat :=
  match c with
  | '0' => some 0 | '1' => some 1 | '2' => some 2 | '3' => some 3 | '4' => some 4
  | '5' => some 5 | '6' => some 6 | '7' => some 7 | '8' => some 8 | '9' => some 9
  | _ => none

/-- the last `w` decimal digits of `n` -/
def padDigits : Nat → Nat → List Char
  | 0, _ => []
  | w + 1, n => padDigits w (n / 10) ++ [digitChar (n % 10)]

/-- number of decimal digits of `n` not fitting in `w` places -/
def extraDigits (w n : Nat) : Nat :=
  if n < 10 ^ w then 0 else (Nat.log2 n + 1) -- an upper bound; leading zeros are removed below

/-- printf `%0<w>d` of a non-negative number -/
def printNat (w n : Nat) : List Char :=
  if n < 10 ^ w then padDigits w n
  else (padDigits (w + extraDigits w n) n).dropWhile (· == '0')

/-- printf `%0<w>d` -/
def printInt (w : Nat) (n : Int) : List Char :=
  if n < 0 then '-' :: printNat (w - 1) n.natAbs else printNat w n.natAbs

/-- utctime.cpp:157-160: drop the zeros at the end -/
def trimZeros (l : List Char) : List Char := (l.reverse.dropWhile (· == '0')).reverse

/-- utctime.cpp:147-164 -/
def toString (t : Int) : List Char :=
  let f := toDate t
  let us := if f.usec = 0 then ['0', '0', '0', '0'] else trimZeros (printInt 6 f.usec)
  printInt 4 f.date.year ++ '-' :: (printInt 2 f.date.month ++ '-' :: (printInt 2 f.date.day ++
    'T' :: (printInt 2 f.hour ++ ':' :: (printInt 2 f.min ++ ':' :: (printInt 2 f.sec ++
    '.' :: (us ++ ['Z']))))))

/-- regular expression `\d` repeated `k` times, with `stoi` of the match -/
def takeDigits : Nat → Nat → List Char → Option (Nat × List Char)
  | 0, acc, s => some (acc, s)
  | _ + 1, _, [] => none
  | k + 1, acc, c :: s =>
    match digitVal? c with
    | some d => takeDigits k (10 * acc + d) s
    | none => none

/-- one literal character of the regular expression -/
def lit (c : Char) : List Char → Option (List Char)
  | [] => none
  | x :: s => if x = c then some s else none

/-- regular expression `\d+` (greedy; `Z` cannot match a digit so there is no backtracking):
value, number of digits and rest -/
def spanDigits : Nat → Nat → List Char → Nat × Nat × List Char
  | acc, k, [] => (acc, k, [])
  | acc, k, c :: s =>
    match digitVal? c with
    | some d => spanDigits (10 * acc + d) (k + 1) s
    | none => (acc, k, c :: s)

/-- the seven numbers of the regular expression at utctime.cpp:110-123, plus the number of digits
of the fraction; `none` when the text does not match -/
def matchText (s : List Char) : Option (Nat × Nat × Nat × Nat × Nat × Nat × Nat × Nat) := do
  let (year, s) ← takeDigits 4 0 s
  let s ← lit '-' s
  let (month, s) ← takeDigits 2 0 s
  let s ← lit '-' s
  let (day, s) ← takeDigits 2 0 s
  let s ← lit 'T' s
  let (hour, s) ← takeDigits 2 0 s
  let s ← lit ':' s
  let (min, s) ← takeDigits 2 0 s
  let s ← lit ':' s
  let (sec, s) ← takeDigits 2 0 s
  let s ← lit '.' s
  let (frac, k, s) := spanDigits 0 0 s
  if k = 0 then none
  else if s = ['Z'] then some (year, month, day, hour, min, sec, frac, k) else none

/-- utctime.cpp:126-136 -/
def scaleFrac (v k : Nat) : Nat := if k ≤ 6 then v * 10 ^ (6 - k) else v / 10 ^ (k - 6)

/-- utctime.cpp:108-145.  The conversion `int usec = std::stod(digits)` is undefined when the value
does not fit an `int`; `stod` throws if it does not fit a double. -/
def fromString (s : List Char) : Outcome Int :=
  match matchText s with
  | none => .throws
  | some (year, month, day, hour, min, sec, frac, k) =>
    if 2 ^ 1024 - 2 ^ 970 ≤ frac then .throws
    else if frac > 2147483647 then .ub
    else if month < 1 ∨ month > 12 then .throws
    else if day < 1 ∨ day > 31 then .throws
    else if hour > 23 then .throws
    else if min > 59 then .throws
    else if sec > 59 then .throws
    else fromDate ⟨⟨year, month, day⟩, hour, min, sec, scaleFrac frac k⟩

end Verif.Utc
