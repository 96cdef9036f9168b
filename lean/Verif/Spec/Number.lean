import Verif.Base.Fl
import Mathlib.Algebra.Order.Field.Rat
import Mathlib.Algebra.Order.AbsoluteValue.Basic
import Mathlib.Data.Nat.Digits.Defs

/-!
# What the text of a number means

The C++ standard library reads a number at the beginning of a text and ignores what follows it.
-/

namespace Verif.NumberSpec

/-- white space of the C locale -/
def Blank (c : Char) : Prop := c ∈ [' ', '\t', '\n', '\x0b', '\x0c', '\r']

/-- only digits -/
def Digits (s : List Char) : Prop := ∀ c ∈ s, c.isDigit = true

/-- the number does not go on here -/
def NoDigit (s : List Char) : Prop := ∀ c t, s = c :: t → c.isDigit = false

/-- an optional sign -/
def Sign (s : List Char) (neg : Bool) : Prop :=
  (s = ['-'] ∧ neg = true) ∨ (s = ['+'] ∧ neg = false) ∨ (s = [] ∧ neg = false)

/-- the value of a row of digits -/
def value (s : List Char) : Nat := Nat.ofDigitChars 10 s 0

/-- a whole number: white space, sign, digits -/
structure Whole (s : List Char) (neg : Bool) (n : Nat) : Prop where
  text : ∃ blanks sign digits rest, s = blanks ++ sign ++ digits ++ rest ∧ (∀ c ∈ blanks, Blank c) ∧ Sign sign neg ∧
    Digits digits ∧ digits ≠ [] ∧ NoDigit rest ∧ n = value digits

/-- the exponent: one of two letters (`e` or `E`, after hexadecimal digits `p` or `P`), sign, digits; without these there is
none -/
inductive Exponent (l u : Char) : List Char → Int → Prop
  | given {e : Char} {sign digits rest : List Char} {neg : Bool} :
    e = l ∨ e = u → Sign sign neg → Digits digits → digits ≠ [] → NoDigit rest →
    Exponent l u (e :: (sign ++ digits ++ rest)) (if neg then -(value digits : Int) else value digits)
  | missing {s : List Char} :
    (¬ ∃ e sign neg d rest, s = e :: (sign ++ d :: rest) ∧ (e = l ∨ e = u) ∧ Sign sign neg ∧ d.isDigit = true) →
    Exponent l u s 0

/-- a number without sign, not hexadecimal -/
inductive Unsigned : List Char → Fl ℚ → Prop
  | nan {a b c : Char} {rest : List Char} :
    (a = 'n' ∨ a = 'N') → (b = 'a' ∨ b = 'A') → (c = 'n' ∨ c = 'N') → Unsigned (a :: b :: c :: rest) .nan
  | inf {a b c : Char} {rest : List Char} :
    (a = 'i' ∨ a = 'I') → (b = 'n' ∨ b = 'N') → (c = 'f' ∨ c = 'F') → Unsigned (a :: b :: c :: rest) (.inf false)
  | whole {digits rest : List Char} {e : Int} :
    Digits digits → digits ≠ [] → NoDigit rest → (∀ t, rest ≠ '.' :: t) → Exponent 'e' 'E' rest e →
    Unsigned (digits ++ rest) (.num ((value digits : ℚ) * (10 : ℚ) ^ e))
  | point {digits decimals rest : List Char} {e : Int} :
    Digits digits → Digits decimals → (digits ≠ [] ∨ decimals ≠ []) → NoDigit rest → Exponent 'e' 'E' rest e →
    Unsigned (digits ++ '.' :: (decimals ++ rest))
      (.num ((value (digits ++ decimals) : ℚ) * (10 : ℚ) ^ (e - decimals.length)))

/-- a hexadecimal digit -/
def HexDigit (c : Char) : Prop := c ∈ "0123456789abcdefABCDEF".toList

/-- only hexadecimal digits -/
def HexDigits (s : List Char) : Prop := ∀ c ∈ s, HexDigit c

/-- the hexadecimal number does not go on here -/
def NoHexDigit (s : List Char) : Prop := ∀ c t, s = c :: t → ¬ HexDigit c

/-- the value of a row of hexadecimal digits: the letters stand for 10 to 15 -/
def hexadecimal (s : List Char) : Nat :=
  Nat.ofDigits 16 (s.map (fun c => if c.isDigit then c.toNat - 48 else if 97 ≤ c.toNat then c.toNat - 87 else c.toNat - 55)).reverse

/-- a hexadecimal number: `0x`, digits, possibly with a point, and an exponent of 2 -/
inductive Hex : List Char → ℚ → Prop
  | whole {x : Char} {digits rest : List Char} {e : Int} :
    x = 'x' ∨ x = 'X' → HexDigits digits → digits ≠ [] → NoHexDigit rest → (∀ t, rest ≠ '.' :: t) → Exponent 'p' 'P' rest e →
    Hex ('0' :: x :: (digits ++ rest)) ((hexadecimal digits : ℚ) * (2 : ℚ) ^ e)
  | point {x : Char} {digits decimals rest : List Char} {e : Int} :
    x = 'x' ∨ x = 'X' → HexDigits digits → HexDigits decimals → (digits ≠ [] ∨ decimals ≠ []) → NoHexDigit rest →
    Exponent 'p' 'P' rest e →
    Hex ('0' :: x :: (digits ++ '.' :: (decimals ++ rest)))
      ((hexadecimal (digits ++ decimals) : ℚ) * (2 : ℚ) ^ e / (16 : ℚ) ^ decimals.length)

/-- a number without sign: hexadecimal if it can be -/
def Body (s : List Char) (v : Fl ℚ) : Prop :=
  (∃ x, Hex s x ∧ v = .num x) ∨ ((∀ x, ¬ Hex s x) ∧ Unsigned s v)

/-- a number that would be rounded to more than the largest double -/
def TooLarge (x : ℚ) : Prop := 2 ^ 1024 - 2 ^ 970 ≤ |x|

/-- a number other than 0 that would be rounded to less than the smallest normal double, `2^-1022`, and is not a
multiple of the smallest double, `2^-1074` -/
def TooSmall (x : ℚ) : Prop := x ≠ 0 ∧ |x| < 1 / 2 ^ 1022 - 1 / 2 ^ 1076 ∧ ¬ ∃ n : ℤ, x = n / 2 ^ 1074

/-- the number has a double; infinities and NaN are doubles -/
def InRange : Fl ℚ → Prop
  | .num x => ¬ TooLarge x ∧ ¬ TooSmall x
  | _ => True

/-- the double nearest to a number, by `rnd` -/
def nearest (rnd : ℚ → ℚ) : Fl ℚ → Fl ℚ
  | .num x => .num (rnd x)
  | v => v

/-- `s` begins with a decimal or hexadecimal number that has a double, `inf` or `nan`, possibly after white space and a sign;
its value is `v` -/
def Number (rnd : ℚ → ℚ) (s : List Char) (v : Fl ℚ) : Prop :=
  ∃ blanks sign neg body w, s = blanks ++ sign ++ body ∧ (∀ c ∈ blanks, Blank c) ∧ Sign sign neg ∧ Body body w ∧ InRange w ∧
    v = nearest rnd (if neg then w.neg else w)

/-- an id: a whole number below 2^64, of which the last 32 bits count; a minus negates modulo 2^64 -/
def Id (s : List Char) (id : Nat) : Prop :=
  ∃ neg n, Whole s neg n ∧ n < 2 ^ 64 ∧ id = (if neg then (2 ^ 64 - n) % 2 ^ 64 else n) % 2 ^ 32

/-- the texts that mean yes -/
def Yes (s : List Char) : Prop := String.ofList s ∈ ["1", "true", "True", "TRUE"]

end Verif.NumberSpec
