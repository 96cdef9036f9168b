import Mathlib.Algebra.Order.Field.Basic

/-!
# Floating point values: a number of an exact ordered field, an infinity, or NaN

Rounding and overflow are not modelled and there is one zero only, but division by zero, infinities
and NaN follow IEEE 754, which is what the C++ code runs into.
-/

namespace Verif

inductive Fl (K : Type) where
  | num (x : K)
  | inf (neg : Bool)
  | nan
deriving DecidableEq, Repr

namespace Fl
variable {K : Type} [Field K] [LinearOrder K]

def neg : Fl K → Fl K
  | num x => num (-x)
  | inf s => inf (!s)
  | nan => nan

def add : Fl K → Fl K → Fl K
  | nan, _ => nan
  | _, nan => nan
  | num x, num y => num (x + y)
  | num _, inf s => inf s
  | inf s, num _ => inf s
  | inf s, inf t => if s = t then inf s else nan

def sub (a b : Fl K) : Fl K := a.add b.neg

def mul : Fl K → Fl K → Fl K
  | nan, _ => nan
  | _, nan => nan
  | num x, num y => num (x * y)
  | num x, inf s => if x = 0 then nan else inf (s ^^ decide (x < 0))
  | inf s, num x => if x = 0 then nan else inf (s ^^ decide (x < 0))
  | inf s, inf t => inf (s ^^ t)

def div : Fl K → Fl K → Fl K
  | nan, _ => nan
  | _, nan => nan
  | num x, num y => if y = 0 then (if x = 0 then nan else inf (decide (x < 0))) else num (x / y)
  | num _, inf _ => num 0
  | inf s, num x => inf (s ^^ decide (x < 0))
  | inf _, inf _ => nan

/-- `a < b`, false when one of them is NaN -/
def lt : Fl K → Fl K → Bool
  | num x, num y => decide (x < y)
  | num _, inf s => !s
  | inf s, num _ => s
  | inf s, inf t => s && !t
  | _, _ => false

/-- `std::max(a, b)`, i.e. `(a < b) ? b : a` -/
def max (a b : Fl K) : Fl K := if a.lt b then b else a

/-- `HDD::square` -/
def square (a : Fl K) : Fl K := a.mul a

/-- `std::isfinite` -/
def isFinite : Fl K → Bool
  | num _ => true
  | _ => false

end Fl
end Verif
