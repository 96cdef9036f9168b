import Mathlib.Data.Int.Basic

/-!
# The Gregorian calendar (specification)

Textbook rules, no algorithm: lengths of years and months, what a valid date is and which date
follows a given date.
-/

namespace Verif.Calendar

def isLeap (y : Int) : Bool := y % 4 = 0 ∧ (y % 100 ≠ 0 ∨ y % 400 = 0)

def yearLen (y : Int) : Int := if isLeap y then 366 else 365

/-- length of month `m` (1 = January) -/
def monthLen (y : Int) (m : Nat) : Int :=
  match m with
  | 2 => if isLeap y then 29 else 28
  | 4 | 6 | 9 | 11 => 30
  | _ => 31

structure Date where
  year : Int
  month : Nat
  day : Int
deriving DecidableEq, Repr

def Date.Valid (d : Date) : Prop :=
  1 ≤ d.month ∧ d.month ≤ 12 ∧ 1 ≤ d.day ∧ d.day ≤ monthLen d.year d.month

/-- the following day -/
def Date.next (d : Date) : Date :=
  if d.day < monthLen d.year d.month then { d with day := d.day + 1 }
  else if d.month < 12 then { d with month := d.month + 1, day := 1 }
  else { year := d.year + 1, month := 1, day := 1 }

/-- first day of the Unix epoch -/
def epoch : Date := ⟨1970, 1, 1⟩

end Verif.Calendar
