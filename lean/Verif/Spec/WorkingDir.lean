import Verif.Model.WorkingDir

/-!
# What is expected of the directories (C114)
-/

namespace Verif.WorkingDir

/-- the second of a time in microseconds -/
def second (now : Int) : Int := now / 1000000

/-- a time whose second is a 32-bit number: from 1970 to February 2106 -/
def InRange (now : Int) : Prop := 0 ≤ now ∧ second now < 4294967296

/-- the directories used, without the relocations that used none -/
def used (ns : List (Option Name)) : List Name := ns.filterMap id

end Verif.WorkingDir
