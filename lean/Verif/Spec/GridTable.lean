import Verif.Model.GridTable

/-!
# What the answers of a table of grids depend on
-/

namespace Verif.GridTable
open Verif.Grid Verif.NllGrid

variable {S G : Type}

/-- the grid used, if there is one within the search distance -/
def inReach (r : Option G × Bool) : Option G := if r.2 then none else r.1

/-- `g` is the grid for the key `k` of a station (or, for velocities, of the table) -/
inductive For (T : Tables S G) : Key S → G → Prop
  | time {phase sta g} (h : inReach (T.time phase sta) = some g) : For T (.time phase (T.print sta)) g
  | velocity {phase g} (h : T.velocity phase = some g) : For T (.velocity phase) g
  | angle {phase sta g} (h : inReach (T.angle phase sta) = some g) : For T (.angle phase (T.print sta)) g

/-- stations whose printed coordinates are the same have the same nearest grids -/
def PrintedApart (T : Tables S G) : Prop :=
  ∀ a b, T.print a = T.print b → ∀ phase, T.time phase a = T.time phase b ∧ T.angle phase a = T.angle phase b

/-- the data file is smaller than 2^63 bytes and the size declared in the header fits in 64 bits -/
def Fits (d : GridData) : Prop :=
  d.info.numx * d.info.numy * d.info.numz * 8 < 2 ^ 64 ∧ d.file.length < 2 ^ 63

/-- the operating system opens, maps and reads the data file of the grid -/
def Works (T : Tables S G) (os : Key S → Answers) : Prop :=
  ∀ k g, For T k g → os k = ⟨some (T.data g).file, true, true, some (T.data g).file.length⟩

/-- the operating system may refuse anything, but what it opens is the data file of the grid -/
def MayFail (T : Tables S G) (os : Key S → Answers) : Prop :=
  ∀ k g, For T k g → (os k).file = none ∨ (os k).file = some (T.data g).file

/-- the answers of the operating system during a request -/
def Request.All (P : (Key S → Answers) → Prop) : Request S → Prop
  | .time _ _ _ os => P os
  | .ray _ _ _ os => P os
  | .closeOpenFiles => True

/-- the same request on another day -/
inductive Same : Request S → Request S → Prop
  | time (phase ev sta os os') : Same (.time phase ev sta os) (.time phase ev sta os')
  | ray (phase ev sta os os') : Same (.ray phase ev sta os) (.ray phase ev sta os')
  | closeOpenFiles : Same .closeOpenFiles .closeOpenFiles

end Verif.GridTable
