import Verif.Model.Tables
import Verif.Spec.GridHeader

/-!
# What the settings of a travel-time table mean
-/

namespace Verif.Tables.Spec
open Verif.Csv (Str)
open Verif.GridHeader (Num)

/-- the parts of a text between semicolons; several semicolons in a row are like one -/
inductive Parts : Str → List Str → Prop
  | last {x : Str} : ';' ∉ x → Parts x [x]
  | more {x rest : Str} {xs : List Str} (n : Nat) : ';' ∉ x → rest.head? ≠ some ';' → Parts rest xs →
      Parts (x ++ List.replicate (n + 1) ';' ++ rest) (x :: xs)

/-- the last 32 bits of a whole number -/
def Unsigned32 (s : Str) (n : Nat) : Prop := ∃ m, GridHeader.Count s m ∧ n = m % 2 ^ 32

/-- the text of the settings of a table of grid files -/
inductive GridText (rnd : ℚ → ℚ) : Str → Settings → Prop
  | mk {text path name dist swap max access : Str} {d : Num} {n : Nat} :
      Parts text [path, name, dist, swap, max, access] → NumberSpec.Number rnd dist d → Unsigned32 max n →
      GridText rnd text ⟨path, name, d, decide (swap = "swapBytes".toList), n, access⟩

/-- the ways to read grid files -/
def Method (s : Str) : Prop := s = "KeepOpen".toList ∨ s = "LoadIntoMemory".toList ∨ s = "MemoryMapping".toList

/-- The table of the grids in a directory: the method is known, the directory exists, and the files are those of C86. -/
def Opened (rnd : ℚ → ℚ) (disk : Disk) (s : Settings) (g : Grids) : Prop :=
  Method s.accessMethod ∧ g.settings = s ∧ ∃ names, disk.files s.path = some names ∧
    GridHeader.search rnd s.swapBytes s.model (disk.text s.path) (disk.present s.path) {} names = .ok g.index

/-- the name of a parameter of a model -/
def key (model : Str) (name : String) : Str := "ttt.NLLGrid.".toList ++ model ++ ".".toList ++ name.toList

/-- The configuration of a model: the path, which is split at the last slash, and for what is not given 10 m, no swapping, 512
open files and files that are kept open. -/
structure Configured (absolute : Str → Str) (cfg : Config) (model : Str) (s : Settings) : Prop where
  path : ∃ p, cfg.string (key model "tablePath") = some p ∧ '/' ∉ s.model ∧
    (absolute p = s.path ++ '/' :: s.model ∨ (absolute p = s.model ∧ s.path = []))
  distance : (cfg.double (key model "maxSearchDistance") = none ∧ s.maxSearchDistance = .num 10) ∨
    cfg.double (key model "maxSearchDistance") = some s.maxSearchDistance
  swap : (cfg.bool (key model "swapBytes") = none ∧ s.swapBytes = false) ∨ cfg.bool (key model "swapBytes") = some s.swapBytes
  maxOpen : (cfg.int (key model "maxOpenFiles") = none ∧ s.maxOpenFiles = 512) ∨
    ∃ n, cfg.int (key model "maxOpenFiles") = some n ∧ (s.maxOpenFiles : Int) = n % 2 ^ 32
  access : (cfg.string (key model "accessMethod") = none ∧ s.accessMethod = "KeepOpen".toList) ∨
    cfg.string (key model "accessMethod") = some s.accessMethod

/-- `x` is a P phase of the model -/
def IsP (cfg : Config) (model x : Str) : Prop :=
  (∃ l, cfg.strings (key model "P-Phases") = some l ∧ x ∈ l) ∨
    (cfg.strings (key model "P-Phases") = none ∧ (x = "P".toList ∨ x = "Pg".toList ∨ x = "Pn".toList))

/-- `x` is an S phase of the model -/
def IsS (cfg : Config) (model x : Str) : Prop :=
  (∃ l, cfg.strings (key model "S-Phases") = some l ∧ x ∈ l) ∨
    (cfg.strings (key model "S-Phases") = none ∧ (x = "S".toList ∨ x = "Sg".toList ∨ x = "Sn".toList))

end Verif.Tables.Spec
