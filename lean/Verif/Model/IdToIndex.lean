import Verif.Base.AMap
import Verif.Base.Outcome

/-!
# Model of `HDD::IdToIndex`  (libs/hdd/index.h)
-/

namespace Verif

/-- libs/hdd/index.h:40-81 -/
structure IdToIndex (T : Type) where
  current : Nat
  fwd : AMap T Nat
  frm : AMap Nat T

namespace IdToIndex
variable {T : Type} [DecidableEq T]

/-- size of `unsigned` (index.h:43,78) -/
def uintMod : Nat := 4294967296

/-- index.h:78-80 -/
def init : IdToIndex T := ⟨0, [], []⟩

/-- index.h:43-51; `_currentIdx++` wraps at 2³² -/
def convert (m : IdToIndex T) (id : T) : IdToIndex T × Nat :=
  match m.fwd.find? id with
  | some idx => (m, idx)
  | none =>
    ({ current := (m.current + 1) % uintMod
       fwd := m.fwd.set id m.current
       frm := m.frm.set m.current id }, m.current)

/-- index.h:53, `at` throws on a missing key -/
def toIdx (m : IdToIndex T) (id : T) : Outcome Nat :=
  match m.fwd.find? id with
  | some i => .ok i
  | none => .throws

/-- index.h:54 -/
def fromIdx (m : IdToIndex T) (i : Nat) : Outcome T :=
  match m.frm.find? i with
  | some x => .ok x
  | none => .throws

/-- index.h:57,67-73 -/
def hasId (m : IdToIndex T) (id : T) : Bool := (m.fwd.find? id).isSome

/-- index.h:56,59-65 -/
def hasIdx (m : IdToIndex T) (i : Nat) : Bool := (m.frm.find? i).isSome

/-- index.h:75 -/
def size (m : IdToIndex T) : Nat := m.fwd.length

/-- A history of `convert` calls. -/
def run (ids : List T) : IdToIndex T := ids.foldl (fun m id => (m.convert id).1) init

end IdToIndex
end Verif
