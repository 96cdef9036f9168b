import Verif.Model.Lru
import Verif.Model.Grid

/-!
# Model of the grid handles of `NLLGrid` (libs/hdd/ttt/nllgrid.cpp:187-454)

The table keeps an LRU cache of grids in use and closes a grid when its key is evicted.  A grid is an
element of an arbitrary type with its own file handle; the nearest-grid search and the answers of the
operating system are arbitrary inputs of every request.

Simplification: the value read is not computed here (see `Model/Grid`); a request ends with the handle it
reads from.
-/

namespace Verif.NllGrid
open Verif.Grid

/-- the keys of nllgrid.cpp:209-210, 314, 377-378: kind of grid, phase type, station coordinates printed
with six decimals (`S`) -/
inductive Key (S : Type) where
  | time (phase : String) (sta : S)
  | velocity (phase : String)
  | angle (phase : String) (sta : S)
deriving DecidableEq

variable {S G : Type} [DecidableEq S] [DecidableEq G]

/-- nllgrid.h: `_openGrids`, `_unloadables`, `_openMode` and the handles of all grids -/
structure State (S G : Type) where
  cache : Lru.Cache (Key S) G
  unloadables : List (Key S)
  mode : Mode
  handles : G → Handle

/-- nllgrid.cpp:50-74, 187-197: nothing is open after construction -/
def init (maxOpenFiles : Nat) (mode : Mode) (m0 : G → Mode) : State S G :=
  ⟨Lru.init maxOpenFiles, [], mode, fun g => { mode := m0 g }⟩

/-- inputs of one grid access: the grid found for the key (the nearest one, `none` if there is none),
whether it is farther than the search distance, and the answers of the operating system -/
structure Input (G : Type) where
  found : Option G
  tooFar : Bool
  os : Answers

def setHandle (h : G → Handle) (g : G) (v : Handle) : G → Handle := fun g' => if g' = g then v else h g'

/-- the eviction callback, nllgrid.cpp:192-196 -/
def closeAll (h : G → Handle) (evicted : List (Key S × G)) : G → Handle :=
  evicted.foldl (fun h p => setHandle h p.2 (h p.2).close) h

/-- opening and reading, nllgrid.cpp:274-289 (time), 356-372 (velocity), 442-457 (angle) -/
def useGrid (s : State S G) (key : Key S) (g : G) (os : Answers) : State S G × Outcome (G × Handle) :=
  if (s.handles g).isOpen then (s, .ok (g, s.handles g))
  else
    match (s.handles g).open s.mode os with
    | (h', true) => ({ s with handles := setHandle s.handles g h' }, .ok (g, h'))
    | (h', false) =>
      ({ s with handles := setHandle s.handles g h', unloadables := key :: s.unloadables }, .throws)

/-- one grid access, nllgrid.cpp:209-289 (time), 314-372 (velocity), 377-457 (angle) -/
def access (s : State S G) (key : Key S) (i : Input G) : State S G × Outcome (G × Handle) :=
  match Lru.get s.cache key with
  | none => (s, .ub)
  | some (c, some g) => useGrid { s with cache := c } key g i.os                -- :213-217
  | some (c, none) =>
    let s := { s with cache := c }
    if key ∈ s.unloadables then (s, .throws)                                     -- :221-224
    else
      match i.found with
      | none =>
        match key with
        | .velocity _ => (s, .throws)                                            -- :340-344
        | _ => ({ s with unloadables := key :: s.unloadables }, .throws)         -- :248-252
      | some g =>
        if i.tooFar then ({ s with unloadables := key :: s.unloadables }, .throws)  -- :254-262
        else
          match Lru.put s.cache key g with                                       -- :265
          | none => (s, .ub)
          | some (c', evicted) =>
            useGrid { s with cache := c', handles := closeAll s.handles evicted } key g i.os

/-- nllgrid.cpp:199 -/
def closeOpenFiles (s : State S G) : State S G := { s with cache := Lru.clear s.cache }

/-- operations of a history: the two forms of `compute` are sequences of accesses that stop at the
first exception -/
inductive Op (S G : Type) where
  | compute (accesses : List (Key S × Input G))
  | closeOpenFiles

/-- nllgrid.cpp:201-290, 292-469 -/
def compute (s : State S G) : List (Key S × Input G) → State S G × Outcome (List (G × Handle))
  | [] => (s, .ok [])
  | (k, i) :: rest =>
    match access s k i with
    | (s', .ok r) =>
      match compute s' rest with
      | (s'', .ok rs) => (s'', .ok (r :: rs))
      | (s'', .throws) => (s'', .throws)
      | (s'', .ub) => (s'', .ub)
    | (s', .throws) => (s', .throws)
    | (s', .ub) => (s', .ub)

def step (s : State S G) : Op S G → State S G × Outcome (List (G × Handle))
  | .compute l => compute s l
  | .closeOpenFiles => (closeOpenFiles s, .ok [])

/-- a history, oldest first -/
def run (s : State S G) : List (Op S G) → State S G
  | [] => s
  | o :: l => run (step s o).1 l

end Verif.NllGrid
