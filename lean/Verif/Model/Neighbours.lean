import Verif.Model.Catalog

/-!
# Model of `HDD::Neighbours` (libs/hdd/clustering.h:43-103, libs/hdd/clustering.cpp:39-180)

`std::map<unsigned, std::map<string, std::set<string>>>` is an `AMap` from the neighbour's id to the
list, without duplicates, of its (station, phase type) pairs.  Simplification: the order of the two
inner containers, which only decides the order of `phases()` and of the rows of the pair file, is the
order of insertion.
-/

namespace Verif

/-- a station id and a phase type -/
abbrev StaPhase := String × String

/-- clustering.h:98-102 -/
structure Neighbours where
  refId : Nat
  nbs : AMap Nat (List StaPhase)
deriving DecidableEq

namespace Neighbours

/-- clustering.h:46 -/
def empty (refId : Nat) : Neighbours := ⟨refId, []⟩

/-- clustering.cpp:43 -/
def amount (n : Neighbours) : Nat := n.nbs.length

/-- clustering.cpp:45-54 -/
def ids (n : Neighbours) : List Nat := n.nbs.keys

/-- clustering.cpp:145-165; nothing for an event that is not a neighbour -/
def phasesOf (n : Neighbours) (id : Nat) : List StaPhase := (n.nbs.find? id).getD []

/-- clustering.cpp:124-143 -/
def phases (n : Neighbours) : List (StaPhase × Nat) :=
  n.nbs.flatMap (fun kv => kv.2.map (fun sp => (sp, kv.1)))

/-- insertion into a set -/
def insertSet (l : List StaPhase) (sp : StaPhase) : List StaPhase := if sp ∈ l then l else l ++ [sp]

/-- clustering.cpp:56-61 -/
def add (n : Neighbours) (id : Nat) (sp : StaPhase) : Neighbours :=
  { n with nbs := n.nbs.set id (insertSet (n.phasesOf id) sp) }

/-- clustering.cpp:63 -/
def remove (n : Neighbours) (id : Nat) : Neighbours := { n with nbs := n.nbs.erase id }

/-- clustering.cpp:65-68 -/
def has (n : Neighbours) (id : Nat) : Bool := decide (id ∈ n.ids)

/-- clustering.cpp:90-102 -/
def hasPhase (n : Neighbours) (id : Nat) (sp : StaPhase) : Bool := decide (sp ∈ n.phasesOf id)

/-- clustering.cpp:70-88 -/
def hasStation (n : Neighbours) (id : Nat) (station : String) : Bool := (n.phasesOf id).any (fun sp => sp.1 = station)

/-- clustering.cpp:104-122, as the values inserted into the set -/
def stations (n : Neighbours) : List String := n.nbs.flatMap (fun kv => kv.2.map Prod.fst)

end Neighbours
end Verif
