import Verif.Base.AMap

/-!
# Model of `libs/hdd/lrucache.h`

The C++ class keeps a doubly linked list of (key,value) and a hash map from key to list iterator.
Here a list iterator is the address of a list node (a `Nat` handed out by `fresh`), so that a
dangling iterator is representable and using one is a distinct outcome (`none` = undefined
behaviour).
-/

namespace Verif.Lru

variable {K V : Type} [DecidableEq K]

/-- lrucache.h:131-134 `_cache_items_list` (front first, each node with its address),
`_cache_items_map`, `_max_size`.  `fresh` is the next node address (allocator). -/
structure Cache (K V : Type) where
  maxSize : Nat
  items : List (Nat × K × V)
  map : AMap K Nat
  fresh : Nat

/-- lrucache.h:60 `lru_cache(size_t max_size)` -/
def init (n : Nat) : Cache K V := { maxSize := n, items := [], map := [], fresh := 0 }

/-- `std::list::erase(iterator)`; `none` when the iterator is dangling (undefined behaviour). -/
def eraseNode (l : List (Nat × K × V)) (a : Nat) : Option (List (Nat × K × V)) :=
  if a ∈ l.map (·.1) then some (l.filter (fun n => n.1 ≠ a)) else none

/-- lrucache.h:84-88, part of `put`: if the key was present, erase its old node and map entry. -/
def unlinkOld (items1 : List (Nat × K × V)) (map : AMap K Nat) (k : K) :
    Option (List (Nat × K × V) × AMap K Nat) :=
  match AMap.find? map k with
  | some a => (eraseNode items1 a).map (fun l => (l, AMap.erase map k))
  | none => some (items1, map)

/-- lrucache.h:71-103 `put`. Returns the new cache and the list of callback invocations
(a registered callback is assumed; values are passed by value).  `none` = undefined behaviour. -/
def put (s : Cache K V) (k : K) (v : V) : Option (Cache K V × List (K × V)) :=
  if s.maxSize = 0 then some (s, [(k, v)])                         -- :73-80
  else
    let items1 := (s.fresh, k, v) :: s.items                         -- :82-83
    match unlinkOld items1 s.map k with                              -- :84-88
    | none => none
    | some (items2, map1) =>
      let map2 := AMap.set map1 k s.fresh                            -- :89
      if map2.length > s.maxSize then                                -- :91
        match items2.getLast? with                                   -- :93-94
        | none => none
        | some (_, k', v') =>
          some ({ s with items := items2.dropLast, map := AMap.erase map2 k', fresh := s.fresh + 1 },
                [(k', v')])                                          -- :95-101
      else some ({ s with items := items2, map := map2, fresh := s.fresh + 1 }, [])

/-- lrucache.h:105-115 `get`. Inner `none` = `range_error` thrown; outer `none` = undefined
behaviour. -/
def get (s : Cache K V) (k : K) : Option (Cache K V × Option V) :=
  match AMap.find? s.map k with
  | none => some (s, none)                                           -- :108-111
  | some a =>
    match s.items.find? (fun n => n.1 = a) with
    | none => none
    | some n =>
      some ({ s with items := n :: s.items.filter (fun m => m.1 ≠ a) }, some n.2.2)  -- :112-114

/-- lrucache.h:117-120 `exists` -/
def contains (s : Cache K V) (k : K) : Bool := (AMap.find? s.map k).isSome

/-- lrucache.h:122 `size` -/
def size (s : Cache K V) : Nat := s.map.length

/-- lrucache.h:124-128 `clear` (the callback is not invoked) -/
def clear (s : Cache K V) : Cache K V := { s with items := [], map := [] }

end Verif.Lru
