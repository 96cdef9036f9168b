import Verif.Base.AMap
import Mathlib.Algebra.Order.Field.Rat

/-!
# Model of `libs/hdd/xcorrcache.h`

Doubles are `ℚ` (only copied and negated by this class). Event ids are `Nat`, station ids and phase
types are `String`.
-/

namespace Verif.XCorr

/-- xcorrcache.h:44-48 `XCorrCache::Entry` -/
structure Entry where
  valid : Bool
  coeff : ℚ
  lag : ℚ
deriving DecidableEq

/-- the opposite direction: xcorrcache.h:136 `out.lag = -out.lag` -/
def Entry.neg (e : Entry) : Entry := { e with lag := -e.lag }

/-- xcorrcache.h:166-171 `_entries`, indexed by event, station, phase type, event -/
abbrev Cache := AMap Nat (AMap String (AMap String (AMap Nat Entry)))

/-- `_entries.at(e1).at(sta).at(ph).at(e2)`; `none` = `out_of_range` thrown -/
def at? (c : Cache) (e1 : Nat) (sta ph : String) (e2 : Nat) : Option Entry :=
  (AMap.find? c e1).bind fun m1 => (AMap.find? m1 sta).bind fun m2 =>
    (AMap.find? m2 ph).bind fun m3 => AMap.find? m3 e2

/-- `operator[]` default-inserts the nested maps: `_entries[e1][sta][ph][e2] = e` -/
def assign (c : Cache) (e1 : Nat) (sta ph : String) (e2 : Nat) (e : Entry) : Cache :=
  let m1 := (AMap.find? c e1).getD []
  let m2 := (AMap.find? m1 sta).getD []
  let m3 := (AMap.find? m2 ph).getD []
  AMap.set c e1 (AMap.set m1 sta (AMap.set m2 ph (AMap.set m3 e2 e)))

/-- `try { _entries.at(e1).at(sta).at(ph).erase(e2); } catch (out_of_range) {}` -/
def eraseAt (c : Cache) (e1 : Nat) (sta ph : String) (e2 : Nat) : Cache :=
  match AMap.find? c e1 with
  | none => c
  | some m1 =>
    match AMap.find? m1 sta with
    | none => c
    | some m2 =>
      match AMap.find? m2 ph with
      | none => c
      | some m3 => AMap.set c e1 (AMap.set m1 sta (AMap.set m2 ph (AMap.erase m3 e2)))

/-- xcorrcache.h:62-80 `add` -/
def add (c : Cache) (e1 e2 : Nat) (sta ph : String) (e : Entry) : Cache :=
  eraseAt (assign c e1 sta ph e2 e) e2 sta ph e1

/-- xcorrcache.h:92-109 `remove` -/
def remove (c : Cache) (e1 e2 : Nat) (sta ph : String) : Cache :=
  eraseAt (eraseAt c e1 sta ph e2) e2 sta ph e1

/-- xcorrcache.h:120-142 `get` (`none` = returns false) -/
def get (c : Cache) (e1 e2 : Nat) (sta ph : String) : Option Entry :=
  match at? c e1 sta ph e2 with
  | some e => some e
  | none =>
    match at? c e2 sta ph e1 with
    | some e => some e.neg
    | none => none

/-- xcorrcache.h:111-118 `has` -/
def has (c : Cache) (e1 e2 : Nat) (sta ph : String) : Bool := (get c e1 e2 sta ph).isSome

/-- xcorrcache.h:60 `empty` -/
def empty (c : Cache) : Bool := c.isEmpty

/-- xcorrcache.h:150-159 `forEach`: the sequence of callback arguments, in iteration order -/
def forEach (c : Cache) : List (Nat × Nat × String × String × Entry) :=
  c.flatMap fun kv1 => kv1.2.flatMap fun kv2 => kv2.2.flatMap fun kv3 =>
    kv3.2.map fun kv4 => (kv1.1, kv4.1, kv2.1, kv3.1, kv4.2)

/-- xcorrcache.h:82-90 `add(const XCorrCache &)` -/
def merge (c other : Cache) : Cache :=
  (forEach other).foldl (fun c x => add c x.1 x.2.1 x.2.2.1 x.2.2.2.1 x.2.2.2.2) c

end Verif.XCorr
