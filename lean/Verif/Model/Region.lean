import Mathlib.Data.Rat.Defs
import Mathlib.Algebra.Order.Ring.Rat

/-!
# Model of the region test and profile selection  (apps/scrtdd/rtddtool.cpp)

Coordinates are rationals instead of doubles.  The great-circle distance used by the circular region
(`Math::Geo::delta`, SeisComP) is a parameter.
-/

namespace Verif.Region

/-- rtddtool.cpp:107-150 (`RectangularRegion`) and 154-194 (`CircularRegion`); an empty `region`
parameter gives `everywhere` (lines 118-119, 165-166) -/
inductive Region where
  | everywhere
  | rect (latMin lonMin latMax lonMax : ℚ)
  | circ (lat lon radius : ℚ)

/-- rtddtool.cpp:136-144 -/
def rectInside (latMin lonMin latMax lonMax lat lon : ℚ) : Bool :=
  if lat < latMin ∨ lat > latMax then false
  else
    let lonRange := lonMax - lonMin
    let lonRange := if lonRange < 0 then lonRange + 360 else lonRange
    let lonDelta := lon - lonMin
    let lonDelta := if lonDelta < 0 then lonDelta + 360 else lonDelta
    decide (lonDelta ≤ lonRange)

/-- rtddtool.cpp:132-145, 178-190. `distKm` is the external distance. -/
def isInside (distKm : ℚ → ℚ → ℚ → ℚ → ℚ) (r : Region) (lat lon : ℚ) : Bool :=
  match r with
  | .everywhere => true
  | .rect a b c d => rectInside a b c d lat lon
  | .circ clat clon radius => decide (distKm clat clon lat lon ≤ radius)

/-- rtddtool.h: the parts of `Profile` used for the selection -/
structure Profile where
  name : String
  region : Region

/-- Body and loop of rtddtool.cpp:1856-1878: `currProfile` is the accumulator -/
def getProfileLoop (distKm : ℚ → ℚ → ℚ → ℚ → ℚ) (lat lon : ℚ) (force : String) :
    List Profile → Option Profile
  | [] => none
  | p :: ps =>
    let curr := if force ≠ "" then (if p.name = force then some p else none)
      else (if isInside distKm p.region lat lon then some p else none)
    match curr with
    | some q => some q
    | none => getProfileLoop distKm lat lon force ps

/-- rtddtool.cpp:1836-1854: an origin without coordinates has no profile -/
def getProfile (distKm : ℚ → ℚ → ℚ → ℚ → ℚ) (profiles : List Profile) (coord : Option (ℚ × ℚ))
    (force : String) : Option Profile :=
  match coord with
  | none => none
  | some (lat, lon) => getProfileLoop distKm lat lon force profiles

/-- rtddtool.cpp:1821-1834 -/
def getProfileByName (profiles : List Profile) (name : String) : Option Profile :=
  if name = "" then none else profiles.find? (fun p => p.name = name)

end Verif.Region
