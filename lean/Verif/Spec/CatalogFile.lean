import Verif.Model.Catalog
import Verif.Base.Fl
import Verif.Spec.Decimal

/-!
# What a catalog is read back as

`rnd` rounds a decimal number to the nearest double.
-/

namespace Verif.CatalogFile.Spec
open Verif.Catalog Verif.Decimal.Spec

/-- a finite number is read as one related to it by `R`, infinities and NaN as themselves -/
def NumRead (rnd : ℚ → ℚ) (R : ℚ → ℚ → Prop) : Fl ℚ → Fl ℚ → Prop
  | .num x, y => ∃ z, R x z ∧ y = .num (rnd z)
  | .inf s, y => y = .inf s
  | .nan, y => y = .nan

structure StationRead (rnd : ℚ → ℚ) (s s' : Station (Fl ℚ)) : Prop where
  id : s'.id = s.id
  codes : s'.networkCode = s.networkCode ∧ s'.stationCode = s.stationCode ∧ s'.locationCode = s.locationCode
  latitude : NumRead rnd (Nearest 8) s.latitude s'.latitude
  longitude : NumRead rnd (Nearest 8) s.longitude s'.longitude
  elevation : NumRead rnd (Nearest 3) s.elevation s'.elevation

/-- `load`: the relocation information is asked for -/
structure EventRead (rnd : ℚ → ℚ) (load : Bool) (e e' : Event (Fl ℚ)) : Prop where
  id : e'.id = e.id
  time : e'.time = e.time
  latitude : NumRead rnd (Nearest 8) e.latitude e'.latitude
  longitude : NumRead rnd (Nearest 8) e.longitude e'.longitude
  depth : NumRead rnd (Nearest 6) e.depth e'.depth
  magnitude : NumRead rnd (Nearest 3) e.magnitude e'.magnitude
  isRelocated : e'.isRelocated = (load && e.isRelocated)
  startRms : e'.isRelocated = true → NumRead rnd SixSignificant e.startRms e'.startRms
  finalRms : e'.isRelocated = true → NumRead rnd SixSignificant e.finalRms e'.finalRms

structure PhaseRead (rnd : ℚ → ℚ) (load : Bool) (p p' : Phase (Fl ℚ)) : Prop where
  eventId : p'.eventId = p.eventId
  stationId : p'.stationId = p.stationId
  time : p'.time = p.time
  type : p'.type = p.type
  codes : p'.networkCode = p.networkCode ∧ p'.stationCode = p.stationCode ∧ p'.locationCode = p.locationCode ∧
    p'.channelCode = p.channelCode
  lowerUncertainty : NumRead rnd SixSignificant p.lowerUncertainty p'.lowerUncertainty
  upperUncertainty : NumRead rnd SixSignificant p.upperUncertainty p'.upperUncertainty
  isRelocated : p'.isRelocated = (load && p.isRelocated)
  weight : p'.isRelocated = true → NumRead rnd SixSignificant p.weight p'.weight
  startResidual : p'.isRelocated = true → NumRead rnd SixSignificant p.startResidual p'.startResidual
  finalResidual : p'.isRelocated = true → NumRead rnd SixSignificant p.finalResidual p'.finalResidual

end Verif.CatalogFile.Spec
