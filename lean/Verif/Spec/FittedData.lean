import Verif.Spec.Residuals
import Verif.Spec.Iteration

/-!
# Catalogs whose picks fit the velocity model (specification of C118)
-/

namespace Verif.FittedData
open Verif.Catalog Verif.Relocate

/-- Where and when an event happened. -/
def hypocentre (e : Event ℝ) : ℝ × ℝ × ℝ × Int := (e.latitude, e.longitude, e.depth, e.time)

/-- The travel time to a station depends on where and when the event is said to have happened, not on the other things that are
recorded about it. -/
def ByHypocentre (env : Env ℝ) : Prop :=
  ∀ e e' st phase, hypocentre e = hypocentre e' → env.ttt e st phase = env.ttt e' st phase

/-- Moving by nothing is not moving. -/
def Still (env : Env ℝ) : Prop := (∀ lat lon depth, env.coords 0 0 lat lon depth = (lat, lon)) ∧ env.secToDur 0 = 0

/-- the name under which the travel time of a pick is asked for -/
def tableName (env : Env ℝ) (p : Phase ℝ) : String :=
  if env.psTableOnly ∧ p.procType = .P then "P" else if env.psTableOnly ∧ p.procType = .S then "S" else p.type

/-- Every pick is where the velocity model predicts it, as far as the model predicts anything. -/
def PicksFit (env : Env ℝ) (cat : Catalog ℝ) : Prop :=
  ∀ k ev p st tt, cat.events.find? k = some ev → p ∈ cat.phasesOf k → cat.stations.find? p.stationId = some st →
    env.ttt ev st (tableName env p) = some tt → travelTime ev p = tt.tt

/-- No event has two different picks of the same phase at the same station. -/
def OnePick (cat : Catalog ℝ) : Prop :=
  ∀ k, ∀ p ∈ cat.phasesOf k, ∀ p' ∈ cat.phasesOf k, p.stationId = p'.stationId → p.type = p'.type →
    p.time = p'.time ∧ p.procType = p'.procType

/-- The waveforms agree with the picks: no valid cross-correlation asks for a shift. -/
def NoLag (xc : XCorr.Cache) : Prop := ∀ e1 e2 sta phase e, XCorr.get xc e1 e2 sta phase = some e → e.valid = true → e.lag = 0

end Verif.FittedData
