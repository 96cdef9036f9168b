import Verif.Model.Relocate

/-!
# Vocabulary of the statements about relocation (C47–C50, C61)

Only the data types of the model are used, and the reading functions of the solver specification.
-/

namespace Verif.Relocate
open Verif.Catalog

variable {K : Type} [Field K] [LinearOrder K]

/-- `p` is a pick of event `id` at the station and of the phase type `sp`. -/
def IsPick (c : Catalog K) (id : Nat) (sp : StaPhase) (p : Phase K) : Prop :=
  p ∈ c.phasesOf id ∧ p.stationId = sp.1 ∧ p.type = sp.2

/-- seconds from origin time to pick -/
def travelTime (ev : Event K) (p : Phase K) : K := ((p.time - ev.time : Int) : K) / 1000000

/-- A usable cross-correlation result of the pair: recorded, valid and at or above the threshold. -/
def Usable (xc : XCorr.Cache) (e1 e2 : Nat) (sp : StaPhase) (threshold : K) (e : XCorr.Entry) : Prop :=
  XCorr.get xc e1 e2 sp.1 sp.2 = some e ∧ e.valid = true ∧ threshold ≤ |(e.coeff : K)|

/-- The observation `x` of reference event `refEv` (pick `rp`) and neighbour `ev` (pick `p`). -/
structure ObservationOf (o : ObsOptions K) (xc : XCorr.Cache) (refEv ev : Event K) (sp : StaPhase)
    (rp p : Phase K) (threshold : K) (x : ObsArg K) : Prop where
  ids : x.e1 = refEv.id ∧ x.e2 = ev.id ∧ x.sta = sp.1.toList ∧ x.phase = sp.2.toList
  /-- no pick precedes its origin -/
  nonneg : refEv.time ≤ rp.time ∧ ev.time ≤ p.time
  /-- without a usable correlation: the difference of the travel times and the a-priori weight -/
  picksOnly : (∀ e, ¬ Usable xc refEv.id ev.id sp threshold e) →
    x.xcorrUsed = false ∧ x.timeDiff = travelTime refEv rp - travelTime ev p ∧
    x.weight = if o.usePickUncertainties then (rp.classWeight + p.classWeight) / 2 else 1
  /-- with a usable correlation: corrected by the lag; the weight goes from the a-priori weight
  (coefficient 0) to the a-priori weight times the scaler (coefficient ±1) -/
  corrected : ∀ e, Usable xc refEv.id ev.id sp threshold e →
    x.xcorrUsed = true ∧ x.xcorrCoeff = (e.coeff : K) ∧
    x.timeDiff = travelTime refEv rp - travelTime ev p - (e.lag : K) ∧
    ∀ w0, (w0 = if o.usePickUncertainties then (rp.classWeight + p.classWeight) / 2 else 1) →
      x.weight = (1 - |(e.coeff : K)|) * w0 + |(e.coeff : K)| * (w0 * o.xcorrWeightScaler)

/-- Travel times of an event can be computed at a station for a pick. -/
def Computable (env : Env K) (c : Catalog K) (ev : Event K) (p : Phase K) : Prop :=
  ∃ st i, c.stations.find? p.stationId = some st ∧
    env.ttt ev st (if env.psTableOnly then
      (match p.procType with | .P => "P" | .S => "S" | .NO => p.type) else p.type) = some i

/-! ## Whole relocations -/

/-- The cluster lists each event once, under its own id. -/
structure GoodCluster (cluster : Cluster) : Prop where
  nodup : (cluster.map (·.1)).Nodup
  key : ∀ kv ∈ cluster, kv.2.refId = kv.1

/-- Conditions on the arguments of a relocation: a proper cluster, and few enough pairs for 32 bit
indices. -/
structure GoodArgs (a : Args K) : Prop where
  cluster : GoodCluster a.cluster
  fits : 28 * (a.cluster.map (·.2.phases.length)).sum ≤ IdToIndex.uintMod

/-- No phase name contains the separator used in the keys of the solver. -/
def NoAt (c : Catalog K) : Prop := ∀ k, ∀ p ∈ c.phasesOf k, '@' ∉ p.type.toList

/-- A pick as given, without anything that relocation computes. -/
def pick0 (p : Phase K) : Phase K :=
  { p with weight := 0, startResidual := 0, finalResidual := 0, isRelocated := false }

/-- Hypocentre, origin time and whether relocated. -/
def place (e : Event K) : Nat × Int × K × K × K × K × Bool :=
  (e.id, e.time, e.latitude, e.longitude, e.depth, e.magnitude, e.isRelocated)

/-- In some iteration the solver answered for event `k`, and the event was not restored in the next
iteration. -/
def KeptSolution (log : List (IterLog K)) (k : Nat) : Prop :=
  ∃ (i : Nat) (x : IterLog K) (ans : Answer K), log[i]? = some x ∧ x.answer = some ans ∧
    (ans.changes k).isSome = true ∧ ∀ y, log[i + 1]? = some y → k ∉ y.reverted

/-- Event `k` is marked as relocated in the catalog. -/
def Marked (c : Catalog K) (k : Nat) : Prop := ∃ e, c.events.find? k = some e ∧ e.isRelocated = true

end Verif.Relocate
