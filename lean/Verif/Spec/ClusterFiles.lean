import Verif.Model.Neighbours
import Verif.Spec.Catalog

/-!
# Vocabulary of the statements about dumped clusters (C99)
-/

namespace Verif.ClusterFiles
open Verif.Catalog

/-- A cluster lists each event once under its own number, each of its neighbours once, and each phase of
these once. -/
structure Proper (c : AMap Nat Neighbours) : Prop where
  unique : c.NodupKeys
  key : ∀ id n, c.find? id = some n → n.refId = id
  ids : ∀ id n, c.find? id = some n → n.ids.Nodup
  phases : ∀ id n, c.find? id = some n → ∀ b, (n.phasesOf b).Nodup

/-- Two clusters have the same events, each with the same neighbours and for each of them the same stations and
phases. -/
structure Same (c d : AMap Nat Neighbours) : Prop where
  events : ∀ id, id ∈ c.keys ↔ id ∈ d.keys
  pairs : ∀ id n m, c.find? id = some n → d.find? id = some m →
    n.refId = m.refId ∧ ∀ b, (b ∈ n.ids ↔ b ∈ m.ids) ∧ ∀ sp, sp ∈ n.phasesOf b ↔ sp ∈ m.phasesOf b

/-- the name of a file of a cluster; the clusters are numbered from 1 -/
def named (i : Nat) (kind : String) : List Char := ("cluster-" ++ toString i ++ "-" ++ kind ++ ".csv").toList

/-- The order in which a container of events is visited depends only on which events it has. -/
def ByEvents (order : AMap Nat Neighbours → List (Nat × Neighbours)) : Prop :=
  ∀ c d, Proper c → Proper d → Same c d → (order c).map (·.1) = (order d).map (·.1)

/-- a text without comma, quote or end of line -/
def Plain (s : String) : Prop := ∀ c ∈ s.toList, c ≠ ',' ∧ c ≠ '"' ∧ c ≠ '\n' ∧ c ≠ '\r'

/-- The codes of the stations and the types of the phases of a catalog can be written without quotes. -/
structure Printable {D : Type} (bg : Catalog D) : Prop where
  stations : ∀ id s, bg.stations.find? id = some s → Plain s.networkCode ∧ Plain s.stationCode ∧ Plain s.locationCode
  phases : ∀ kp ∈ bg.phases, Plain kp.2.type

/-- `cat` consists of the events of the cluster as they are in `bg`, with their picks, and the stations of these. -/
structure CatalogOf {D : Type} (bg : Catalog D) (c : AMap Nat Neighbours) (cat : Catalog D) : Prop where
  sound : cat.Sound
  events : ∀ k, cat.events.find? k = if k ∈ c.keys then bg.events.find? k else none
  phases : ∀ k ∈ c.keys, cat.phasesOf k = bg.phasesOf k
  stations : ∀ x st, cat.stations.find? x = some st → bg.stations.find? x = some st

end Verif.ClusterFiles
