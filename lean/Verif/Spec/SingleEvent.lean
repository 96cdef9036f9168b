import Verif.Model.SingleEvent
import Verif.Spec.Relocate
import Verif.Spec.Solver
import Verif.Props.Selection

/-!
# What single-event relocation must satisfy (specification of C50 and C98)
-/

set_option linter.unusedSectionVars false

namespace Verif.SingleEvent
open Verif.Catalog

variable {K : Type} [Field K] [LinearOrder K]

/-- The event `e` with the picks `ps`, under the number `n`, as the only event of a catalog. -/
def numbered (sts : AMap String (Station K)) (e : Event K) (ps : List (Phase K)) (n : Nat) : Catalog K :=
  ⟨sts, [(n, { e with id := n })], ps.map (fun p => (n, { p with eventId := n }))⟩

/-- A pick of the event as relocation starts from it: classified, weighted, and of the event `id`. -/
def asUsed (u : Setup K) (isManual : Bool) (id : Nat) (p : Phase K) : Phase K :=
  { p with
    eventId := id
    classWeight := u.pickWeight p.lowerUncertainty p.upperUncertainty
    source := if isManual then .rtEventManual else .rtEventAutomatic
    procType := Catalog.classify u.validP u.validS p.type }

/-- The event of the background catalog with number `k` may serve as neighbour of the event `e` of the catalog `cat`: it is
in reach and some station has usable picks of both events, as asked for in C28. -/
def MayServe (u : Setup K) (bg cat : Catalog K) (isManual : Bool) (e : Event K) (k : Nat) : Prop :=
  ∃ p event phs, (p, k) ∈ u.tree.points ∧ Selection.InReach u.geo u.cfg (Selection.eventPt e) p ∧
    Selection.Chosen u.geo u.cfg bg e (prepare u cat isManual) k event (u.geo.dist p (Selection.eventPt e)) phs

/-- What relocating the event number `n` of `cat` as number `newId` with the neighbours `ids` must satisfy. -/
structure OnlyTarget (u : Setup K) (bg cat : Catalog K) (isManual : Bool) (n newId : Nat) (ids : List Nat)
    (r : Catalog K) (log : List (Relocate.IterLog K)) : Prop where
  /-- the number is not that of a neighbour -/
  fresh : newId ∉ ids
  /-- in every iteration every neighbour is as in the background catalog, hypocentre and picks -/
  neighbours : ∀ x ∈ log, ∀ k ∈ ids,
    x.before.events.find? k = bg.events.find? k ∧ x.before.phasesOf k = bg.phasesOf k ∧
    x.after.events.find? k = bg.events.find? k ∧ x.after.phasesOf k = bg.phasesOf k
  /-- the parameters given to the solver are free for the event only -/
  free : ∀ x ∈ log, ∀ q ∈ Solver.parOf x.ops, (q.free = true ↔ q.ev = newId) ∧ (q.ev = newId ∨ q.ev ∈ ids)
  /-- only the event is returned, unless a neighbour was marked as relocated before -/
  returned : (∀ k ∈ ids, ¬ Relocate.Marked bg k) → ∀ k, (r.events.find? k).isSome = true → k = newId
  /-- with all of its own picks -/
  picks : (r.events.find? newId).isSome = true →
    (r.phasesOf newId).map Relocate.pick0 = (cat.phasesOf n).map (fun p => Relocate.pick0 (asUsed u isManual newId p))

end Verif.SingleEvent
