import Verif.Model.XCorrBuild
import Mathlib.Data.Set.Function
import Mathlib.Logic.Function.Basic
import Mathlib.Order.Monotone.Defs

/-!
# What it means that the events have other numbers (specification of C135)

`r` is the new number of an event. It keeps the order of the numbers (`StrictMono r` in the theorems).
-/

namespace Verif.Renumber
open Verif.Catalog Verif.Relocate

variable {K : Type}

/-- an event with another number -/
def event (r : Nat → Nat) (e : Event K) : Event K := { e with id := r e.id }

/-- a phase of an event with another number -/
def phase (r : Nat → Nat) (p : Phase K) : Phase K := { p with eventId := r p.eventId }

/-- The same catalog, the events having other numbers. -/
def catalog (r : Nat → Nat) (c : Catalog K) : Catalog K :=
  { c with
    events := c.events.map (fun kv => (r kv.1, event r kv.2))
    phases := c.phases.map (fun kp => (r kp.1, phase r kp.2)) }

/-- The same neighbours, with other numbers. -/
def neighbours (r : Nat → Nat) (nb : Neighbours) : Neighbours := ⟨r nb.refId, nb.nbs.map (fun kv => (r kv.1, kv.2))⟩

/-- The same cluster, with other numbers. -/
def cluster (r : Nat → Nat) (cl : Cluster) : Cluster := cl.map (fun kv => (r kv.1, neighbours r kv.2))

/-- The same correlation results, with other numbers. -/
def cache (r : Nat → Nat) (c : XCorr.Cache) : XCorr.Cache :=
  c.map (fun e1 => (r e1.1, e1.2.map (fun sta => (sta.1, sta.2.map (fun ph => (ph.1, ph.2.map (fun e2 => (r e2.1, e2.2))))))))

/-- What the solver is told, with other numbers. -/
def op (r : Nat → Nat) : SolverOp K → SolverOp K
  | .event id lat lon depth => .event (r id) lat lon depth
  | .station sta lat lon elevation => .station sta lat lon elevation
  | .obs o => .obs { o with e1 := r o.e1, e2 := r o.e2 }
  | .params p => .params { p with ev := r p.ev }

/-- The same answer for the new numbers, and none for a number that no event has. -/
noncomputable def answer (r : Nat → Nat) (ans : Answer K) : Answer K where
  changes := fun k => (Function.partialInv r k).bind ans.changes
  used := fun k sta ph => ((Function.partialInv r k).map (fun i => ans.used i sta ph)).getD false

/-- What an iteration did, with other numbers. -/
noncomputable def log (r : Nat → Nat) (l : IterLog K) : IterLog K :=
  { l with
    before := catalog r l.before
    after := catalog r l.after
    ops := l.ops.map (op r)
    reverted := l.reverted.map r
    answer := l.answer.map (answer r) }

/-- The result of a relocation, with other numbers. -/
noncomputable def result (r : Nat → Nat) (x : Catalog K × List (IterLog K)) : Catalog K × List (IterLog K) :=
  (catalog r x.1, x.2.map (log r))

/-- A correlation of two picks, with other numbers. -/
def call (r : Nat → Nat) (c : XcorrCall K) : XcorrCall K :=
  { c with refEv := event r c.refEv, refPhase := phase r c.refPhase, ev := event r c.ev, phase := phase r c.phase }

/-- The result of a multi-event relocation, with other numbers. -/
noncomputable def multi (r : Nat → Nat) (s : MultiState K) : MultiState K :=
  { reloc := catalog r s.reloc
    xcorrData := cache r s.xcorrData
    calls := s.calls.map (call r)
    done := s.done.map (fun d => (cache r d.1, result r d.2)) }

/-! ## what is asked from other components does not depend on the numbers -/

/-- The travel times do not depend on the number of the event. -/
def TravelTimesIgnore (r : Nat → Nat) (env : Env K) : Prop := ∀ e st ph, env.ttt (event r e) st ph = env.ttt e st ph

/-- The solver gives the same answers for the new numbers. -/
structure SolverIgnores (r : Nat → Nat) (sol : SolverAnswers K) : Prop where
  prepare : ∀ it ops absLoc down, sol.prepare it (ops.map (op r)) absLoc down = sol.prepare it ops absLoc down
  solve : ∀ it ops damping, sol.solve it (ops.map (op r)) damping = (sol.solve it ops damping).map (answer r)

/-- Distances and the correlation of two waveforms do not depend on the numbers. -/
structure XcorrIgnores (r : Nat → Nat) (x : XcorrArgs K) : Prop where
  evSta : ∀ e st, x.evSta (event r e) st = x.evSta e st
  evEv : ∀ e f, x.evEv (event r e) (event r f) = x.evEv e f
  correlate : ∀ n e p f q, x.correlate n (event r e) (phase r p) (event r f) (phase r q) = x.correlate n e p f q

/-! ## the numbers that occur -/

/-- All event numbers of a catalog are in `S`. -/
def CatalogIn (S : Finset Nat) (c : Catalog K) : Prop :=
  (∀ kv ∈ c.events, kv.1 ∈ S ∧ kv.2.id ∈ S) ∧ ∀ kp ∈ c.phases, kp.1 ∈ S ∧ kp.2.eventId ∈ S

/-- All event numbers of a cluster are in `S`. -/
def ClusterIn (S : Finset Nat) (cl : Cluster) : Prop := ∀ kv ∈ cl, kv.1 ∈ S ∧ kv.2.refId ∈ S ∧ ∀ n ∈ kv.2.nbs, n.1 ∈ S

/-- All event numbers of correlation results are in `S`. -/
def CacheIn (S : Finset Nat) (c : XCorr.Cache) : Prop :=
  ∀ e1 ∈ c, e1.1 ∈ S ∧ ∀ sta ∈ e1.2, ∀ ph ∈ sta.2, ∀ e2 ∈ ph.2, e2.1 ∈ S

end Verif.Renumber
