import Verif.Model.RealSolver
import Verif.Spec.Relocate
import Verif.Spec.SolverOrder

/-!
# Specification vocabulary for C107: the same data, stored in another order
-/

namespace Verif.Relocate
open Verif.Catalog

variable {K : Type}

/-- The same events, stations and picks, wherever they are stored. -/
structure SameCatalog (c c' : Catalog K) : Prop where
  events : ∀ k, c.events.find? k = c'.events.find? k
  stations : ∀ s, c.stations.find? s = c'.stations.find? s
  phases : ∀ k, c.phasesOf k = c'.phasesOf k

/-- The same events with the same pairs, in any order. -/
structure SameCluster (cl cl' : Cluster) : Prop where
  forth : ∀ kv ∈ cl, ∃ kv' ∈ cl', kv'.1 = kv.1 ∧ kv'.2.phases.Perm kv.2.phases
  back : ∀ kv' ∈ cl', ∃ kv ∈ cl, kv'.1 = kv.1 ∧ kv'.2.phases.Perm kv.2.phases

/-- Two iterations doing the same: no event restored, the same moves, the same parameters, and the same
catalogs before and after. -/
structure SameIteration (l l' : IterLog K) : Prop where
  before : SameCatalog l.before l'.before
  after : SameCatalog l.after l'.after
  damping : l.damping = l'.damping
  downWeighting : l.downWeighting = l'.downWeighting
  absLoc : l.absLoc = l'.absLoc
  calls : Solver.SameCalls l.ops l'.ops
  reverted : l.reverted = []
  reverted' : l'.reverted = []
  answer : l.answer = l'.answer

/-- Two solvers that are used with the same options; they may differ in the order in which they visit their tables and in the
order `std::nth_element` leaves behind. What they do with values that are not numbers does not depend on the order of the calls. -/
structure SameOptions (su su' : SolverSetup) : Prop where
  method : su.method = su'.method
  iterations : su.iterations = su'.iterations
  normalize : su.normalize = su'.normalize
  odd : ∀ it ops ops', Solver.SameCalls ops ops' → su.odd it ops = su'.odd it ops'

end Verif.Relocate
