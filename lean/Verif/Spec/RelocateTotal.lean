import Verif.Spec.Relocate

/-!
# Vocabulary of the statements about relocations that end normally (C101)
-/

namespace Verif.Relocate
open Verif.Catalog

variable {K : Type} [Field K] [LinearOrder K]

/-- The events of the cluster are in the catalog; for every pair it lists both events have such a pick, and there is a
threshold of the correlation coefficient for the pick of the first. -/
structure Pairable (cat : Catalog K) (minCoef : PhaseType → Option K) (cluster : Cluster) : Prop where
  event : ∀ kv ∈ cluster, (cat.events.find? kv.1).isSome = true
  pairs : ∀ kv ∈ cluster, ∀ sp n, (sp, n) ∈ kv.2.phases → (∃ p, IsPick cat kv.1 sp p) ∧ ∃ p, IsPick cat n sp p
  threshold : ∀ kv ∈ cluster, ∀ sp n, (sp, n) ∈ kv.2.phases → ∀ p, IsPick cat kv.1 sp p → (minCoef p.procType).isSome = true

end Verif.Relocate
