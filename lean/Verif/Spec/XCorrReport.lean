import Verif.Model.XCorrReport
import Verif.Spec.Relocate

/-!
# Vocabulary of the statements about the summary of the cross-correlations (C110)
-/

namespace Verif.XCorrReport
open Verif.Catalog Verif.Relocate Verif.Stats

/-- There are `n` things with this property. -/
def Count {A : Type} (n : Nat) (P : A → Prop) : Prop := ∃ l : List A, l.Nodup ∧ (∀ x, x ∈ l ↔ P x) ∧ l.length = n

/-- an event, one of its neighbours, a station and a phase type -/
structure Pair where
  ev : Nat
  nb : Nat
  station : String
  phase : String
deriving DecidableEq

/-- The cluster has event `x.ev` with neighbour `x.nb` for these picks, and the outcome of the correlation is `e`. -/
def Correlated (cluster : Cluster) (xc : XCorr.Cache) (x : Pair) (e : XCorr.Entry) : Prop :=
  ∃ kv ∈ cluster, kv.2.refId = x.ev ∧ (x.station, x.phase) ∈ kv.2.phasesOf x.nb ∧
    XCorr.get xc x.ev x.nb x.station x.phase = some e

/-- the containers of the cluster have no duplicates -/
structure Proper (cluster : Cluster) : Prop where
  good : GoodCluster cluster
  neighbours : ∀ kv ∈ cluster, kv.2.ids.Nodup
  phases : ∀ kv ∈ cluster, ∀ b, (kv.2.phasesOf b).Nodup

/-- the part of `tot` that `a` is, in percent -/
def IsPercent (a tot : Nat) (x : Fl ℚ) : Prop := ∃ q : ℚ, x = .num q ∧ q * tot = 100 * a

/-- smallest, largest and the values at a quarter, half and three quarters of the sorted values -/
def IsSummary (values : List ℚ) (s : Summary ℚ) : Prop :=
  ∃ l : List ℚ, l.Pairwise (· ≤ ·) ∧ l.Perm values ∧ s =
    { min := l.getD 0 0
      q1 := l.getD (values.length / 4) 0
      q2 := l.getD (values.length / 2) 0
      q3 := l.getD (values.length / 4 + values.length / 2) 0
      max := l.getD (values.length - 1) 0 }

/-- What the line of a station says of the correlations of phases with the types `isType`. -/
structure IsLine (cluster : Cluster) (xc : XCorr.Cache) (isType : String → Prop) (threshold : ℚ) (l : Line) : Prop where
  total : Count l.total (fun x => isType x.phase ∧ x.station = l.station ∧ ∃ e, Correlated cluster xc x e)
  some : l.total ≠ 0
  failures : ∃ n, IsPercent n l.total l.failures ∧
    Count n (fun x => isType x.phase ∧ x.station = l.station ∧ ∃ e, Correlated cluster xc x e ∧ e.valid = false)
  above : ∃ n, IsPercent n l.total l.above ∧ Count n (fun x => isType x.phase ∧ x.station = l.station ∧
    ∃ e, Correlated cluster xc x e ∧ e.valid = true ∧ threshold ≤ |e.coeff|)
  coeffs : ∃ xs : List (Pair × XCorr.Entry), xs.Nodup ∧
    (∀ x, x ∈ xs ↔ isType x.1.phase ∧ x.1.station = l.station ∧ Correlated cluster xc x.1 x.2 ∧ x.2.valid = true) ∧
    IsSummary (xs.map (fun x => |x.2.coeff|)) l.coeffs

/-- What is printed of the phases with the types `isType`. -/
structure IsPart (cluster : Cluster) (xc : XCorr.Cache) (isType : String → Prop) (threshold : ℚ) (p : Part) : Prop where
  limit : p.threshold = threshold
  attempted : Count p.attempted (fun x : Pair => isType x.phase ∧ ∃ e, Correlated cluster xc x e)
  failed : Count p.failed (fun x : Pair => isType x.phase ∧ ∃ e, Correlated cluster xc x e ∧ e.valid = false)
  aboveThreshold : Count p.aboveThreshold (fun x : Pair => isType x.phase ∧ ∃ e, Correlated cluster xc x e ∧ e.valid = true ∧
    threshold ≤ |e.coeff|)
  failures : p.attempted ≠ 0 → IsPercent p.failed p.attempted p.failures
  above : p.attempted ≠ 0 → IsPercent p.aboveThreshold p.attempted p.above
  /-- one line for each station with a correlation, in the order of the names -/
  order : (p.lines.map (·.station)).Pairwise (· < ·)
  stations : ∀ sta, sta ∈ p.lines.map (·.station) ↔ ∃ x e, isType x.phase ∧ x.station = sta ∧ Correlated cluster xc x e
  lines : ∀ l ∈ p.lines, IsLine cluster xc isType threshold l

/-- the types of phases that are counted as P -/
def IsP (validP : List String) (phase : String) : Prop := phase ∈ validP

/-- the types of phases that are counted as S -/
def IsS (validP validS : List String) (phase : String) : Prop := phase ∉ validP ∧ phase ∈ validS

/-- There are 1, 2 or 3 successful correlations of phases of a type at some station. -/
def FewSomewhere (cluster : Cluster) (xc : XCorr.Cache) (isType : String → Prop) : Prop :=
  ∃ sta n, 1 ≤ n ∧ n ≤ 3 ∧ Count n (fun x : Pair => isType x.phase ∧ x.station = sta ∧
    ∃ e, Correlated cluster xc x e ∧ e.valid = true)

/-- Each pair of neighbours is listed in one direction only, as clustering leaves them (C33). -/
def OneWay (cluster : Cluster) : Prop :=
  ∀ kv ∈ cluster, ∀ kv' ∈ cluster, kv'.2.refId ∈ kv.2.ids → kv.2.refId ∉ kv'.2.ids

end Verif.XCorrReport
