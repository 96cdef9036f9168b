import Verif.Model.Scheduler

/-! Specification vocabulary for the scheduler properties C51, C52. -/

namespace Verif.Scheduler

/-- clock readings made during an operation, in order -/
def Op.clock : Op → List Int
  | .tick now _ => [now]
  | .add t t' _ _ => [t, t']

/-- the clock reading used to decide what is due -/
def Op.now : Op → Int
  | .tick now _ => now
  | .add _ t' _ _ => t'

/-- the operation announces object `x` -/
def Op.adds (x : String) : Op → Prop
  | .tick _ _ => False
  | .add _ _ id _ => id = x

/-- the clock never goes back -/
def ClockMonotone (ops : List Op) : Prop := (ops.flatMap Op.clock).Pairwise (· ≤ ·)

/-- State just before the periodic part of an operation. -/
def beforeJobs (cfg : Config) (s : State) : Op → State
  | .tick _ _ => s
  | .add t _ id _ => schedule cfg t id s

/-- Whenever the scheduler wakes up during `ops`, at most one object is due. -/
def AtMostOneDue (cfg : Config) (ops : List Op) : Prop :=
  ∀ pre op, (pre ++ [op]) <+: ops →
    let s := beforeJobs cfg (run cfg pre) op
    s.cron ≤ 1 → ∀ k k' p p', s.procs.find? k = some p → s.procs.find? k' = some p' →
      (∃ t ∈ p.runTimes.head?, t ≤ op.now) → (∃ t ∈ p'.runTimes.head?, t ≤ op.now) → k = k'

/-- Announcements of different objects are spaced: when the later one becomes due, `d` seconds after its announcement, the
timer has fired (or another object has arrived) since the earlier one became due. -/
def Spaced (d : Int) (ops : List Op) : Prop :=
  ∀ (i j n : Nat) (t₁ t₁' t₂ t₂' : Int) (x y : String) (ok₁ ok₂ : Bool) (op : Op), x ≠ y →
    ops[i]? = some (.add t₁ t₁' x ok₁) → ops[j]? = some (.add t₂ t₂' y ok₂) → t₁ ≤ t₂ →
    j ≤ n → ops[n]? = some op → t₂ + d ≤ op.now →
    ∃ m op', i ≤ m ∧ m < n ∧ ops[m]? = some op' ∧ t₁ + d ≤ op'.now ∧ op'.now < t₂ + d

end Verif.Scheduler
