import Verif.Spec.Daemon

/-!
# What the application does over time

Everything is said about the sequence of things that happened to the application, its operations.
-/

namespace Verif.Daemon.Spec
open Verif.Catalog

/-- the time and the surroundings when jobs may be started: the timer fires or an object arrives -/
def moment : Op → Option (Int × World)
  | .tick now w => some (now, w)
  | .add _ now _ w => some (now, w)
  | .reload _ _ => none

/-- the object was added for processing -/
def Added (ops : List Op) (obj : Obj) : Prop := ∃ t now w, Op.add t now obj w ∈ ops

/-- the operation is a request to reload profile `i`, the first one with the requested name -/
def Reloads (profiles : List Profile) (i : Nat) : Op → Prop
  | .reload _ name => name ≠ "" ∧ (∃ p, profiles[i]? = some p ∧ p.name = name) ∧ ∀ j < i, ∀ p, profiles[j]? = some p → p.name ≠ name
  | _ => False

/-- `p` is the first profile that fits the origin, at position `i` -/
def FirstFit (cfg : Config) (o : Origin) (profiles : List Profile) (i : Nat) (p : Profile) : Prop :=
  profiles[i]? = some p ∧ Fits cfg o p ∧ ∀ j < i, ∀ q, profiles[j]? = some q → ¬ Fits cfg o q

/-- profile `i` was loaded at some moment, giving `dd`, and there was no request to reload it since then -/
def LoadedIn (profiles : List Profile) (ops : List Op) (i : Nat) (dd : DD) : Prop :=
  ∃ pre op post now w p, ops = pre ++ op :: post ∧ moment op = some (now, w) ∧ profiles[i]? = some p ∧ w.load p = some dd ∧
    ∀ op' ∈ post, ¬ Reloads profiles i op'

/-- What the job for an object gives after the operations `ops`, in surroundings `w`: `new` is what is published. Either
there is nothing to do, or the profile cannot be loaded, or the origin is relocated with what was loaded last. -/
def JobDone (cfg : Config) (profiles : List Profile) (ops : List Op) (w : World) (obj : Obj) (new : Option Published) : Prop :=
  ((¬ ∃ o i p, Target w obj o ∧ Wanted cfg w obj o ∧ FirstFit cfg o profiles i p) ∧ new = none) ∨
  ∃ o i p, Target w obj o ∧ Wanted cfg w obj o ∧ FirstFit cfg o profiles i p ∧
    ((w.load p = none ∧ new = none) ∨ ∃ dd, LoadedIn profiles ops i dd ∧ Relocated cfg w p dd o new)

/-- a job that was started -/
structure Done where
  now : Int
  w : World
  obj : Obj
  new : Option Published

/-- How one moment changes a profile: once loaded it stays as it is; otherwise it is loaded if possible. -/
def Change (w : World) (now : Int) (p : Profile) (a b : ProfileState) : Prop :=
  (a.loaded = true → b.loaded = true ∧ b.dd = a.dd ∧ (b.lastUsage = a.lastUsage ∨ b.lastUsage = now)) ∧
  (a.loaded = false → (∀ dd, w.load p = some dd → b = ⟨true, some dd, now⟩) ∧ (w.load p = none → b = ⟨false, none, now⟩))

/-- the profile is loaded and was not used for longer than the configured time, which is not negative -/
def Idle (cfg : Config) (now : Int) (s : ProfileState) : Prop :=
  0 ≤ cfg.profileTimeAlive ∧ s.loaded = true ∧ cfg.profileTimeAlive < now - s.lastUsage

instance (cfg : Config) (now : Int) (s : ProfileState) : Decidable (Idle cfg now s) := by unfold Idle; infer_instance

/-- the operation of the scheduler (C51, C52) that corresponds to one of the application -/
inductive SameOp : Op → Scheduler.Op → Prop
  | tick (now : Int) (w : World) (ok : Bool) : SameOp (.tick now w) (.tick now ok)
  | add (t now : Int) (obj : Obj) (w : World) (ok : Bool) : SameOp (.add t now obj w) (.add t now obj.publicID ok)

end Verif.Daemon.Spec
