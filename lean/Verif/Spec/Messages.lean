import Verif.Model.Messages
import Verif.Spec.DaemonRun

/-! # What happens to the messages the application receives (C89) -/

namespace Verif.Daemon.Spec

/-- the objects that are relocated: events if only preferred origins are wanted, otherwise origins -/
def Interesting (cfg : Config) : Obj → Prop
  | .origin _ => cfg.onlyPreferredOrigin = false
  | .event _ => cfg.onlyPreferredOrigin = true

/-- the object came in a message -/
def Arrived (inputs : List Input) (obj : Obj) : Prop :=
  ∃ items order moments, Input.objects items order moments ∈ inputs ∧ Item.obj obj ∈ items

/-- the objects of a message are listed in any order, none is lost and none is new -/
def SomeOrder (inputs : List Input) : Prop :=
  ∀ items order moments, Input.objects items order moments ∈ inputs → ∀ l o, o ∈ order l ↔ o ∈ l

/-- the requests to reload a profile, with the time -/
def reloadsIn (inputs : List Input) : List (Int × String) :=
  inputs.filterMap fun | .reload now name => some (now, name) | _ => none

/-- the same, in a history -/
def reloadsOf (ops : List Op) : List (Int × String) :=
  ops.filterMap fun | .reload now name => some (now, name) | _ => none

/-- the times the timer fires -/
def timersIn (inputs : List Input) : List Int := inputs.filterMap fun | .timer now _ => some now | _ => none
def timersOf (ops : List Op) : List Int := ops.filterMap fun | .tick now _ => some now | _ => none

/-- a profile has this name, which is not empty -/
def Known (profiles : List Profile) (name : String) : Prop := name ≠ "" ∧ ∃ p ∈ profiles, p.name = name

end Verif.Daemon.Spec
