/-!
# Result of a C++ call: a value, a thrown exception, or undefined behaviour
-/

namespace Verif

inductive Outcome (α : Type) where
  | ok (a : α)
  | throws
  | ub
deriving DecidableEq, Repr

namespace Outcome
variable {α β : Type}

def bind : Outcome α → (α → Outcome β) → Outcome β
  | ok a, f => f a
  | throws, _ => throws
  | ub, _ => ub

def map (f : α → β) : Outcome α → Outcome β
  | ok a => ok (f a)
  | throws => throws
  | ub => ub

/-- `none` is an exception -/
def ofOption : Option α → Outcome α
  | some a => ok a
  | none => throws

instance : Monad Outcome where
  pure := ok
  bind := bind

@[simp] theorem bind_ok (a : α) (f : α → Outcome β) : (ok a >>= f) = f a := rfl
@[simp] theorem bind_throws (f : α → Outcome β) : ((throws : Outcome α) >>= f) = throws := rfl
@[simp] theorem bind_ub (f : α → Outcome β) : ((ub : Outcome α) >>= f) = ub := rfl
@[simp] theorem pure_eq (a : α) : (pure a : Outcome α) = ok a := rfl

instance : LawfulMonad Outcome := LawfulMonad.mk'
  (id_map := by intro α x; cases x <;> rfl)
  (pure_bind := by intro α β x f; rfl)
  (bind_assoc := by intro α β γ x f g; cases x <;> rfl)

end Outcome
end Verif
