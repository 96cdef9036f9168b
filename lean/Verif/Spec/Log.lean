import Verif.Model.Log

/-!
# What should be in the log files (C113)
-/

namespace Verif.Log

/-- After these calls the file is a log of this level: there is an addition of the file at this level, with nothing that removes it
afterwards, and no earlier addition since the last removal (which would win). -/
def Active (ops : List Op) (name : String) (l : Level) : Prop :=
  ∃ a b c, ops = a ++ b ++ .addFile name l true :: c ∧
    (a = [] ∨ ∃ a', a = a' ++ [.removeFile name]) ∧
    (∀ op ∈ b, op ≠ .removeFile name ∧ ∀ l', op ≠ .addFile name l' true) ∧ .removeFile name ∉ c

/-- the global level after these calls: the last one set, at first `debug` -/
def GlobalLevel (ops : List Op) (g : Level) : Prop :=
  (∃ a c, ops = a ++ .setLevel g :: c ∧ ∀ op ∈ c, ∀ l, op ≠ .setLevel l) ∨ (g = .debug ∧ ∀ op ∈ ops, ∀ l, op ≠ .setLevel l)

/-- Who gets the messages after these calls: the first logger set since the last one was cleared, or nobody (`none`) -/
def Listener (ops : List Op) (u : Option String) : Prop :=
  ∃ a b, ops = a ++ b ∧ (a = [] ∨ ∃ a', a = a' ++ [.clearLogger]) ∧ .clearLogger ∉ b ∧
    ((u = none ∧ ∀ op ∈ b, ∀ c, op ≠ .setLogger c) ∨
     ∃ c b1 b2, u = some c ∧ b = b1 ++ .setLogger c :: b2 ∧ ∀ op ∈ b1, ∀ c', op ≠ .setLogger c')

/-- a message of this level is to be written into the file: the file is a log of this or a lower level and, for a message with a
format, the global level is not higher -/
def Written (ops : List Op) (name : String) (formatted : Bool) (l : Level) : Prop :=
  (∃ min, Active ops name min ∧ min.rank ≤ l.rank) ∧ (formatted = true → ∃ g, GlobalLevel ops g ∧ g.rank ≤ l.rank)

/-- the lines of the messages of level `info` and higher -/
def important (ts : List Text) : List Line :=
  (ts.filter fun t => Level.info.rank ≤ t.level.rank).map fun t => (t.level, t.text)

/-- the file is not in use as a log -/
def State.Unused (s : State) (name : String) : Prop := s.loggers.find? name = none

/-- the messages of the clusters -/
def texts (cs : List Cluster) : List Text := cs.flatMap fun c => c.before ++ c.body

end Verif.Log
