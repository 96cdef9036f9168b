import Verif.Model.UtcTime

/-!
# Model of the choice of the directory for the files of a relocation (libs/hdd/dd.cpp:88-101, 421-440, 542-560)

Simplifications: `pathExists` and `createDirectories` do not fail half way; a path is a directory.  The number drawn by the
random number generator is any function of its seed.
-/

namespace Verif.WorkingDir
open Verif.Utc

abbrev Name := List Char

/-- the two callers: dd.cpp:428 and :549 -/
inductive Kind where
  | multi
  | single
deriving DecidableEq, Repr

def Kind.prefix_ : Kind → Name
  | multi => "multievent".toList
  | single => "singleevent".toList

/-- dd.cpp:88-101 `generateWorkingSubDirPath` at a time in microseconds.  The seed is the number of seconds, a `double` converted
to `unsigned`: undefined outside the range of `unsigned`, otherwise without the fraction (below 2^32 seconds a `double` is precise
enough not to round up to a full second).  `draw` is random.h:45-50: the first number of the generator with this seed. -/
def generate (draw : Nat → Nat) (k : Kind) (now : Int) : Outcome Name :=
  let f := toDate now
  let seed := toTimeT now
  if seed < 0 ∨ 4294967296 ≤ seed then .ub
  else .ok (k.prefix_ ++ '_' :: (printInt 4 f.date.year ++ printInt 2 f.date.month ++ printInt 2 f.date.day ++ printInt 2 f.hour ++
    printInt 2 f.min ++ printInt 2 f.sec ++ '_' :: printNat 4 (draw seed.toNat)))

/-- dd.cpp:424-430, :545-551: the loop with the successive readings of the clock; `none` if they are used up -/
def search (draw : Nat → Nat) (k : Kind) (dirs : List Name) : List Int → Outcome (Option Name)
  | [] => .ok none
  | now :: later =>
    match generate draw k now with
    | .ok n => if n ∈ dirs then search draw k dirs later else .ok (some n)
    | .throws => .throws
    | .ub => .ub

/-- A relocation that saves its files, with nothing else going on: its kind, the readings of the clock and whether the directory can
be created.  The result is the existing directories and the one used, `none` if there is an exception or the search has not ended;
dd.cpp:421-440, :542-560. -/
def relocation (draw : Nat → Nat) (dirs : List Name) (k : Kind) (clock : List Int) (canCreate : Bool) :
    Outcome (List Name × Option Name) :=
  match search draw k dirs clock with
  | .ok (some n) =>
    if n ∈ dirs then .ok (dirs, some n)
    else if canCreate then .ok (n :: dirs, some n) else .ok (dirs, none)
  | .ok none => .ok (dirs, none)
  | .throws => .throws
  | .ub => .ub

/-- relocations one after the other, with the directory each one used -/
def relocations (draw : Nat → Nat) : List Name → List (Kind × List Int × Bool) → Outcome (List Name × List (Option Name))
  | dirs, [] => .ok (dirs, [])
  | dirs, (k, clock, can) :: rest =>
    match relocation draw dirs k clock can with
    | .ok (dirs', n) =>
      match relocations draw dirs' rest with
      | .ok (dirs'', ns) => .ok (dirs'', n :: ns)
      | .throws => .throws
      | .ub => .ub
    | .throws => .throws
    | .ub => .ub

/-! ## several processes -/

/-- what a process is doing -/
inductive Phase where
  | idle
  | chosen (n : Name)
  | using (n : Name)
  | failed
deriving DecidableEq

structure State where
  dirs : List Name
  phase : Nat → Phase

/-- the steps of a process: one turn of the loop, the directory, the end of the relocation -/
inductive Op where
  | try_ (p : Nat) (k : Kind) (now : Int)
  | create (p : Nat) (canCreate : Bool)
  | finish (p : Nat)
deriving DecidableEq

def State.set (s : State) (p : Nat) (ph : Phase) : State := { s with phase := fun q => if q = p then ph else s.phase q }

/-- one step of one process; a process not in the phase of the step does nothing -/
def step (draw : Nat → Nat) (s : State) : Op → Outcome State
  | .try_ p k now =>                                        -- :426-429, :547-550
    match s.phase p with
    | .idle =>
      match generate draw k now with
      | .ok n => if n ∈ s.dirs then .ok s else .ok (s.set p (.chosen n))
      | .throws => .throws
      | .ub => .ub
    | _ => .ok s
  | .create p canCreate =>                                  -- :432-438, :553-559
    match s.phase p with
    | .chosen n =>
      if n ∈ s.dirs then .ok (s.set p (.using n))
      else if canCreate then .ok ({ s with dirs := n :: s.dirs }.set p (.using n))
      else .ok (s.set p .failed)
    | _ => .ok s
  | .finish p =>
    match s.phase p with
    | .using _ => .ok (s.set p .idle)
    | .failed => .ok (s.set p .idle)
    | _ => .ok s

def run (draw : Nat → Nat) : State → List Op → Outcome State
  | s, [] => .ok s
  | s, o :: os =>
    match step draw s o with
    | .ok s' => run draw s' os
    | .throws => .throws
    | .ub => .ub

def start (dirs : List Name) : State := ⟨dirs, fun _ => .idle⟩

end Verif.WorkingDir
