import Verif.Model.Daemon

/-!
# Model of the messages the application receives

apps/scrtdd/rtddtool.cpp:1341-1417 and :1821-1834.  A message carries objects or a request to reload a profile.  Feeding the
object cache (:1384, :1391, :1403) is left out: what the cache answers is arbitrary at every moment (`World`).
-/

namespace Verif.Daemon

/-- an object of a message -/
inductive Item where
  | pick (publicID : String)
  | obj (o : Obj)
  | other

def Item.obj? : Item → Option Obj
  | .obj o => some o
  | _ => none

/-- What the application receives.  `order` is the order in which the set of pointers `Todos` lists the objects; the clock and
the surroundings may differ for each of them. -/
inductive Input where
  | timer (now : Int) (w : World)
  | objects (items : List Item) (order : List Obj → List Obj) (moments : Nat → Int × Int × World)
  | reload (now : Int) (name : String)

/-- the application and its replies to requests: the name asked for, and whether the reply is an error -/
structure Session where
  state : State
  replies : List (String × Bool)

/-- rtddtool.cpp:1347, from the `i`-th object on -/
def addTodos (cfg : Config) (moments : Nat → Int × Int × World) : Nat → List Obj → State → Outcome State
  | _, [], s => .ok s
  | i, o :: os, s => do
    let s ← addProcess cfg (moments i).2.2 (moments i).1 (moments i).2.1 o s
    addTodos cfg moments (i + 1) os s

/-- rtddtool.cpp:1821-1834: whether there is a profile of this name -/
def hasProfile (name : String) (profs : List (Profile × ProfileState)) : Bool :=
  name ≠ "" && profs.any (fun p => p.1.name = name)

/-- rtddtool.cpp:1341-1372 `handleMessage`, with :1374-1411 `addObject` and `updateObject`, and :1413 `handleTimeout` -/
def handle (cfg : Config) (s : Session) : Input → Outcome Session
  | .timer now w => do
    let st ← handleTimeout cfg w now s.state
    .ok { s with state := st }
  | .objects items order moments => do
    let st ← addTodos cfg moments 0 (order (todos cfg (items.filterMap Item.obj?))) s.state
    .ok { s with state := st }
  | .reload now name =>
    .ok ⟨{ s.state with profs := reload now name s.state.profs }, s.replies ++ [(name, !hasProfile name s.state.profs)]⟩

/-- the application from its start -/
def session (cfg : Config) (profiles : List Profile) (start : Int) (inputs : List Input) : Outcome Session :=
  inputs.foldlM (handle cfg) ⟨init cfg profiles start, []⟩

end Verif.Daemon
