import Verif.Spec.Messages
import Verif.Props.DaemonExample

/-!
# C89: which messages lead to a relocation
-/

set_option linter.unusedSimpArgs false

namespace Verif.Daemon
open Verif.Catalog Spec

/-- the operations an input stands for -/
def addOps (moments : Nat → Int × Int × World) : Nat → List Obj → List Op
  | _, [] => []
  | i, o :: os => .add (moments i).1 (moments i).2.1 o (moments i).2.2 :: addOps moments (i + 1) os

def opsOf (cfg : Config) : Input → List Op
  | .timer now w => [.tick now w]
  | .objects items order moments => addOps moments 0 (order (todos cfg (items.filterMap Item.obj?)))
  | .reload now name => [.reload now name]

theorem foldlM_append {A B : Type} (f : B → A → Outcome B) : ∀ (l m : List A) (b : B),
    (l ++ m).foldlM f b = (l.foldlM f b >>= fun x => m.foldlM f x)
  | [], m, b => rfl
  | x :: l, m, b => by
    show (f b x >>= fun y => (l ++ m).foldlM f y) = ((f b x >>= fun y => l.foldlM f y) >>= fun x => m.foldlM f x)
    cases h : f b x with
    | ok y => exact foldlM_append f l m y
    | throws => rfl
    | ub => rfl

theorem run_append (cfg : Config) (profiles : List Profile) (start : Int) (ops ops' : List Op) :
    run cfg profiles start (ops ++ ops') = (run cfg profiles start ops >>= fun s => ops'.foldlM (step cfg) s) := foldlM_append _ _ _ _

theorem addTodos_eq (cfg : Config) (moments : Nat → Int × Int × World) : ∀ (i : Nat) (os : List Obj) (s : State),
    addTodos cfg moments i os s = (addOps moments i os).foldlM (step cfg) s
  | _, [], _ => rfl
  | i, o :: os, s => by
    unfold addTodos addOps
    rw [List.foldlM_cons]
    show (_ >>= _) = (addProcess _ _ _ _ _ _ >>= _)
    congr 1
    funext s'
    exact addTodos_eq cfg moments (i + 1) os s'

theorem mem_addOps {moments : Nat → Int × Int × World} : ∀ {i : Nat} {os : List Obj} {op : Op},
    op ∈ addOps moments i os → ∃ t now o w, op = .add t now o w ∧ o ∈ os
  | i, [], op, h => by cases h
  | i, o :: os, op, h => by
    rcases List.mem_cons.1 h with rfl | h
    · exact ⟨_, _, o, _, rfl, by simp⟩
    · obtain ⟨t, now, o', w, h1, h2⟩ := mem_addOps h
      exact ⟨t, now, o', w, h1, by simp [h2]⟩

theorem addOps_mem {moments : Nat → Int × Int × World} : ∀ {i : Nat} {os : List Obj} {o : Obj}, o ∈ os →
    ∃ t now w, Op.add t now o w ∈ addOps moments i os
  | i, o' :: os, o, h => by
    rcases List.mem_cons.1 h with rfl | h
    · exact ⟨_, _, _, by unfold addOps; exact List.mem_cons_self⟩
    · obtain ⟨t, now, w, h1⟩ := addOps_mem (moments := moments) (i := i + 1) h
      exact ⟨t, now, w, by unfold addOps; exact List.mem_cons_of_mem _ h1⟩

theorem mem_todos {cfg : Config} {objs : List Obj} {o : Obj} : o ∈ todos cfg objs ↔ o ∈ objs ∧ Interesting cfg o := by
  unfold todos
  rw [List.mem_filter]
  cases o with
  | origin x => simp [Interesting]
  | event x => simp [Interesting]

theorem mem_objs {items : List Item} {o : Obj} : o ∈ items.filterMap Item.obj? ↔ Item.obj o ∈ items := by
  rw [List.mem_filterMap]
  constructor
  · rintro ⟨x, hx, h⟩
    cases x with
    | pick => cases h
    | obj o' => cases h; exact hx
    | other => cases h
  · exact fun h => ⟨_, h, rfl⟩

theorem reloadsOf_append (a b : List Op) : reloadsOf (a ++ b) = reloadsOf a ++ reloadsOf b := List.filterMap_append ..
theorem timersOf_append (a b : List Op) : timersOf (a ++ b) = timersOf a ++ timersOf b := List.filterMap_append ..

theorem reloadsOf_addOps {moments : Nat → Int × Int × World} {i : Nat} {os : List Obj} : reloadsOf (addOps moments i os) = [] := by
  induction os generalizing i with
  | nil => rfl
  | cons o os ih => exact ih

theorem timersOf_addOps {moments : Nat → Int × Int × World} {i : Nat} {os : List Obj} : timersOf (addOps moments i os) = [] := by
  induction os generalizing i with
  | nil => rfl
  | cons o os ih => exact ih

theorem session_snoc (cfg : Config) (profiles : List Profile) (start : Int) (inputs : List Input) (x : Input) :
    session cfg profiles start (inputs ++ [x]) = (session cfg profiles start inputs >>= fun s => handle cfg s x) := foldlM_snoc _ _ _ _

theorem session_run {cfg : Config} {profiles : List Profile} {start : Int} {inputs : List Input} {s : Session}
    (h : session cfg profiles start inputs = .ok s) : run cfg profiles start (inputs.flatMap (opsOf cfg)) = .ok s.state := by
  induction inputs using List.reverseRecOn generalizing s with
  | nil => cases h; rfl
  | append_singleton inputs x ih =>
    rw [session_snoc] at h
    obtain ⟨s0, h0, h1⟩ := bind_eq_ok h
    rw [List.flatMap_append, run_append, ih h0]
    simp only [Outcome.bind_ok, List.flatMap_cons, List.flatMap_nil, List.append_nil]
    cases x with
    | timer now w =>
      obtain ⟨st, g1, g2⟩ := bind_eq_ok h1
      cases g2
      show (handleTimeout cfg w now s0.state >>= fun s => Outcome.ok s) = _
      rw [g1]
      rfl
    | objects items order moments =>
      obtain ⟨st, g1, g2⟩ := bind_eq_ok h1
      cases g2
      rw [addTodos_eq] at g1
      exact g1
    | reload now name =>
      cases h1
      rfl

/-- **C89a** What the application does with the messages it receives is a history of the application (C80, C81) in which the
objects added for processing are exactly the interesting ones that arrived — events if only preferred origins are wanted,
otherwise origins — and the requests to reload profiles and the timer are those received, in this order. -/
theorem session_history {cfg : Config} {profiles : List Profile} {start : Int} {inputs : List Input} {s : Session}
    (hord : SomeOrder inputs) (h : session cfg profiles start inputs = .ok s) :
    ∃ ops, run cfg profiles start ops = .ok s.state ∧ (∀ obj, Added ops obj ↔ Arrived inputs obj ∧ Interesting cfg obj) ∧
      reloadsOf ops = reloadsIn inputs ∧ timersOf ops = timersIn inputs := by
  refine ⟨_, session_run h, fun obj => ?_, ?_, ?_⟩
  · constructor
    · rintro ⟨t, now, w, hm⟩
      obtain ⟨x, hx, hm⟩ := List.mem_flatMap.1 hm
      cases x with
      | timer now w => simp [opsOf] at hm
      | reload now name => simp [opsOf] at hm
      | objects items order moments =>
        obtain ⟨t', now', o, w', he, ho⟩ := mem_addOps hm
        cases he
        rw [hord items order moments hx, mem_todos, mem_objs] at ho
        exact ⟨⟨items, order, moments, hx, ho.1⟩, ho.2⟩
    · rintro ⟨⟨items, order, moments, hx, ho⟩, hi⟩
      obtain ⟨t, now, w, hm⟩ := addOps_mem (moments := moments) (i := 0)
        ((hord items order moments hx (todos cfg (items.filterMap Item.obj?)) obj).2 (mem_todos.2 ⟨mem_objs.2 ho, hi⟩))
      exact ⟨t, now, w, List.mem_flatMap.2 ⟨_, hx, hm⟩⟩
  · clear h hord
    induction inputs with
    | nil => rfl
    | cons x inputs ih =>
      rw [List.flatMap_cons, reloadsOf_append, ih]
      cases x with
      | timer now w => rfl
      | reload now name => rfl
      | objects items order moments =>
        show reloadsOf (addOps _ _ _) ++ _ = _
        rw [reloadsOf_addOps]
        rfl
  · clear h hord
    induction inputs with
    | nil => rfl
    | cons x inputs ih =>
      rw [List.flatMap_cons, timersOf_append, ih]
      cases x with
      | timer now w => rfl
      | reload now name => rfl
      | objects items order moments =>
        show timersOf (addOps _ _ _) ++ _ = _
        rw [timersOf_addOps]
        rfl

/-- **C89b** Every origin that was sent or added to the event parameters is the result of a job for an interesting object
that arrived; in particular, picks, and objects of the other kind, never lead to a relocation. -/
theorem session_results {cfg : Config} {profiles : List Profile} {start : Int} {inputs : List Input} {s : Session}
    (hord : SomeOrder inputs) (h : session cfg profiles start inputs = .ok s) : ∃ jobs : List Done,
      s.state.sent = jobs.flatMap (fun j => if j.w.connected && !cfg.testMode then j.new.toList else []) ∧
      s.state.stored = jobs.flatMap (fun j => if j.w.eventParameters.isSome then j.new.toList else []) ∧
      ∀ j ∈ jobs, Arrived inputs j.obj ∧ Interesting cfg j.obj ∧ ∃ ops, JobDone cfg profiles ops j.w j.obj j.new := by
  obtain ⟨ops, h1, h2, -⟩ := session_history hord h
  obtain ⟨jobs, -, g2, g3, g4⟩ := run_history h1
  refine ⟨jobs, g2, g3, fun j hj => ?_⟩
  obtain ⟨pre, op, post, k1, -, ⟨t, now, w, k2⟩, k3⟩ := g4 j hj
  have : Added ops j.obj := ⟨t, now, w, by rw [k1]; simp only [List.mem_append, List.mem_singleton, List.mem_cons] at k2 ⊢; tauto⟩
  obtain ⟨a, b⟩ := (h2 _).1 this
  exact ⟨a, b, _, k3⟩

/-- **C89c** Every request to reload a profile gets one reply, in the order of the requests; it is an error exactly when no
profile has the name asked for. -/
theorem reload_replies {cfg : Config} {profiles : List Profile} {start : Int} {inputs : List Input} {s : Session}
    (h : session cfg profiles start inputs = .ok s) :
    s.replies.map Prod.fst = (reloadsIn inputs).map Prod.snd ∧ ∀ r ∈ s.replies, (r.2 = true ↔ ¬ Known profiles r.1) := by
  induction inputs using List.reverseRecOn generalizing s with
  | nil => cases h; exact ⟨rfl, by simp⟩
  | append_singleton inputs x ih =>
    rw [session_snoc] at h
    obtain ⟨s0, h0, h1⟩ := bind_eq_ok h
    obtain ⟨g1, g2⟩ := ih h0
    have hprof := (run_inv (session_run h0)).profiles
    have happ : reloadsIn (inputs ++ [x]) = reloadsIn inputs ++ reloadsIn [x] := List.filterMap_append ..
    rw [happ]
    cases x with
    | timer now w =>
      obtain ⟨st, k1, k2⟩ := bind_eq_ok h1
      cases k2
      exact ⟨by simpa [reloadsIn] using g1, g2⟩
    | objects items order moments =>
      obtain ⟨st, k1, k2⟩ := bind_eq_ok h1
      cases k2
      exact ⟨by simpa [reloadsIn] using g1, g2⟩
    | reload now name =>
      cases h1
      refine ⟨by simp [reloadsIn] at g1 ⊢; exact g1, ?_⟩
      intro r hr
      rcases List.mem_append.1 hr with hr | hr
      · exact g2 r hr
      · rw [List.mem_singleton.1 hr]
        simp only [Known, ← hprof, hasProfile]
        simp
        tauto

namespace Example

/-- an origin arrives with a pick and an event; two requests to reload follow, of which one is for an unknown profile -/
def inputs : List Input :=
  [.objects [.pick "p1", .obj (.origin origin), .obj (.event ⟨"e1", "o1"⟩), .other] id (fun _ => (100, 100, world)),
    .reload 101 "all", .reload 102 "west", .timer 112 world]

/-- These messages meet the hypotheses of `session_history`, `session_results` and `reload_replies`. The origin was relocated
twice, the event was not. -/
example : SomeOrder inputs ∧ (∃ s, session cfg [south, all] 0 inputs = .ok s) ∧
    (session cfg [south, all] 0 inputs >>= fun s => .ok s.state.sched.started) = Outcome.ok [(100, "o1"), (112, "o1")] ∧
    (session cfg [south, all] 0 inputs >>= fun s => .ok s.state.sent.length) = Outcome.ok 2 ∧
    (session cfg [south, all] 0 inputs >>= fun s => .ok s.replies) = Outcome.ok [("all", false), ("west", true)] := by
  refine ⟨?_, ok_of (by decide +kernel), by decide +kernel, by decide +kernel, by decide +kernel⟩
  intro items order moments h l o
  simp only [inputs, List.mem_cons, Input.objects.injEq, reduceCtorEq, List.not_mem_nil, or_false] at h
  rw [h.2.1]
  rfl

/-- If only preferred origins are wanted the event is processed and the origin is not. -/
example : (session { cfg with onlyPreferredOrigin := true } [south, all] 0 inputs >>= fun s => .ok s.state.sched.started) =
    Outcome.ok [(100, "e1"), (112, "e1")] := by decide +kernel

end Example

end Verif.Daemon
