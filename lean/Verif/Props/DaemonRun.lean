import Verif.Proofs.Daemon

/-!
# C80, C81: the application over all histories
-/

set_option linter.unusedSimpArgs false

namespace Verif.Daemon
open Verif.Catalog Spec

theorem foldlM_snoc {A B : Type} (f : B → A → Outcome B) (a : A) : ∀ (l : List A) (b : B),
    (l ++ [a]).foldlM f b = (l.foldlM f b >>= fun x => f x a)
  | [], b => by
    show (f b a >>= fun x => Outcome.ok x) = f b a
    cases f b a <;> rfl
  | x :: l, b => by
    show (f b x >>= fun y => (l ++ [a]).foldlM f y) = ((f b x >>= fun y => l.foldlM f y) >>= fun x => f x a)
    cases h : f b x with
    | ok y => exact foldlM_snoc f a l y
    | throws => rfl
    | ub => rfl

theorem run_snoc (cfg : Config) (profiles : List Profile) (start : Int) (ops : List Op) (op : Op) :
    run cfg profiles start (ops ++ [op]) = (run cfg profiles start ops >>= fun s => step cfg s op) := foldlM_snoc _ _ _ _

/-! ## profiles -/

theorem checked_change {cfg : Config} {w : World} {now : Int} {p : Profile} {a : ProfileState} :
    Change w now p a (checked cfg w now (p, a)).2 := by
  unfold checked Change
  constructor
  · intro h
    simp only
    split
    · exact ⟨h, rfl, .inr rfl⟩
    · have he : a.load w now p = a := by unfold ProfileState.load; rw [if_pos h]
      rw [he]
      exact ⟨h, rfl, .inl rfl⟩
  · intro h
    have hi : ¬ Idle cfg now a := by rintro ⟨-, h2, -⟩; rw [h] at h2; cases h2
    simp only
    rw [if_neg hi]
    unfold ProfileState.load
    rw [if_neg (by simp [h])]
    exact ⟨fun dd hd => by rw [hd], fun hd => by rw [hd]; rfl⟩

/-- a job changes profiles in the same way -/
theorem job_change {cfg : Config} {w : World} {now : Int} {obj : Obj} {profs profs' : List (Profile × ProfileState)} {again : Bool}
    {new : Option Published} (hc : Consistent profs) (h : startProcess cfg w now obj (profs.map (checked cfg w now)) = .ok (again, profs', new)) :
    ∀ (i : Nat) p a, profs[i]? = some (p, a) → ∃ b, profs'[i]? = some (p, b) ∧ Change w now p a b := by
  have hbase : ∀ (i : Nat) p a, profs[i]? = some (p, a) → (profs.map (checked cfg w now))[i]? = some (p, (checked cfg w now (p, a)).2) := by
    intro i p a hi
    rw [List.getElem?_map, hi]
    rfl
  rcases job_result h with ⟨-, -, rfl, -⟩ | ⟨o, j, q, s, hjob, hj, -, hr⟩
  · intro i p a hi
    exact ⟨_, hbase i p a hi, checked_change⟩
  · intro i p a hi
    by_cases hij : j = i
    · subst hij
      have hb := hbase _ p a hi
      rw [hj] at hb
      have hlt := (List.getElem?_eq_some_iff.1 hj).1
      have hq : q = p := by cases hb; rfl
      subst hq
      have hs : s = (checked cfg w now (q, a)).2 := by cases hb; rfl
      have hch := checked_change (cfg := cfg) (w := w) (now := now) (p := q) (a := a)
      rw [← hs] at hch
      rcases hr with ⟨h1, h2, -, rfl⟩ | ⟨dd, hdd, rfl, -⟩
      · refine ⟨_, List.getElem?_set_self hlt, ?_, ?_⟩
        · intro hl
          have := (hch.1 hl).1
          rw [h1] at this; cases this
        · intro hl
          exact ⟨fun dd hd => (by rw [h2] at hd; cases hd), fun _ => rfl⟩
      · refine ⟨_, List.getElem?_set_self hlt, ?_, ?_⟩
        · intro hl
          obtain ⟨k1, k2, -⟩ := hch.1 hl
          refine ⟨rfl, ?_, .inr rfl⟩
          rcases hdd with ⟨-, hd⟩ | ⟨hd, -⟩
          · rw [← k2, hd]
          · rw [k1] at hd; cases hd
        · intro hl
          obtain ⟨k1, k2⟩ := hch.2 hl
          refine ⟨fun dd' hd' => ?_, fun hn => ?_⟩
          · have := k1 dd' hd'
            rw [this] at hdd
            rcases hdd with ⟨-, hd⟩ | ⟨hd, -⟩
            · cases hd; rfl
            · cases hd
          · have := k2 hn
            rw [this] at hdd
            rcases hdd with ⟨hd, -⟩ | ⟨-, hd⟩
            · cases hd
            · rw [hn] at hd; cases hd
    · have hset : ∀ x, ((profs.map (checked cfg w now)).set j x)[i]? = some (p, (checked cfg w now (p, a)).2) := by
        intro x
        rw [List.getElem?_set_ne hij]
        exact hbase i p a hi
      rcases hr with ⟨-, -, -, rfl⟩ | ⟨dd, -, rfl, -⟩
      · exact ⟨_, hset _, checked_change⟩
      · exact ⟨_, hset _, checked_change⟩

theorem change_consistent {w : World} {now : Int} {p : Profile} {a b : ProfileState} (h : Change w now p a b) (hc : a.loaded = a.dd.isSome) :
    b.loaded = b.dd.isSome := by
  cases hl : a.loaded with
  | true =>
    obtain ⟨h1, h2, -⟩ := h.1 hl
    rw [h1, h2, ← hc, hl]
  | false =>
    obtain ⟨h1, h2⟩ := h.2 hl
    cases hd : w.load p with
    | none => rw [h2 hd]; rfl
    | some dd => rw [h1 dd hd]; rfl

theorem job_profiles {cfg : Config} {w : World} {now : Int} {obj : Obj} {profs profs' : List (Profile × ProfileState)} {again : Bool}
    {new : Option Published} (h : startProcess cfg w now obj profs = .ok (again, profs', new)) : profs'.map Prod.fst = profs.map Prod.fst := by
  rcases job_result h with ⟨-, -, rfl, -⟩ | ⟨o, j, q, s, hjob, hj, -, hr⟩
  · rfl
  · have : ∀ st : ProfileState, (profs.set j (q, st)).map Prod.fst = profs.map Prod.fst := by
      intro st
      rw [List.map_set]
      apply set_same
      rw [List.getElem?_map, hj]
      rfl
    rcases hr with ⟨-, -, -, rfl⟩ | ⟨dd, -, rfl, -⟩ <;> exact this _

theorem consistent_of_change {w : World} {now : Int} {profs profs' : List (Profile × ProfileState)} (hc : Consistent profs)
    (hf : profs'.map Prod.fst = profs.map Prod.fst)
    (h : ∀ (i : Nat) p a, profs[i]? = some (p, a) → ∃ b, profs'[i]? = some (p, b) ∧ Change w now p a b) : Consistent profs' := by
  intro ps hps
  obtain ⟨i, hi, rfl⟩ := List.mem_iff_getElem.1 hps
  have hlen : profs'.length = profs.length := by simpa using congrArg List.length hf
  have hi' : i < profs.length := by omega
  obtain ⟨b, hb, hch⟩ := h i profs[i].1 profs[i].2 (by simp [hi'])
  rw [List.getElem?_eq_getElem hi] at hb
  rw [Option.some.inj hb]
  exact change_consistent hch (hc _ (List.getElem_mem hi'))

/-! ## one step -/

/-- the names of the profiles whose memory is freed at a moment -/
def idleOnes (cfg : Config) (now : Int) (s : State) : List (Int × String) :=
  (s.profs.filter (fun ps => Idle cfg now ps.2)).map (fun ps => (now, ps.1.name))

/-- What happens at one moment, when it does not stop the application -/
structure Moment (cfg : Config) (profiles : List Profile) (ops : List Op) (now : Int) (w : World) (s s' : State) : Prop where
  inv : Inv profiles ops s'
  change : ∀ (i : Nat) p a, s.profs[i]? = some (p, a) → ∃ b, s'.profs[i]? = some (p, b) ∧ Change w now p a b
  freed : s'.freed = s.freed ++ idleOnes cfg now s
  sched : ∃ ok, s'.sched = Scheduler.runNewJobs cfg.sched now ok s.sched
  jobs : (s'.sched.started = s.sched.started ∧ s'.stored = s.stored ∧ s'.sent = s.sent) ∨
    ∃ obj again new, Added ops obj ∧ startProcess cfg w now obj (s.profs.map (checked cfg w now)) = .ok (again, s'.profs, new) ∧
      s'.sched.started = s.sched.started ++ [(now, obj.publicID)] ∧
      s'.stored = s.stored ++ (if w.eventParameters.isSome then new.toList else []) ∧
      s'.sent = s.sent ++ (if w.connected && !cfg.testMode then new.toList else [])

theorem handleTimeout_moment {cfg : Config} {profiles : List Profile} {ops : List Op} {now : Int} {w : World} {s s' : State}
    (hinv : Inv profiles ops s) (h : handleTimeout cfg w now s = .ok s') : Moment cfg profiles ops now w s s' := by
  rcases handleTimeout_cases hinv cfg w now with ⟨t, h1, h2, h3, h4, h5, h6, h7, h8⟩ | ⟨obj, sched1, h1, h2, h3, h4, h5⟩
  · rw [h] at h1
    cases h1
    refine ⟨h2, ?_, h6, ⟨true, h8 true⟩, .inl ⟨h7, h4, h5⟩⟩
    intro i p a hi
    refine ⟨(checked cfg w now (p, a)).2, ?_, checked_change⟩
    rw [h3, List.getElem?_map, hi]
    rfl
  · rw [h] at h2
    obtain ⟨⟨again, profs', new⟩, g1, g2⟩ := bind_eq_ok h2.symm
    have hch := job_change hinv.consistent g1
    have hf := (job_profiles g1).trans (map_fst_checked cfg w now s.profs)
    have hcons := consistent_of_change hinv.consistent hf hch
    have hi := h5 (again, profs', new) hcons (hf.trans hinv.profiles)
    simp only at g2 hi
    cases g2
    refine ⟨hi, ?_, ?_, ⟨again, ?_⟩, .inr ⟨obj, again, new, h1, ?_, ?_, ?_, ?_⟩⟩ <;> unfold publish <;> cases new <;> simp only
    · exact hch
    · exact hch
    · rfl
    · rfl
    · exact h3 again
    · exact h3 again
    · exact g1
    · exact g1
    · exact h4 again
    · exact h4 again
    · simp
    · split <;> simp
    · simp
    · split <;> simp

theorem getElem?_reload {now : Int} {name : String} {profs : List (Profile × ProfileState)} {i : Nat} {p : Profile} {a : ProfileState}
    (hi : profs[i]? = some (p, a)) :
    (Reloads (profs.map Prod.fst) i (.reload now name) → (reload now name profs)[i]? = some (p, ⟨false, none, now⟩)) ∧
    (¬ Reloads (profs.map Prod.fst) i (.reload now name) → (reload now name profs)[i]? = some (p, a)) := by
  have hlt := (List.getElem?_eq_some_iff.1 hi).1
  have hname : ∀ (j : Nat) q, (profs.map Prod.fst)[j]? = some q ↔ ∃ st, profs[j]? = some (q, st) := by
    intro j q
    rw [List.getElem?_map]
    cases hj : profs[j]? with
    | none => simp
    | some x => constructor
                · intro h; cases h; exact ⟨x.2, rfl⟩
                · rintro ⟨st, h⟩; cases h; rfl
  have hiff : ∀ j, profs.findIdx? (fun p => decide (p.1.name = name)) = some j ↔
      (∃ q, (profs.map Prod.fst)[j]? = some q ∧ q.name = name) ∧ ∀ k < j, ∀ q, (profs.map Prod.fst)[k]? = some q → q.name ≠ name := by
    intro j
    rw [List.findIdx?_eq_some_iff_getElem]
    constructor
    · rintro ⟨h, h1, h2⟩
      refine ⟨⟨profs[j].1, (hname _ _).2 ⟨profs[j].2, by simp [h]⟩, by simpa using h1⟩, ?_⟩
      intro k hk q hq
      obtain ⟨st, hst⟩ := (hname _ _).1 hq
      have := h2 k hk
      rw [List.getElem?_eq_getElem (by omega)] at hst
      rw [Option.some.inj hst] at this
      simpa using this
    · rintro ⟨⟨q, hq, hn⟩, h2⟩
      obtain ⟨st, hst⟩ := (hname _ _).1 hq
      obtain ⟨h, he⟩ := List.getElem?_eq_some_iff.1 hst
      refine ⟨h, by rw [he]; simpa using hn, ?_⟩
      intro k hk
      have := h2 k hk profs[k].1 ((hname _ _).2 ⟨profs[k].2, by simp [show k < profs.length by omega]⟩)
      simpa using this
  unfold reload Reloads
  by_cases hn : name = ""
  · rw [if_pos hn]
    exact ⟨fun h => absurd hn h.1, fun _ => hi⟩
  · rw [if_neg hn]
    cases hf : profs.findIdx? (fun p => decide (p.1.name = name)) with
    | none =>
      refine ⟨fun h => ?_, fun _ => hi⟩
      rw [(hiff i).2 h.2] at hf
      cases hf
    | some j =>
      simp only [List.getElem?_modify]
      constructor
      · intro h
        rw [(hiff i).2 h.2] at hf
        cases hf
        simp [hi, ProfileState.unload]
      · intro h
        have : j ≠ i := by rintro rfl; exact h ⟨hn, (hiff _).1 hf⟩
        simp [this, hi]

theorem map_fst_reload (now : Int) (name : String) (profs : List (Profile × ProfileState)) :
    (reload now name profs).map Prod.fst = profs.map Prod.fst := by
  apply List.ext_getElem?
  intro i
  rw [List.getElem?_map, List.getElem?_map]
  cases hi : profs[i]? with
  | none =>
    have : (reload now name profs)[i]? = none := by
      unfold reload
      split
      · exact hi
      · split
        · exact hi
        · rw [List.getElem?_modify, hi]; simp
    rw [this]
  | some x =>
    obtain ⟨h1, h2⟩ := getElem?_reload (now := now) (name := name) (p := x.1) (a := x.2) hi
    by_cases hr : Reloads (profs.map Prod.fst) i (.reload now name)
    · rw [h1 hr]; rfl
    · rw [h2 hr]

theorem schedule_state (cfg : Config) (t : Int) (obj : Obj) (s : State) : (schedule cfg t obj s).profs = s.profs ∧
    (schedule cfg t obj s).stored = s.stored ∧ (schedule cfg t obj s).sent = s.sent ∧ (schedule cfg t obj s).freed = s.freed ∧
    (schedule cfg t obj s).sched.started = s.sched.started := by
  refine ⟨rfl, rfl, rfl, rfl, ?_⟩
  unfold schedule Scheduler.schedule
  simp only
  split <;> rfl

/-- the state in which the periodic work starts -/
def before (cfg : Config) (s : State) : Op → State
  | .add t _ obj _ => schedule cfg t obj s
  | _ => s

theorem before_state (cfg : Config) (s : State) (op : Op) : (before cfg s op).profs = s.profs ∧
    (before cfg s op).stored = s.stored ∧ (before cfg s op).sent = s.sent ∧ (before cfg s op).freed = s.freed ∧
    (before cfg s op).sched.started = s.sched.started := by
  cases op with
  | add t now obj w => exact schedule_state cfg t obj s
  | tick => exact ⟨rfl, rfl, rfl, rfl, rfl⟩
  | reload => exact ⟨rfl, rfl, rfl, rfl, rfl⟩

theorem before_inv {cfg : Config} {profiles : List Profile} {ops : List Op} {s : State} (h : Inv profiles ops s) (op : Op) :
    Inv profiles (ops ++ [op]) (before cfg s op) := by
  have h' : Inv profiles (ops ++ [op]) s := h.mono (fun o ho => by simp [ho])
  cases op with
  | add t now obj w => exact h'.schedule (now := now) (w := w) (by simp)
  | tick => exact h'
  | reload => exact h'

theorem step_moment {cfg : Config} {s : State} {op : Op} {now : Int} {w : World} (hm : moment op = some (now, w)) :
    step cfg s op = handleTimeout cfg w now (before cfg s op) := by
  cases op with
  | tick => cases hm; rfl
  | add => cases hm; rfl
  | reload => cases hm

theorem run_inv {cfg : Config} {profiles : List Profile} {start : Int} {ops : List Op} {s : State}
    (h : run cfg profiles start ops = .ok s) : Inv profiles ops s := by
  induction ops using List.reverseRecOn generalizing s with
  | nil => cases h; exact Inv.init cfg profiles start
  | append_singleton ops op ih =>
    rw [run_snoc] at h
    obtain ⟨s0, h0, h1⟩ := bind_eq_ok h
    have hb := before_inv (cfg := cfg) (ih h0) op
    cases hm : moment op with
    | some x =>
      obtain ⟨now, w⟩ := x
      rw [step_moment hm] at h1
      exact (handleTimeout_moment hb h1).inv
    | none =>
      cases op with
      | tick => cases hm
      | add => cases hm
      | reload now name =>
        cases h1
        refine ⟨hb.sched, hb.objs, ?_, (map_fst_reload now name s0.profs).trans hb.profiles⟩
        intro ps hps
        obtain ⟨i, hi, rfl⟩ := List.mem_iff_getElem.1 hps
        have hlen : (reload now name s0.profs).length = s0.profs.length := by simpa using congrArg List.length (map_fst_reload now name s0.profs)
        have hi' : i < s0.profs.length := by simp only at hi; omega
        obtain ⟨g1, g2⟩ := getElem?_reload (now := now) (name := name) (profs := s0.profs) (i := i) (p := s0.profs[i].1) (a := s0.profs[i].2) (by simp [hi'])
        have he := List.getElem?_eq_getElem hi
        simp only at he
        by_cases hr : Reloads (s0.profs.map Prod.fst) i (.reload now name)
        · rw [g1 hr] at he
          rw [← Option.some.inj he]; rfl
        · rw [g2 hr] at he
          rw [← Option.some.inj he]
          exact hb.consistent _ (List.getElem_mem hi')

/-! ## C81: the profiles -/

/-- **C81a** In every history, a moment changes every profile in one way only: a loaded profile keeps what was loaded, and
any other profile is loaded if that is possible. -/
theorem profile_moment {cfg : Config} {profiles : List Profile} {start : Int} {ops : List Op} {op : Op} {now : Int} {w : World} {s s' : State}
    (h : run cfg profiles start ops = .ok s) (h' : run cfg profiles start (ops ++ [op]) = .ok s') (hm : moment op = some (now, w))
    {i : Nat} {p : Profile} (hp : profiles[i]? = some p) :
    ∃ a b, s.profs[i]? = some (p, a) ∧ s'.profs[i]? = some (p, b) ∧ Change w now p a b := by
  rw [run_snoc, h] at h'
  simp only [Outcome.bind_ok] at h'
  have hinv := run_inv h
  rw [step_moment hm] at h'
  have hmo := handleTimeout_moment (before_inv (cfg := cfg) hinv op) h'
  have hi : ∃ a, s.profs[i]? = some (p, a) := by
    rw [← hinv.profiles, List.getElem?_map] at hp
    obtain ⟨x, hx, rfl⟩ := Option.map_eq_some_iff.1 hp
    exact ⟨x.2, hx⟩
  obtain ⟨a, ha⟩ := hi
  obtain ⟨b, hb, hc⟩ := hmo.change i p a (by rw [(before_state cfg s op).1]; exact ha)
  exact ⟨a, b, ha, hb, hc⟩

/-- **C81b** A request to reload a profile unloads this profile and changes nothing else. -/
theorem profile_reload {cfg : Config} {profiles : List Profile} {start : Int} {ops : List Op} {now : Int} {name : String} {s s' : State}
    (h : run cfg profiles start ops = .ok s) (h' : run cfg profiles start (ops ++ [.reload now name]) = .ok s') :
    (∃ profs, s' = { s with profs := profs }) ∧
    ∀ i p, profiles[i]? = some p → ∃ a, s.profs[i]? = some (p, a) ∧
      (Reloads profiles i (.reload now name) → s'.profs[i]? = some (p, ⟨false, none, now⟩)) ∧
      (¬ Reloads profiles i (.reload now name) → s'.profs[i]? = some (p, a)) := by
  rw [run_snoc, h] at h'
  cases h'
  refine ⟨⟨_, rfl⟩, ?_⟩
  intro i p hp
  have hinv := run_inv h
  have hi : ∃ a, s.profs[i]? = some (p, a) := by
    rw [← hinv.profiles, List.getElem?_map] at hp
    obtain ⟨x, hx, rfl⟩ := Option.map_eq_some_iff.1 hp
    exact ⟨x.2, hx⟩
  obtain ⟨a, ha⟩ := hi
  rw [← hinv.profiles]
  exact ⟨a, ha, getElem?_reload ha⟩

/-- a request to reload never stops the application -/
theorem reload_ok {cfg : Config} {profiles : List Profile} {start : Int} {ops : List Op} {now : Int} {name : String} {s : State}
    (h : run cfg profiles start ops = .ok s) : ∃ s', run cfg profiles start (ops ++ [.reload now name]) = .ok s' := by
  rw [run_snoc, h]
  exact ⟨_, rfl⟩

theorem loadedIn_snoc {profiles : List Profile} {ops : List Op} {i : Nat} {dd : DD} {op : Op} (h : LoadedIn profiles ops i dd)
    (hop : ¬ Reloads profiles i op) : LoadedIn profiles (ops ++ [op]) i dd := by
  obtain ⟨pre, op1, post, now, w, p, rfl, h2, h3, h4, h5⟩ := h
  refine ⟨pre, op1, post ++ [op], now, w, p, by simp, h2, h3, h4, ?_⟩
  intro op' hop'
  rcases List.mem_append.1 hop' with h | h
  · exact h5 _ h
  · rw [List.mem_singleton.1 h]; exact hop

/-- **C81c** In every history, what a profile has loaded was loaded after the last request to reload it: the changes made
before such a request are in use from the next moment on. -/
theorem profile_fresh {cfg : Config} {profiles : List Profile} {start : Int} {ops : List Op} {s : State}
    (h : run cfg profiles start ops = .ok s) {i : Nat} {p : Profile} {a : ProfileState} {dd : DD} (hi : s.profs[i]? = some (p, a))
    (hd : a.dd = some dd) : profiles[i]? = some p ∧ a.loaded = true ∧ LoadedIn profiles ops i dd := by
  have hp : profiles[i]? = some p := by
    rw [← (run_inv h).profiles, List.getElem?_map, hi]; rfl
  have hl : a.loaded = true := by
    rw [(run_inv h).consistent (p, a) (List.mem_of_getElem? hi)]
    simp [hd]
  refine ⟨hp, hl, ?_⟩
  induction ops using List.reverseRecOn generalizing s a with
  | nil =>
    cases h
    unfold init at hi
    simp only [List.getElem?_map] at hi
    obtain ⟨q, -, hq⟩ := Option.map_eq_some_iff.1 hi
    cases hq
    cases hd
  | append_singleton ops op ih =>
    have hrun := h
    rw [run_snoc] at h
    obtain ⟨s0, h0, h1⟩ := bind_eq_ok h
    cases hm : moment op with
    | some x =>
      obtain ⟨now, w⟩ := x
      obtain ⟨a0, b, g1, g2, g3⟩ := profile_moment h0 hrun hm hp
      rw [hi] at g2
      cases g2
      have hnr : ¬ Reloads profiles i op := by
        cases op with
        | tick => exact id
        | add => exact id
        | reload => cases hm
      cases hl0 : a0.loaded with
      | true =>
        obtain ⟨-, k2, -⟩ := g3.1 hl0
        exact loadedIn_snoc (ih h0 g1 (by rw [← k2]; exact hd) hl0) hnr
      | false =>
        obtain ⟨k1, k2⟩ := g3.2 hl0
        cases hw : w.load p with
        | none => rw [k2 hw] at hd; cases hd
        | some dd' =>
          rw [k1 dd' hw] at hd
          cases hd
          exact ⟨ops, op, [], now, w, p, rfl, hm, hp, hw, by simp⟩
    | none =>
      cases op with
      | tick => cases hm
      | add => cases hm
      | reload now name =>
        obtain ⟨-, g⟩ := profile_reload h0 hrun
        obtain ⟨a0, g1, g2, g3⟩ := g i p hp
        by_cases hr : Reloads profiles i (.reload now name)
        · have := g2 hr
          rw [hi] at this
          cases this
          cases hd
        · have := g3 hr
          rw [hi] at this
          cases this
          exact loadedIn_snoc (ih h0 g1 hd hl) hr

/-- **C81d** What is loaded stays in use until there is a request to reload it. -/
theorem profile_kept {cfg : Config} {profiles : List Profile} {start : Int} {ops more : List Op} {s s' : State}
    (h : run cfg profiles start ops = .ok s) (h' : run cfg profiles start (ops ++ more) = .ok s') {i : Nat} {p : Profile} {a : ProfileState}
    {dd : DD} (hi : s.profs[i]? = some (p, a)) (hd : a.dd = some dd) (hno : ∀ op ∈ more, ¬ Reloads profiles i op) :
    ∃ b, s'.profs[i]? = some (p, b) ∧ b.loaded = true ∧ b.dd = some dd := by
  obtain ⟨hp, hl, -⟩ := profile_fresh h hi hd
  induction more using List.reverseRecOn generalizing s' with
  | nil =>
    rw [List.append_nil, h] at h'
    cases h'
    exact ⟨a, hi, hl, hd⟩
  | append_singleton more op ih =>
    rw [← List.append_assoc] at h'
    have hrun := h'
    rw [run_snoc] at h'
    obtain ⟨s0, h0, h1⟩ := bind_eq_ok h'
    obtain ⟨b, k1, k2, k3⟩ := ih h0 (fun o ho => hno o (by simp [ho]))
    cases hm : moment op with
    | some x =>
      obtain ⟨now, w⟩ := x
      obtain ⟨a0, c, g1, g2, g3⟩ := profile_moment h0 hrun hm hp
      rw [k1] at g1
      cases g1
      obtain ⟨m1, m2, -⟩ := g3.1 k2
      exact ⟨c, g2, m1, m2.trans k3⟩
    | none =>
      cases op with
      | tick => cases hm
      | add => cases hm
      | reload now name =>
        obtain ⟨-, g⟩ := profile_reload h0 hrun
        obtain ⟨a0, g1, -, g3⟩ := g i p hp
        rw [k1] at g1
        cases g1
        exact ⟨_, g3 (hno _ (by simp)), k2, k3⟩

/-- **C81e** The memory of a profile is freed exactly at the moments when it is loaded and was not used for longer than
the configured time; a negative time means never. -/
theorem profile_freed {cfg : Config} {profiles : List Profile} {start : Int} {ops : List Op} {op : Op} {now : Int} {w : World} {s s' : State}
    (h : run cfg profiles start ops = .ok s) (h' : run cfg profiles start (ops ++ [op]) = .ok s') (hm : moment op = some (now, w)) :
    s'.freed = s.freed ++ (s.profs.filter (fun ps => Idle cfg now ps.2)).map (fun ps => (now, ps.1.name)) := by
  rw [run_snoc, h] at h'
  simp only [Outcome.bind_ok] at h'
  rw [step_moment hm] at h'
  have := (handleTimeout_moment (before_inv (cfg := cfg) (run_inv h) op) h').freed
  rw [this, (before_state cfg s op).2.2.2.1]
  unfold idleOnes
  rw [(before_state cfg s op).1]

/-! ## C80: the jobs -/

theorem chosen_firstFit {cfg : Config} {o : Origin} {profs : List (Profile × ProfileState)} {profiles : List Profile}
    (hp : profs.map Prod.fst = profiles) {i : Nat} : Chosen cfg o profs i ↔ ∃ p, FirstFit cfg o profiles i p := by
  have hname : ∀ (j : Nat) q, profiles[j]? = some q ↔ ∃ st, profs[j]? = some (q, st) := by
    intro j q
    rw [← hp, List.getElem?_map]
    cases hj : profs[j]? with
    | none => simp
    | some x => constructor
                · intro h; cases h; exact ⟨x.2, rfl⟩
                · rintro ⟨st, h⟩; cases h; rfl
  constructor
  · rintro ⟨⟨ps, h1, h2⟩, h3⟩
    refine ⟨ps.1, (hname _ _).2 ⟨ps.2, h1⟩, h2, ?_⟩
    intro j hj q hq
    obtain ⟨st, hst⟩ := (hname _ _).1 hq
    exact h3 j hj _ hst
  · rintro ⟨p, h1, h2, h3⟩
    obtain ⟨st, hst⟩ := (hname _ _).1 h1
    refine ⟨⟨_, hst, h2⟩, ?_⟩
    intro j hj ps hps
    exact h3 j hj ps.1 ((hname _ _).2 ⟨ps.2, hps⟩)

theorem run_jobDone {cfg : Config} {profiles : List Profile} {start : Int} {ops : List Op} {s' : State}
    (h' : run cfg profiles start ops = .ok s') {w : World} {now : Int} {obj : Obj} {profs : List (Profile × ProfileState)} {again : Bool}
    {new : Option Published} (hp : profs.map Prod.fst = profiles) (hj : startProcess cfg w now obj profs = .ok (again, s'.profs, new)) :
    JobDone cfg profiles ops w obj new := by
  rcases job_result hj with ⟨hno, -, -, hn⟩ | ⟨o, i, p, st, ⟨h1, h2, h3⟩, hi, -, hr⟩
  · refine .inl ⟨?_, hn⟩
    rintro ⟨o, i, p, k1, k2, k3⟩
    exact hno ⟨o, i, k1, k2, (chosen_firstFit hp).2 ⟨p, k3⟩⟩
  · obtain ⟨q, hq⟩ := (chosen_firstFit hp).1 h3
    have hqp : q = p := by
      have := hq.1
      rw [← hp, List.getElem?_map, hi] at this
      cases this; rfl
    subst hqp
    refine .inr ⟨o, i, q, h1, h2, hq, ?_⟩
    rcases hr with ⟨-, g2, g3, -⟩ | ⟨dd, -, g2, g3⟩
    · exact .inl ⟨g2, g3⟩
    · refine .inr ⟨dd, ?_, g3⟩
      have hlt := (List.getElem?_eq_some_iff.1 hi).1
      exact (profile_fresh h' (i := i) (p := q) (a := ⟨true, some dd, now⟩) (by rw [g2]; exact List.getElem?_set_self hlt) rfl).2.2

/-- **C80d** Every history of the application consists of jobs. The jobs are those the scheduler started, in this order.
Each one belongs to a moment of the history, when its object had already been added. It published what the relocation of the
wanted origin gave, with the first profile that fits, as loaded after the last request to reload it, or nothing. What is
sent, and what is added to the event parameters, are exactly these results, in this order. -/
theorem run_history {cfg : Config} {profiles : List Profile} {start : Int} {ops : List Op} {s : State}
    (h : run cfg profiles start ops = .ok s) : ∃ jobs : List Done,
      s.sched.started = jobs.map (fun j => (j.now, j.obj.publicID)) ∧
      s.sent = jobs.flatMap (fun j => if j.w.connected && !cfg.testMode then j.new.toList else []) ∧
      s.stored = jobs.flatMap (fun j => if j.w.eventParameters.isSome then j.new.toList else []) ∧
      ∀ j ∈ jobs, ∃ pre op post, ops = pre ++ op :: post ∧ moment op = some (j.now, j.w) ∧ Added (pre ++ [op]) j.obj ∧
        JobDone cfg profiles (pre ++ [op]) j.w j.obj j.new := by
  induction ops using List.reverseRecOn generalizing s with
  | nil => cases h; exact ⟨[], rfl, rfl, rfl, by simp⟩
  | append_singleton ops op ih =>
    have hrun := h
    rw [run_snoc] at h
    obtain ⟨s0, h0, h1⟩ := bind_eq_ok h
    obtain ⟨jobs, g1, g2, g3, g4⟩ := ih h0
    have hold : ∀ j ∈ jobs, ∃ pre op' post, ops ++ [op] = pre ++ op' :: post ∧ moment op' = some (j.now, j.w) ∧ Added (pre ++ [op']) j.obj ∧
        JobDone cfg profiles (pre ++ [op']) j.w j.obj j.new := by
      intro j hj
      obtain ⟨pre, op', post, k1, k2⟩ := g4 j hj
      exact ⟨pre, op', post ++ [op], by rw [k1]; simp, k2⟩
    cases hm : moment op with
    | some x =>
      obtain ⟨now, w⟩ := x
      rw [step_moment hm] at h1
      obtain ⟨b1, b2, b3, b4, b5⟩ := before_state cfg s0 op
      have hb := before_inv (cfg := cfg) (run_inv h0) op
      have hmo := handleTimeout_moment hb h1
      rcases hmo.jobs with ⟨k1, k2, k3⟩ | ⟨obj, again, new, k1, k2, k3, k4, k5⟩
      · exact ⟨jobs, by rw [k1, b5, g1], by rw [k3, b3, g2], by rw [k2, b2, g3], hold⟩
      · refine ⟨jobs ++ [⟨now, w, obj, new⟩], by rw [k3, b5, g1]; simp, by rw [k5, b3, g2]; simp, by rw [k4, b2, g3]; simp, ?_⟩
        intro j hj
        rcases List.mem_append.1 hj with hj | hj
        · exact hold j hj
        · rw [List.mem_singleton.1 hj]
          refine ⟨ops, op, [], rfl, hm, k1, ?_⟩
          exact run_jobDone hrun ((map_fst_checked cfg w now _).trans hb.profiles) k2
    | none =>
      cases op with
      | tick => cases hm
      | add => cases hm
      | reload now name =>
        cases h1
        exact ⟨jobs, g1, g2, g3, hold⟩

/-- **C80e** In test mode nothing is ever sent. -/
theorem test_mode_sends_nothing {cfg : Config} {profiles : List Profile} {start : Int} {ops : List Op} {s : State}
    (h : run cfg profiles start ops = .ok s) (ht : cfg.testMode = true) : s.sent = [] := by
  obtain ⟨jobs, -, h2, -⟩ := run_history h
  rw [h2]
  simp [ht]

/-- **C80f** The scheduling of the jobs is that of the scheduler (C51, C52), for the same arrivals and clock: requests to
reload have no influence on it. -/
theorem run_scheduler {cfg : Config} {profiles : List Profile} {start : Int} {ops : List Op} {s : State}
    (h : run cfg profiles start ops = .ok s) : ∃ sops, List.Forall₂ SameOp (ops.filter (fun op => (moment op).isSome)) sops ∧
      s.sched = Scheduler.run cfg.sched sops := by
  induction ops using List.reverseRecOn generalizing s with
  | nil => cases h; exact ⟨[], .nil, rfl⟩
  | append_singleton ops op ih =>
    rw [run_snoc] at h
    obtain ⟨s0, h0, h1⟩ := bind_eq_ok h
    obtain ⟨sops, g1, g2⟩ := ih h0
    have hb := before_inv (cfg := cfg) (run_inv h0) op
    cases op with
    | tick now w =>
      obtain ⟨ok, hok⟩ := (handleTimeout_moment hb h1).sched
      refine ⟨sops ++ [.tick now ok], ?_, ?_⟩
      · rw [List.filter_append]
        exact List.rel_append g1 (.cons (.tick now w ok) .nil)
      · rw [Scheduler.run_snoc, ← g2, hok]
        rfl
    | add t now obj w =>
      obtain ⟨ok, hok⟩ := (handleTimeout_moment hb h1).sched
      refine ⟨sops ++ [.add t now obj.publicID ok], ?_, ?_⟩
      · rw [List.filter_append]
        exact List.rel_append g1 (.cons (.add t now obj w ok) .nil)
      · rw [Scheduler.run_snoc, ← g2, hok]
        rfl
    | reload now name =>
      cases h1
      refine ⟨sops, ?_, g2⟩
      rw [List.filter_append]
      simpa [moment] using g1

/-- the origins the object may stand for can be relocated with everything that was ever loaded -/
structure Workable (cfg : Config) (profiles : List Profile) (ops : List Op) (w : World) (obj : Obj) : Prop where
  answer : Answerable w obj
  move : ∀ c, isEmpty (w.afterMove c) = true
  relocate : ∀ o i p dd, Target w obj o → Wanted cfg w obj o → FirstFit cfg o profiles i p → LoadedIn profiles ops i dd →
    ∃ isManual cat r1 r2, Prepared w p dd o isManual cat ∧ cat.events ≠ [] ∧ TwoSteps p dd isManual cat r1 r2 ∧ Proper r1 ∧ Proper r2 ∧
      (isEmpty r2 = false → ∃ x, MadeFrom cfg w p o r2 x)

theorem job_survives {cfg : Config} {profiles : List Profile} {ops : List Op} {w : World} {now : Int} {obj : Obj}
    {profs : List (Profile × ProfileState)} (hp : profs.map Prod.fst = profiles) (hw : Workable cfg profiles ops w obj)
    (hl : ∀ (i : Nat) p a, profs[i]? = some (p, a) → a.loaded = a.dd.isSome ∧ (∀ dd, a.dd = some dd → LoadedIn profiles ops i dd) ∧
      (a.loaded = false → w.load p = none)) :
    ∃ r, startProcess cfg w now obj profs = .ok r := by
  by_cases hjob : ∃ o i, Job cfg w obj profs o i
  · obtain ⟨o, i, hj⟩ := hjob
    obtain ⟨p, hfit⟩ := (chosen_firstFit hp).1 hj.2.2
    have hi : ∃ a, profs[i]? = some (p, a) := by
      have := hfit.1
      rw [← hp, List.getElem?_map] at this
      obtain ⟨x, hx, rfl⟩ := Option.map_eq_some_iff.1 this
      exact ⟨x.2, hx⟩
    obtain ⟨a, ha⟩ := hi
    obtain ⟨k1, k2, k3⟩ := hl i p a ha
    cases hd : a.dd with
    | some dd =>
      obtain ⟨isManual, cat, r1, r2, m1, m2, m3, m4, m5, m6⟩ := hw.relocate o i p dd hj.1 hj.2.1 hfit (k2 dd hd)
      have hlo : a.loaded = true := by rw [k1, hd]; rfl
      cases he : isEmpty r2 with
      | true => exact ⟨_, job_succeeds hw.answer hj ha (.inl ⟨hlo, hd⟩) m1 m2 hw.move m3 m4 m5 (.inl ⟨he, rfl⟩)⟩
      | false =>
        obtain ⟨x, hx⟩ := m6 he
        exact ⟨_, job_succeeds hw.answer hj ha (.inl ⟨hlo, hd⟩) m1 m2 hw.move m3 m4 m5 (.inr ⟨x, he, hx, rfl⟩)⟩
    | none =>
      have hlo : a.loaded = false := by rw [k1, hd]; rfl
      have hwl := k3 hlo
      obtain ⟨org, pref, q1, q2, q3⟩ := originOf_ok hw.answer
      have horg := (q2 o).1 hj.1
      subst horg
      have hpref : ¬ (cfg.onlyPreferredOrigin && !cfg.forceProcessing && !pref) = true := by
        rcases hj.2.1 with hf | ⟨hf, -⟩
        · simp [hf]
        · intro hn
          simp only [Bool.and_eq_true, Bool.not_eq_true'] at hn
          have := q3.2 (hf hn.1.1)
          rw [hn.2] at this; cases this
      have hacc : accepted cfg w o = true := by
        rw [accepted_iff]
        rcases hj.2.1 with hf | hf
        · exact .inl hf
        · exact .inr hf.2
      refine ⟨(true, profs.set i (p, ⟨false, none, now⟩), none), ?_⟩
      unfold startProcess
      rw [q1]
      simp only [Outcome.bind_ok]
      rw [if_neg hpref]
      simp only [selectProfile_some.2 hj.2.2, ha]
      unfold processOrigin
      rw [if_neg (by simp [hacc])]
      have hld : a.load w now p = ⟨false, none, now⟩ := by
        unfold ProfileState.load
        rw [if_neg (by simp [hlo]), hwl]; rfl
      simp only [hld]
      rfl
  · exact ⟨_, nothing_to_do hw.answer hjob⟩

/-- **C80g** The periodic work itself never stops the application: as long as the jobs can be done, whatever arrives in
whatever order and at whatever time, and whether or not profiles can be loaded, it goes on. Partial: jobs that cannot be done
should be rejected, but origins without evaluation mode, depth, arrivals or database stop the application
(`Props/DaemonExample.lean`). -/
theorem run_never_stops_partial (cfg : Config) (profiles : List Profile) (start : Int) (ops : List Op)
    (h : ∀ pre op post now w obj, ops = pre ++ op :: post → moment op = some (now, w) → Added (pre ++ [op]) obj →
      Workable cfg profiles (pre ++ [op]) w obj) : ∃ s, run cfg profiles start ops = .ok s := by
  induction ops using List.reverseRecOn with
  | nil => exact ⟨_, rfl⟩
  | append_singleton ops op ih =>
    obtain ⟨s0, h0⟩ := ih (fun pre op' post now w obj he => h pre op' (post ++ [op]) now w obj (by rw [he]; simp))
    cases hm : moment op with
    | none =>
      cases op with
      | tick => cases hm
      | add => cases hm
      | reload now name => exact reload_ok h0
    | some x =>
      obtain ⟨now, w⟩ := x
      rw [run_snoc, h0]
      simp only [Outcome.bind_ok]
      rw [step_moment hm]
      have hb := before_inv (cfg := cfg) (run_inv h0) op
      have hnr : ∀ i, ¬ Reloads profiles i op := by
        intro i
        cases op with
        | tick => exact id
        | add => exact id
        | reload => cases hm
      rcases handleTimeout_cases hb cfg w now with ⟨t, h1, -⟩ | ⟨obj, sched1, h1, h2, -⟩
      · exact ⟨t, h1⟩
      · rw [h2]
        obtain ⟨r, hr⟩ := job_survives (now := now) ((map_fst_checked cfg w now _).trans hb.profiles) (h ops op [] now w obj rfl hm h1) (by
          intro i p a ha
          rw [List.getElem?_map] at ha
          obtain ⟨⟨p', a0⟩, ha0, he⟩ := Option.map_eq_some_iff.1 ha
          have hpp : p' = p := congrArg Prod.fst he
          subst hpp
          have hch := checked_change (cfg := cfg) (w := w) (now := now) (p := p') (a := a0)
          rw [he] at hch
          simp only at hch
          have hpi : profiles[i]? = some p' := by rw [← hb.profiles, List.getElem?_map, ha0]; rfl
          refine ⟨change_consistent hch (hb.consistent _ (List.mem_of_getElem? ha0)), ?_, ?_⟩
          · intro dd hdd
            cases hl0 : a0.loaded with
            | true =>
              obtain ⟨-, k2, -⟩ := hch.1 hl0
              rw [(before_state cfg s0 op).1] at ha0
              exact loadedIn_snoc (profile_fresh h0 ha0 (by rw [← k2]; exact hdd)).2.2 (hnr i)
            | false =>
              obtain ⟨k1, k2⟩ := hch.2 hl0
              cases hwl : w.load p' with
              | none => rw [k2 hwl] at hdd; cases hdd
              | some dd' =>
                rw [k1 dd' hwl] at hdd
                cases hdd
                exact ⟨ops, op, [], now, w, p', rfl, hm, hpi, hwl, by simp⟩
          · intro hla
            cases hl0 : a0.loaded with
            | true => rw [(hch.1 hl0).1] at hla; cases hla
            | false =>
              cases hwl : w.load p' with
              | none => rfl
              | some dd' => rw [(hch.2 hl0).1 dd' hwl] at hla; cases hla)
        rw [hr]
        exact ⟨_, rfl⟩

end Verif.Daemon
