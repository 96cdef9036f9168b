import Verif.Props.Daemon
import Verif.Spec.DaemonRun
import Verif.Props.Scheduler

/-! The application as a whole: what one step does. -/

set_option linter.unusedSimpArgs false

namespace Verif.Daemon
open Verif.Catalog Spec

/-- a profile has a DD object exactly when it is loaded -/
def Consistent (profs : List (Profile × ProfileState)) : Prop := ∀ ps ∈ profs, ps.2.loaded = ps.2.dd.isSome

/-- the state of a profile after `checkProfileStatus` -/
def checked (cfg : Config) (w : World) (now : Int) (ps : Profile × ProfileState) : Profile × ProfileState :=
  (ps.1, if Idle cfg now ps.2 then { ps.2 with lastUsage := now } else ps.2.load w now ps.1)

theorem load_consistent {w : World} {now : Int} {p : Profile} {s : ProfileState} (h : s.loaded = s.dd.isSome) :
    (s.load w now p).loaded = (s.load w now p).dd.isSome := by
  unfold ProfileState.load
  split
  · exact h
  · cases w.load p <;> rfl

theorem checkProfile_eq (cfg : Config) (w : World) (now : Int) (ps : Profile × ProfileState) (h : ps.2.loaded = ps.2.dd.isSome) :
    checkProfile cfg w now ps = .ok (checked cfg w now ps, decide (Idle cfg now ps.2)) := by
  unfold checkProfile checked
  by_cases hi : Idle cfg now ps.2
  · have hl : ps.2.load w now ps.1 = ps.2 := by unfold ProfileState.load; rw [if_pos hi.2.1]
    simp only [hl]
    rw [if_pos ⟨hi.1, hi.2.1, hi.2.2⟩, if_pos hi]
    unfold ProfileState.freeResources
    rw [if_neg (by simp [hi.2.1])]
    have := hi.2.1
    rw [h] at this
    obtain ⟨dd, hd⟩ := Option.isSome_iff_exists.1 this
    rw [hd]
    simp [hi, hd]
  · rw [if_neg hi]
    simp only
    rw [if_neg]
    · simp [hi]
    · rintro ⟨h1, h2, h3⟩
      apply hi
      by_cases hl : ps.2.loaded = true
      · have he : ps.2.load w now ps.1 = ps.2 := by unfold ProfileState.load; rw [if_pos hl]
        rw [he] at h3
        exact ⟨h1, hl, h3⟩
      · exfalso
        have : (ps.2.load w now ps.1).lastUsage = now := by
          unfold ProfileState.load
          rw [if_neg hl]
          cases w.load ps.1 <;> rfl
        rw [this] at h3
        omega

theorem checkProfileStatus_eq (cfg : Config) (w : World) (now : Int) : ∀ profs, Consistent profs →
    checkProfileStatus cfg w now profs =
      .ok (profs.map (checked cfg w now), (profs.filter (fun ps => Idle cfg now ps.2)).map (fun ps => (now, ps.1.name)))
  | [], _ => rfl
  | ps :: rest, h => by
    unfold checkProfileStatus
    rw [checkProfile_eq cfg w now ps (h ps (by simp))]
    simp only [Outcome.bind_ok]
    rw [checkProfileStatus_eq cfg w now rest (fun q hq => h q (List.mem_cons_of_mem _ hq))]
    simp only [Outcome.bind_ok, List.map_cons, List.filter_cons]
    by_cases hi : Idle cfg now ps.2
    · simp [hi, checked]
    · simp [hi]

theorem checked_consistent {cfg : Config} {w : World} {now : Int} {profs : List (Profile × ProfileState)} (h : Consistent profs) :
    Consistent (profs.map (checked cfg w now)) := by
  intro ps hps
  obtain ⟨q, hq, rfl⟩ := List.mem_map.1 hps
  unfold checked
  split
  · exact h q hq
  · exact load_consistent (h q hq)

theorem map_fst_checked (cfg : Config) (w : World) (now : Int) (profs : List (Profile × ProfileState)) :
    (profs.map (checked cfg w now)).map Prod.fst = profs.map Prod.fst := by
  rw [List.map_map]; rfl

theorem afterCrontab_eq (cfg : Scheduler.Config) (now : Int) (s : Scheduler.State) : afterCrontab cfg now s = Scheduler.prepared cfg now s := rfl

/-- Invariant: every process has the object it was created for, which was added with the id of the process. -/
structure Inv (profiles : List Profile) (ops : List Op) (s : State) : Prop where
  sched : Scheduler.Inv s.sched
  objs : ∀ k p, s.sched.procs.find? k = some p → p.ref.uid < s.sched.nextUid ∧ ∃ obj, s.objs.find? p.ref.uid = some obj ∧
    obj.publicID = k ∧ ∃ t now w, Op.add t now obj w ∈ ops
  consistent : Consistent s.profs
  profiles : s.profs.map Prod.fst = profiles

theorem Inv.init (cfg : Config) (profiles : List Profile) (start : Int) : Inv profiles [] (init cfg profiles start) where
  sched := Scheduler.run_inv cfg.sched []
  objs := by intro k p h; cases h
  consistent := by
    intro ps hps
    obtain ⟨p, -, rfl⟩ := List.mem_map.1 hps
    rfl
  profiles := by simp [Daemon.init, List.map_map, Function.comp_def]

theorem Inv.mono {profiles : List Profile} {ops ops' : List Op} {s : State} (h : Inv profiles ops s) (hs : ∀ op ∈ ops, op ∈ ops') :
    Inv profiles ops' s := by
  refine ⟨h.sched, ?_, h.consistent, h.profiles⟩
  intro k p hp
  obtain ⟨h1, obj, h2, h3, t, now, w, h4⟩ := h.objs k p hp
  exact ⟨h1, obj, h2, h3, t, now, w, hs _ h4⟩

theorem Inv.schedule {cfg : Config} {profiles : List Profile} {ops : List Op} {s : State} (h : Inv profiles ops s) {t now : Int} {obj : Obj}
    {w : World} (hm : Op.add t now obj w ∈ ops) : Inv profiles ops (schedule cfg t obj s) := by
  refine ⟨Scheduler.schedule_inv h.sched, ?_, h.consistent, h.profiles⟩
  unfold Daemon.schedule Scheduler.schedule
  intro k p hp
  simp only at hp ⊢
  cases hf : s.sched.procs.find? obj.publicID with
  | some p0 =>
    rw [hf] at hp
    simp only at hp ⊢
    by_cases hk : k = obj.publicID
    · subst hk
      rw [AMap.find?_set_self] at hp
      cases hp
      exact h.objs _ p0 hf
    · rw [AMap.find?_set_ne _ _ hk] at hp
      exact h.objs _ _ hp
  | none =>
    rw [hf] at hp
    simp only at hp ⊢
    by_cases hk : k = obj.publicID
    · subst hk
      rw [AMap.find?_set_self] at hp
      cases hp
      exact ⟨Nat.lt_succ_self _, obj, AMap.find?_set_self _ _ _, rfl, t, now, w, hm⟩
    · rw [AMap.find?_set_ne _ _ hk] at hp
      obtain ⟨h1, obj', h2, h3⟩ := h.objs _ _ hp
      refine ⟨Nat.lt_succ_of_lt h1, obj', ?_, h3⟩
      rw [AMap.find?_set_ne _ _ (by omega)]
      exact h2

/-- what is started by a wake-up -/
theorem prepared_objs {profiles : List Profile} {ops : List Op} {s : State} (h : Inv profiles ops s) (cfg : Scheduler.Config) (now : Int) (c : Int) :
    Scheduler.Inv (Scheduler.prepared cfg now { s.sched with cron := c }) ∧
    (∀ k p, (Scheduler.prepared cfg now { s.sched with cron := c }).procs.find? k = some p → p.ref.uid < s.sched.nextUid ∧
      ∃ obj, s.objs.find? p.ref.uid = some obj ∧ obj.publicID = k ∧ ∃ t now w, Op.add t now obj w ∈ ops) ∧
    (Scheduler.prepared cfg now { s.sched with cron := c }).nextUid = s.sched.nextUid := by
  have hinv : Scheduler.Inv { s.sched with cron := c } := ⟨h.sched.keys, h.sched.key, h.sched.nodup, h.sched.queued⟩
  obtain ⟨h1, h2, h3, h4, h5, h6⟩ := Scheduler.prepared_spec cfg now _ hinv
  refine ⟨h1, ?_, h6⟩
  intro k p hp
  rw [h2] at hp
  obtain ⟨p0, hp0, hc⟩ := Option.bind_eq_some_iff.1 hp
  have hr : p.ref = p0.ref := by
    unfold Scheduler.afterCron at hc
    split at hc
    · cases hc
    · split at hc <;> (cases hc; rfl)
  rw [hr]
  exact h.objs k p0 hp0

/-- The periodic work of one step: either nothing is started, or the object at the front of the queue is. -/
theorem handleTimeout_cases {profiles : List Profile} {ops : List Op} {s : State} (h : Inv profiles ops s) (cfg : Config) (w : World) (now : Int) :
    (∃ s', handleTimeout cfg w now s = .ok s' ∧ Inv profiles ops s' ∧
      s'.profs = s.profs.map (checked cfg w now) ∧ s'.stored = s.stored ∧ s'.sent = s.sent ∧
      s'.freed = s.freed ++ (s.profs.filter (fun ps => Idle cfg now ps.2)).map (fun ps => (now, ps.1.name)) ∧
      s'.sched.started = s.sched.started ∧ ∀ ok, s'.sched = Scheduler.runNewJobs cfg.sched now ok s.sched) ∨
    (∃ (obj : Obj) (sched1 : Bool → Scheduler.State), (∃ t now w, Op.add t now obj w ∈ ops) ∧
      handleTimeout cfg w now s = (startProcess cfg w now obj (s.profs.map (checked cfg w now)) >>= fun r =>
        .ok (publish cfg w r.2.2 ⟨sched1 r.1, s.objs, r.2.1, s.stored, s.sent,
          s.freed ++ (s.profs.filter (fun ps => Idle cfg now ps.2)).map (fun ps => (now, ps.1.name))⟩)) ∧
      (∀ ok, sched1 ok = Scheduler.runNewJobs cfg.sched now ok s.sched) ∧
      (∀ ok, (sched1 ok).started = s.sched.started ++ [(now, obj.publicID)]) ∧
      (∀ r : Bool × List (Profile × ProfileState) × Option Published, Consistent r.2.1 → r.2.1.map Prod.fst = profiles → Inv profiles ops (publish cfg w r.2.2 ⟨sched1 r.1, s.objs, r.2.1, s.stored, s.sent,
          s.freed ++ (s.profs.filter (fun ps => Idle cfg now ps.2)).map (fun ps => (now, ps.1.name))⟩))) := by
  unfold handleTimeout
  rw [checkProfileStatus_eq cfg w now _ h.consistent]
  simp only [Outcome.bind_ok]
  unfold runNewJobs
  simp only
  have hc := checked_consistent (cfg := cfg) (w := w) (now := now) h.consistent
  have hp := map_fst_checked cfg w now s.profs
  by_cases hcron : s.sched.cron - 1 ≤ 0
  · rw [if_pos hcron]
    obtain ⟨g1, g2, g3⟩ := prepared_objs h cfg.sched now (s.sched.cron - 1)
    have hwake : ∀ ok, Scheduler.runNewJobs cfg.sched now ok s.sched =
        Scheduler.startNext now ok (Scheduler.prepared cfg.sched now { s.sched with cron := s.sched.cron - 1 }) := by
      intro ok
      unfold Scheduler.runNewJobs
      simp only
      rw [if_pos hcron]
      rfl
    have hst := Scheduler.prepared_spec cfg.sched now { s.sched with cron := s.sched.cron - 1 }
      ⟨h.sched.keys, h.sched.key, h.sched.nodup, h.sched.queued⟩
    unfold runFront
    rw [afterCrontab_eq]
    simp only
    cases hq : (Scheduler.prepared cfg.sched now { s.sched with cron := s.sched.cron - 1 }).queue with
    | nil =>
      left
      refine ⟨_, rfl, ⟨g1, ?_, hc, hp.trans h.profiles⟩, rfl, rfl, rfl, rfl, ?_, ?_⟩
      · intro k p hk
        obtain ⟨a, b⟩ := g2 k p hk
        refine ⟨?_, b⟩
        simp only [g3]
        exact a
      · simp only; exact hst.2.2.2.1
      · intro ok
        rw [hwake]
        unfold Scheduler.startNext
        rw [hq]
    | cons r q =>
      right
      obtain ⟨p, hp1, hp2⟩ := g1.queued r (by rw [hq]; simp)
      obtain ⟨h1, obj, h2, h3, h4⟩ := g2 _ _ hp1
      rw [hp2] at h2 h1
      simp only [h2]
      refine ⟨obj, fun again => Scheduler.startNext now again (Scheduler.prepared cfg.sched now { s.sched with cron := s.sched.cron - 1 }), h4, rfl,
        fun ok => (hwake ok).symm, ?_, ?_⟩
      · intro ok
        obtain ⟨s1, -⟩ := Scheduler.startNext_spec now ok _ g1.nodup
        simp only
        rw [s1, hst.2.2.2.1, hq, h3]
        rfl
      · intro x hx1 hx2
        have hstart : Scheduler.Inv (Scheduler.startNext now x.1 (Scheduler.prepared cfg.sched now { s.sched with cron := s.sched.cron - 1 })) := by
          exact Scheduler.startNext_inv g1
        have hkeep : ∀ k p', (Scheduler.startNext now x.1 (Scheduler.prepared cfg.sched now { s.sched with cron := s.sched.cron - 1 })).procs.find? k = some p' →
            (Scheduler.prepared cfg.sched now { s.sched with cron := s.sched.cron - 1 }).procs.find? k = some p' := by
          intro k p' hk
          unfold Scheduler.startNext at hk
          rw [hq] at hk
          simp only at hk
          split at hk
          · exact hk
          · unfold Scheduler.removeProcess at hk
            simp only [AMap.find?_erase] at hk
            split at hk
            · cases hk
            · exact hk
        have hnu : (Scheduler.startNext now x.1 (Scheduler.prepared cfg.sched now { s.sched with cron := s.sched.cron - 1 })).nextUid = s.sched.nextUid := by
          unfold Scheduler.startNext
          rw [hq]
          simp only
          split <;> exact g3
        have hinv : Inv profiles ops ⟨Scheduler.startNext now x.1 (Scheduler.prepared cfg.sched now { s.sched with cron := s.sched.cron - 1 }), s.objs, x.2.1, s.stored, s.sent,
          s.freed ++ (s.profs.filter (fun ps => Idle cfg now ps.2)).map (fun ps => (now, ps.1.name))⟩ := by
          refine ⟨hstart, ?_, hx1, hx2⟩
          intro k p' hk
          obtain ⟨a, b⟩ := g2 k p' (hkeep k p' hk)
          refine ⟨?_, b⟩
          simp only [hnu]
          exact a
        unfold publish
        cases x.2.2 with
        | none => exact hinv
        | some y => exact ⟨hinv.sched, hinv.objs, hinv.consistent, hinv.profiles⟩
  · rw [if_neg hcron]
    left
    refine ⟨_, rfl, ⟨⟨h.sched.keys, h.sched.key, h.sched.nodup, h.sched.queued⟩, h.objs, hc, hp.trans h.profiles⟩, rfl, rfl, rfl, rfl, rfl, ?_⟩
    intro ok
    unfold Scheduler.runNewJobs
    simp only
    rw [if_neg hcron]

end Verif.Daemon
