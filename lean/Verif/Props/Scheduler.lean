import Verif.Proofs.Scheduler
import Mathlib.Data.List.TakeWhile
import Mathlib.Tactic.IntervalCases
import Verif.Spec.Scheduler

/-!
# C51, C52: the real-time scheduler

Quantified over every sequence of timer ticks and object arrivals (`Op`), every clock reading and
every outcome of the started jobs.
-/

set_option linter.unusedSectionVars false

namespace Verif.Scheduler

theorem step_eq (cfg : Config) (s : State) (op : Op) :
    ∃ ok, step cfg s op = runNewJobs cfg op.now ok (beforeJobs cfg s op) := by
  cases op with
  | tick now ok => exact ⟨ok, rfl⟩
  | add t t' id ok => exact ⟨ok, rfl⟩

theorem beforeJobs_started (cfg : Config) (s : State) (op : Op) :
    (beforeJobs cfg s op).started = s.started ∧ (beforeJobs cfg s op).queue = s.queue ∧
    (beforeJobs cfg s op).cron = s.cron := by
  cases op with
  | tick => exact ⟨rfl, rfl, rfl⟩
  | add t t' id ok =>
    unfold beforeJobs schedule
    simp only
    split <;> exact ⟨rfl, rfl, rfl⟩

theorem beforeJobs_inv {cfg : Config} {s : State} (h : Inv s) (op : Op) : Inv (beforeJobs cfg s op) := by
  cases op with
  | tick => exact h
  | add => exact schedule_inv h

/-- started jobs and queue after `startNext` -/
theorem startNext_spec (now : Int) (ok : Bool) (s : State) (hnd : s.queue.Nodup) :
    (startNext now ok s).started = s.started ++ (s.queue.head?.toList.map fun r => (now, r.id)) ∧
    (startNext now ok s).queue = s.queue.tail ∧
    (∀ k, (∀ r ∈ s.queue.head?, ok = false → r.id ≠ k) →
      (startNext now ok s).procs.find? k = s.procs.find? k) ∧
    (startNext now ok s).cron = s.cron := by
  unfold startNext
  cases hq : s.queue with
  | nil => simp [hq]
  | cons r q =>
    rw [hq, List.nodup_cons] at hnd
    cases ok with
    | true => simp
    | false =>
      simp only [Bool.false_eq_true, if_false, removeProcess, List.head?_cons, Option.toList_some,
        List.map_cons, List.map_nil, List.tail_cons, Option.mem_def, Option.some.injEq,
        forall_const, true_and, and_true]
      refine ⟨List.erase_of_not_mem hnd.1, ?_⟩
      intro k hk
      exact AMap.find?_erase_ne _ (fun h => hk r rfl h.symm)

/-- what one operation does, for a state satisfying the invariant -/
theorem runNewJobs_cases (cfg : Config) (now : Int) (ok : Bool) (s : State) (h : Inv s) :
    (1 < s.cron ∧ runNewJobs cfg now ok s = { s with cron := s.cron - 1 }) ∨
    (s.cron ≤ 1 ∧ ∃ s' : State, Inv s' ∧ runNewJobs cfg now ok s = startNext now ok s' ∧
      (∀ k, s'.procs.find? k = (s.procs.find? k).bind (afterCron now)) ∧
      (∀ r, r ∈ s'.queue ↔ ∃ p, s.procs.find? r.id = some p ∧ p.ref = r ∧
        p.runTimes ≠ [] ∧ (r ∈ s.queue ∨ due now p = true)) ∧
      s'.started = s.started ∧ s'.cron = cfg.wakeupInterval) := by
  have h' : Inv { s with cron := s.cron - 1 } := ⟨h.keys, h.key, h.nodup, h.queued⟩
  by_cases hc : s.cron ≤ 1
  · right
    obtain ⟨g1, g2, g3, g4, g5, _⟩ := prepared_spec cfg now _ h'
    refine ⟨hc, prepared cfg now { s with cron := s.cron - 1 }, g1, ?_, g2, g3, g4, g5⟩
    unfold runNewJobs
    simp only
    rw [if_pos (by omega), wakeUp_eq]
  · left
    refine ⟨by omega, ?_⟩
    unfold runNewJobs
    simp only
    rw [if_neg (by omega)]

/-! ## C52 -/

/-- **C52a.** One operation (timer tick or arrival) starts at most one job. -/
theorem scheduler_one_job_per_wakeup (cfg : Config) (pre : List Op) (op : Op) :
    (run cfg (pre ++ [op])).started = (run cfg pre).started ∨
    ∃ x, (run cfg (pre ++ [op])).started = (run cfg pre).started ++ [(op.now, x)] := by
  rw [run_snoc]
  obtain ⟨ok, hs⟩ := step_eq cfg (run cfg pre) op
  have hb := beforeJobs_started cfg (run cfg pre) op
  have hinv := beforeJobs_inv (cfg := cfg) (run_inv cfg pre) op
  rw [hs, ← hb.1]
  rcases runNewJobs_cases cfg op.now ok _ hinv with ⟨_, h⟩ | ⟨_, s', hi, h, _, _, hst, _⟩
  · left; rw [h]
  · obtain ⟨h1, _⟩ := startNext_spec op.now ok s' hi.nodup
    rw [h, h1, hst]
    cases hq : s'.queue.head? with
    | none => left; simp
    | some r => right; exact ⟨r.id, by simp⟩

/-- **C52b.** The queue never holds a job twice, and everything in it is a known process. -/
theorem scheduler_queue_nodup (cfg : Config) (ops : List Op) :
    (run cfg ops).queue.Nodup ∧ ((run cfg ops).queue.map (·.id)).Nodup ∧
    ∀ r ∈ (run cfg ops).queue, ((run cfg ops).procs.find? r.id).isSome := by
  have h := run_inv cfg ops
  refine ⟨h.nodup, ?_, ?_⟩
  · rw [List.nodup_map_iff_inj_on h.nodup]
    intro r hr r' hr' hid
    obtain ⟨p, hf, hp⟩ := h.queued r hr
    obtain ⟨p', hf', hp'⟩ := h.queued r' hr'
    rw [hid, hf'] at hf
    cases hf
    rw [← hp, ← hp']
  · intro r hr
    obtain ⟨p, hf, _⟩ := h.queued r hr
    rw [hf]; rfl

/-- an announcement of `x` in the history whose delay has elapsed at time `now` -/
def Elapsed (cfg : Config) (ops : List Op) (x : String) (now : Int) : Prop :=
  ∃ t t' ok, Op.add t t' x ok ∈ ops ∧ ∃ d ∈ cfg.delayTimes, t + d ≤ now

theorem Elapsed.mono {cfg : Config} {ops more : List Op} {x : String} {now now' : Int}
    (h : Elapsed cfg ops x now) (hle : now ≤ now') : Elapsed cfg (ops ++ more) x now' := by
  obtain ⟨t, t', ok, hm, d, hd, hle'⟩ := h
  exact ⟨t, t', ok, by simp [hm], d, hd, by omega⟩

theorem due_head {now : Int} {p : Proc} : due now p = true ↔ ∃ t ∈ p.runTimes.head?, t ≤ now := by
  unfold due; cases p.runTimes <;> simp

/-- safety invariant -/
structure Safe (cfg : Config) (ops : List Op) (s : State) : Prop where
  times : ∀ k p, s.procs.find? k = some p → ∀ τ ∈ p.runTimes,
    ∃ t t' ok, Op.add t t' k ok ∈ ops ∧ ∃ d ∈ cfg.delayTimes, τ = t + d
  queue : ∀ r ∈ s.queue, ∃ last, last ∈ (ops.map Op.now) ∧ Elapsed cfg ops r.id last
  started : ∀ e ∈ s.started, Elapsed cfg ops e.2 e.1

theorem Safe.run (cfg : Config) (ops : List Op) (hm : ClockMonotone ops) :
    Safe cfg ops (run cfg ops) := by
  induction ops using List.reverseRecOn with
  | nil => exact ⟨by simp [Scheduler.run, init], by simp [Scheduler.run, init],
      by simp [Scheduler.run, init]⟩
  | append_singleton ops op ih =>
    have hmo : ClockMonotone ops := by
      unfold ClockMonotone at hm ⊢
      rw [List.flatMap_append, List.pairwise_append] at hm
      exact hm.1
    have ih := ih hmo
    have hlast : ∀ last ∈ ops.map Op.now, last ≤ op.now := by
      intro last hl
      unfold ClockMonotone at hm
      rw [List.flatMap_append, List.pairwise_append] at hm
      rw [List.mem_map] at hl
      obtain ⟨o, ho, rfl⟩ := hl
      apply hm.2.2
      · rw [List.mem_flatMap]; refine ⟨o, ho, ?_⟩; cases o <;> simp [Op.now, Op.clock]
      · simp; cases op <;> simp [Op.now, Op.clock]
    rw [run_snoc]
    obtain ⟨ok, hs⟩ := step_eq cfg (Scheduler.run cfg ops) op
    have hinv := beforeJobs_inv (cfg := cfg) (run_inv cfg ops) op
    obtain ⟨b1, b2, b3⟩ := beforeJobs_started cfg (Scheduler.run cfg ops) op
    -- the state before the periodic part
    have hbt : ∀ k p, (beforeJobs cfg (Scheduler.run cfg ops) op).procs.find? k = some p →
        ∀ τ ∈ p.runTimes, ∃ t t' ok, Op.add t t' k ok ∈ ops ++ [op] ∧
          ∃ d ∈ cfg.delayTimes, τ = t + d := by
      intro k p hf τ hτ
      have old : ∀ p, (Scheduler.run cfg ops).procs.find? k = some p → τ ∈ p.runTimes →
          ∃ t t' ok, Op.add t t' k ok ∈ ops ++ [op] ∧ ∃ d ∈ cfg.delayTimes, τ = t + d := by
        intro p hf hτ
        obtain ⟨t, t', ok, hmem, hd⟩ := ih.times k p hf τ hτ
        exact ⟨t, t', ok, by simp [hmem], hd⟩
      cases op with
      | tick => exact old p hf hτ
      | add t t' id ok' =>
        have new : k = id → p.runTimes = cfg.delayTimes.map (fun d => t + d) →
            ∃ t'' t' ok, Op.add t'' t' k ok ∈ ops ++ [Op.add t t' id ok'] ∧
              ∃ d ∈ cfg.delayTimes, τ = t'' + d := by
          rintro rfl hrt
          rw [hrt, List.mem_map] at hτ
          obtain ⟨d, hd, rfl⟩ := hτ
          exact ⟨t, t', ok', by simp, d, hd, rfl⟩
        have hgoal : (k = id ∧ p.runTimes = cfg.delayTimes.map (fun d => t + d)) ∨
            (Scheduler.run cfg ops).procs.find? k = some p := by
          unfold beforeJobs schedule at hf
          simp only at hf
          split at hf
          · simp only [AMap.find?_set] at hf
            split at hf
            · left; refine ⟨by assumption, ?_⟩; simp at hf; rw [← hf]
            · exact .inr hf
          · simp only [AMap.find?_set] at hf
            split at hf
            · left; refine ⟨by assumption, ?_⟩; simp at hf; rw [← hf]
            · exact .inr hf
        rcases hgoal with ⟨h1, h2⟩ | h
        · rw [h2, List.mem_map] at hτ
          obtain ⟨d, hd, rfl⟩ := hτ
          exact ⟨t, t', ok', by simp [h1], d, hd, rfl⟩
        · exact old p h hτ
    rw [hs]
    rcases runNewJobs_cases cfg op.now ok _ hinv with ⟨_, h⟩ | ⟨_, s', hi, h, hp, hq, hst, _⟩
    · rw [h]
      refine ⟨hbt, ?_, ?_⟩
      · intro r hr
        simp only [b2] at hr
        obtain ⟨last, hl, he⟩ := ih.queue r hr
        exact ⟨last, by simp at hl ⊢; exact .inl hl, he.mono le_rfl⟩
      · intro e he
        simp only [b1] at he
        exact (ih.started e he).mono le_rfl
    · -- everything queued at this wake-up has an elapsed announcement
      have hqe : ∀ r ∈ s'.queue, Elapsed cfg (ops ++ [op]) r.id op.now := by
        intro r hr
        obtain ⟨p, hf, hpr, hn, hor⟩ := (hq r).1 hr
        rcases hor with hold | hdue
        · rw [b2] at hold
          obtain ⟨last, hl, he⟩ := ih.queue r hold
          exact he.mono (hlast last hl)
        · rw [due_head] at hdue
          obtain ⟨τ, hτ, hle⟩ := hdue
          have hmem : τ ∈ p.runTimes := List.mem_of_mem_head? hτ
          obtain ⟨t, t', ok', hm', d, hd, rfl⟩ := hbt r.id p hf τ hmem
          exact ⟨t, t', ok', hm', d, hd, hle⟩
      obtain ⟨s1, s2, s3, _⟩ := startNext_spec op.now ok s' hi.nodup
      rw [h]
      refine ⟨?_, ?_, ?_⟩
      · intro k p hf τ hτ
        have hf' : s'.procs.find? k = some p := by
          unfold startNext at hf
          cases hqq : s'.queue with
          | nil => simpa [hqq] using hf
          | cons r q =>
            rw [hqq] at hf
            simp only at hf
            split at hf
            · exact hf
            · simp only [removeProcess, AMap.find?_erase] at hf
              split at hf
              · cases hf
              · exact hf
        rw [hp] at hf'
        cases hb : (beforeJobs cfg (Scheduler.run cfg ops) op).procs.find? k with
        | none => rw [hb] at hf'; simp at hf'
        | some p0 =>
          rw [hb] at hf'
          simp only [Option.bind_some, afterCron] at hf'
          split at hf'
          · cases hf'
          · apply hbt k p0 hb τ
            split at hf'
            · simp at hf'; subst hf'
              exact (List.dropWhile_sublist _).subset hτ
            · simp at hf'; subst hf'; exact hτ
      · intro r hr
        rw [s2] at hr
        exact ⟨op.now, by simp, hqe r (List.mem_of_mem_tail hr)⟩
      · intro e he
        rw [s1, hst, b1, List.mem_append] at he
        rcases he with he | he
        · exact (ih.started e he).mono le_rfl
        · rw [List.mem_map] at he
          obtain ⟨r, hr, rfl⟩ := he
          simp only [Option.mem_toList] at hr
          exact hqe r (List.mem_of_mem_head? hr)

/-- **C52c.** A job is started only if its object was announced and a configured delay has elapsed
since that announcement. -/
theorem scheduler_starts_only_elapsed (cfg : Config) (ops : List Op) (hm : ClockMonotone ops)
    (now : Int) (x : String) (h : (now, x) ∈ (run cfg ops).started) :
    ∃ t t' ok, Op.add t t' x ok ∈ ops ∧ ∃ d ∈ cfg.delayTimes, t + d ≤ now :=
  (Safe.run cfg ops hm).started _ h

/-! ## C51 -/

/-- an unknown object that is not announced again is never started -/
theorem never_started (cfg : Config) (ops more : List Op) (x : String)
    (hp : (run cfg ops).procs.find? x = none) (hno : ∀ op ∈ more, ¬ op.adds x)
    (hs : ∀ e ∈ (run cfg ops).started, e.2 ≠ x) :
    (run cfg (ops ++ more)).procs.find? x = none ∧
    ∀ e ∈ (run cfg (ops ++ more)).started, e.2 ≠ x := by
  induction more using List.reverseRecOn with
  | nil => rw [List.append_nil]; exact ⟨hp, hs⟩
  | append_singleton more op ih =>
    obtain ⟨ih1, ih2⟩ := ih (fun op hop => hno op (by simp [hop]))
    rw [← List.append_assoc, run_snoc]
    obtain ⟨ok, hst⟩ := step_eq cfg (run cfg (ops ++ more)) op
    have hinv := beforeJobs_inv (cfg := cfg) (run_inv cfg (ops ++ more)) op
    obtain ⟨b1, b2, b3⟩ := beforeJobs_started cfg (run cfg (ops ++ more)) op
    have hb : (beforeJobs cfg (run cfg (ops ++ more)) op).procs.find? x = none := by
      have hna := hno op (by simp)
      cases op with
      | tick => exact ih1
      | add t t' id ok' =>
        have hne : x ≠ id := fun h => hna h.symm
        unfold beforeJobs schedule
        simp only
        split <;> (simp only [AMap.find?_set_ne _ _ hne]; exact ih1)
    rw [hst]
    rcases runNewJobs_cases cfg op.now ok _ hinv with ⟨_, h⟩ | ⟨_, s', hi, h, hpr, hq, hst', _⟩
    · rw [h]; exact ⟨hb, by rw [← b1] at ih2; exact ih2⟩
    · have hs' : s'.procs.find? x = none := by rw [hpr, hb]; rfl
      have hqx : ∀ r ∈ s'.queue, r.id ≠ x := by
        intro r hr he
        obtain ⟨p, hf, _⟩ := hi.queued r hr
        rw [he, hs'] at hf; cases hf
      obtain ⟨s1, s2, s3, _⟩ := startNext_spec op.now ok s' hi.nodup
      rw [h]
      constructor
      · rw [s3 x (fun r hr _ => hqx r (List.mem_of_mem_head? hr))]; exact hs'
      · intro e he
        rw [s1, hst', b1, List.mem_append] at he
        rcases he with he | he
        · exact ih2 e he
        · rw [List.mem_map] at he
          obtain ⟨r, hr, rfl⟩ := he
          simp only [Option.mem_toList] at hr
          exact hqx r (List.mem_of_mem_head? hr)

/-- The example: the default configuration (delay 10 s, wake-up every second), two objects arriving
in the same second, then one timer tick per second. -/
def lostCfg : Config := ⟨[10], 1⟩
def lostOps : List Op :=
  [.add 0 0 "a" true, .add 0 0 "b" true] ++
  (List.range 11).map (fun i => .tick (i + 1) true)

/-- **C51 is false.** With two objects due at the same wake-up the second one is dropped at the next
wake-up and never processed, whatever happens afterwards. -/
theorem scheduler_loses_job (more : List Op) (hno : ∀ op ∈ more, ¬ op.adds "b") :
    ∀ e ∈ (run lostCfg (lostOps ++ more)).started, e.2 ≠ "b" := by
  refine (never_started lostCfg lostOps more "b" ?_ hno ?_).2
  · decide +kernel
  · decide +kernel

/-- the run above is a genuine one: the clock is monotone and "a" was processed -/
example : ClockMonotone lostOps ∧ (run lostCfg lostOps).started = [(10, "a")] := by
  constructor
  · unfold ClockMonotone; decide +kernel
  · decide +kernel

theorem idle_run (cfg : Config) (ops : List Op) (h1 : AtMostOneDue cfg ops) :
    (run cfg ops).queue = [] := by
  induction ops using List.reverseRecOn with
  | nil => rfl
  | append_singleton ops op ih =>
    have ih := ih (fun pre o hpre => h1 pre o (hpre.trans (List.prefix_append _ _)))
    rw [run_snoc]
    obtain ⟨ok, hst⟩ := step_eq cfg (run cfg ops) op
    have hinv := beforeJobs_inv (cfg := cfg) (run_inv cfg ops) op
    obtain ⟨b1, b2, b3⟩ := beforeJobs_started cfg (run cfg ops) op
    rw [hst]
    rcases runNewJobs_cases cfg op.now ok _ hinv with ⟨_, h⟩ | ⟨hc, s', hi, h, hpr, hq, hst', _⟩
    · rw [h]; simp only [b2, ih]
    · obtain ⟨s1, s2, s3, _⟩ := startNext_spec op.now ok s' hi.nodup
      rw [h, s2]
      have hall : ∀ r ∈ s'.queue, ∀ r' ∈ s'.queue, r = r' := by
        intro r hr r' hr'
        obtain ⟨p, hf, hp, hn, hor⟩ := (hq r).1 hr
        obtain ⟨p', hf', hp', hn', hor'⟩ := (hq r').1 hr'
        rw [b2, ih] at hor hor'
        simp only [List.not_mem_nil, false_or] at hor hor'
        have := h1 ops op (List.prefix_refl _) hc r.id r'.id p p' hf hf' (due_head.1 hor)
          (due_head.1 hor')
        rw [this, hf'] at hf
        cases hf
        rw [← hp, ← hp']
      match hqq : s'.queue with
      | [] => rfl
      | [r] => rfl
      | r :: r' :: q =>
        have hnd := hi.nodup
        rw [hqq] at hall hnd
        have := hall r (by simp) r' (by simp)
        subst this
        simp at hnd

/-- `x` is waiting for time `τ` -/
def Pending (s : State) (x : String) (τ : Int) : Prop :=
  ∃ p, s.procs.find? x = some p ∧ p.runTimes = [τ]

theorem pending_step (cfg : Config) (pre : List Op) (op : Op) (x : String) (τ : Int)
    (h1 : AtMostOneDue cfg (pre ++ [op])) (hp : Pending (run cfg pre) x τ) (hno : ¬ op.adds x) :
    (τ ≤ op.now ∧ (run cfg (pre ++ [op])).started = (run cfg pre).started ++ [(op.now, x)]) ∨
    (Pending (run cfg (pre ++ [op])) x τ ∧
      ((run cfg (pre ++ [op])).cron = (run cfg pre).cron - 1 ∧ 1 < (run cfg pre).cron ∨
        op.now < τ)) := by
  rw [run_snoc]
  obtain ⟨ok, hst⟩ := step_eq cfg (run cfg pre) op
  have hinv := beforeJobs_inv (cfg := cfg) (run_inv cfg pre) op
  obtain ⟨b1, b2, b3⟩ := beforeJobs_started cfg (run cfg pre) op
  have hidle := idle_run cfg pre (fun q o hq => h1 q o (hq.trans (List.prefix_append _ _)))
  obtain ⟨p, hf, hrt⟩ := hp
  have hb : (beforeJobs cfg (run cfg pre) op).procs.find? x = some p := by
    cases op with
    | tick => exact hf
    | add t t' id ok' =>
      have hne : x ≠ id := fun h => hno h.symm
      unfold beforeJobs schedule
      simp only
      split <;> (simp only [AMap.find?_set_ne _ _ hne]; exact hf)
  rw [hst]
  rcases runNewJobs_cases cfg op.now ok _ hinv with ⟨hc, h⟩ | ⟨hc, s', hi, h, hpr, hq, hst', _⟩
  · right
    rw [h]
    exact ⟨⟨p, hb, hrt⟩, .inl ⟨by simp only [b3], by rw [b3] at hc; exact hc⟩⟩
  · obtain ⟨s1, s2, s3, _⟩ := startNext_spec op.now ok s' hi.nodup
    rw [h]
    have hid := hinv.key _ _ hb
    by_cases hdue : τ ≤ op.now
    · left
      refine ⟨hdue, ?_⟩
      rw [s1, hst', b1]
      congr 1
      have hd : due op.now p = true := by unfold due; rw [hrt]; simpa using hdue
      have hmem : p.ref ∈ s'.queue := (hq p.ref).2 ⟨p, by rw [hid]; exact hb, rfl, by rw [hrt]; simp,
        .inr hd⟩
      cases hqq : s'.queue with
      | nil => rw [hqq] at hmem; cases hmem
      | cons r q =>
        obtain ⟨p', hf', hp', hn', hor'⟩ := (hq r).1 (by rw [hqq]; simp)
        rw [b2, hidle] at hor'
        simp only [List.not_mem_nil, false_or] at hor'
        have := h1 pre op (List.prefix_refl _) hc r.id x p' p hf' hb (due_head.1 hor') (due_head.1 hd)
        simp [this]
    · right
      push Not at hdue
      refine ⟨⟨p, ?_, hrt⟩, .inr hdue⟩
      have hd : due op.now p = false := by unfold due; rw [hrt]; simpa using hdue
      have hs' : s'.procs.find? x = some p := by
        rw [hpr, hb]; simp [afterCron, hrt, hd]
      rw [s3 x ?_, hs']
      intro r hr _ he
      obtain ⟨p', hf', hp', hn', hor'⟩ := (hq r).1 (List.mem_of_mem_head? hr)
      rw [b2, hidle] at hor'
      simp only [List.not_mem_nil, false_or] at hor'
      rw [he, hb] at hf'
      cases hf'
      rw [hd] at hor'; cases hor'

theorem cron_le (cfg : Config) (ops : List Op) : (run cfg ops).cron ≤ max cfg.wakeupInterval 1 := by
  induction ops using List.reverseRecOn with
  | nil => simp [run, init]
  | append_singleton ops op ih =>
    rw [run_snoc]
    obtain ⟨ok, hst⟩ := step_eq cfg (run cfg ops) op
    have hinv := beforeJobs_inv (cfg := cfg) (run_inv cfg ops) op
    obtain ⟨b1, b2, b3⟩ := beforeJobs_started cfg (run cfg ops) op
    rw [hst]
    rcases runNewJobs_cases cfg op.now ok _ hinv with ⟨hc, h⟩ | ⟨hc, s', hi, h, hpr, hq, hst', hcr⟩
    · rw [h]; simp only [b3]; omega
    · rw [h, (startNext_spec op.now ok s' hi.nodup).2.2.2, hcr]; omega

theorem started_prefix (cfg : Config) (ops more : List Op) :
    (run cfg ops).started <+: (run cfg (ops ++ more)).started := by
  induction more using List.reverseRecOn with
  | nil => simp
  | append_singleton more op ih =>
    rw [← List.append_assoc]
    rcases scheduler_one_job_per_wakeup cfg (ops ++ more) op with h | ⟨x, h⟩
    · rw [h]; exact ih
    · rw [h]; exact ih.trans (List.prefix_append _ _)

theorem mem_drop_of_le {α : Type} {l : List α} {a : α} {m n : Nat} (h : a ∈ l.drop n) (hmn : m ≤ n) :
    a ∈ l.drop m := (List.drop_sublist_drop_left l hmn).subset h

theorem started_now {cfg : Config} {pre more : List Op} {op : Op} {x : String}
    (hst : (run cfg (pre ++ [op])).started = (run cfg pre).started ++ [(op.now, x)]) :
    (op.now, x) ∈ (run cfg (pre ++ op :: more)).started.drop (run cfg pre).started.length := by
  rw [show pre ++ op :: more = (pre ++ [op]) ++ more from by simp]
  obtain ⟨rest, hr⟩ := started_prefix cfg (pre ++ [op]) more
  rw [← hr, hst]
  simp

theorem started_len (cfg : Config) (pre : List Op) (op : Op) :
    (run cfg pre).started.length ≤ (run cfg (pre ++ [op])).started.length :=
  (started_prefix cfg pre [op]).length_le

theorem atMostOneDue_prefix {cfg : Config} {pre more : List Op} (h : AtMostOneDue cfg (pre ++ more)) :
    AtMostOneDue cfg pre := fun q o hq => h q o (hq.trans (List.prefix_append _ _))

theorem pending_wait (cfg : Config) (x : String) (τ : Int) (more pre : List Op)
    (h1 : AtMostOneDue cfg (pre ++ more)) (hp : Pending (run cfg pre) x τ)
    (hno : ∀ op ∈ more, ¬ op.adds x) :
    (∃ now, τ ≤ now ∧ (now, x) ∈ (run cfg (pre ++ more)).started.drop (run cfg pre).started.length)
    ∨ Pending (run cfg (pre ++ more)) x τ := by
  induction more generalizing pre with
  | nil => right; rw [List.append_nil]; exact hp
  | cons op more ih =>
    have heq : pre ++ op :: more = (pre ++ [op]) ++ more := by simp
    have h1' : AtMostOneDue cfg (pre ++ [op]) := by rw [heq] at h1; exact atMostOneDue_prefix h1
    rcases pending_step cfg pre op x τ h1' hp (hno op (by simp)) with ⟨hle, hst⟩ | ⟨hp', _⟩
    · exact .inl ⟨op.now, hle, started_now hst⟩
    · rw [heq] at h1 ⊢
      rcases ih (pre ++ [op]) h1 hp' (fun o ho => hno o (by simp [ho])) with ⟨now, hle, h⟩ | h
      · exact .inl ⟨now, hle, mem_drop_of_le h (started_len _ _ _)⟩
      · exact .inr h

theorem pending_due (cfg : Config) (x : String) (τ : Int) (more pre : List Op)
    (h1 : AtMostOneDue cfg (pre ++ more)) (hp : Pending (run cfg pre) x τ)
    (hno : ∀ op ∈ more, ¬ op.adds x) (ht : ∀ op ∈ more, τ ≤ op.now)
    (hlen : 1 ≤ more.length) (hlen' : (run cfg pre).cron ≤ more.length) :
    ∃ now, τ ≤ now ∧ (now, x) ∈ (run cfg (pre ++ more)).started.drop (run cfg pre).started.length := by
  induction more generalizing pre with
  | nil => simp at hlen
  | cons op more ih =>
    have heq : pre ++ op :: more = (pre ++ [op]) ++ more := by simp
    have h1' : AtMostOneDue cfg (pre ++ [op]) := by rw [heq] at h1; exact atMostOneDue_prefix h1
    rcases pending_step cfg pre op x τ h1' hp (hno op (by simp)) with ⟨hle, hst⟩ | ⟨hp', hor⟩
    · exact ⟨op.now, hle, started_now hst⟩
    · have hor : (run cfg (pre ++ [op])).cron = (run cfg pre).cron - 1 ∧ 1 < (run cfg pre).cron := by
        rcases hor with h | h
        · exact h
        · exact absurd (ht op (by simp)) (by omega)
      simp only [List.length_cons] at hlen'
      rw [heq] at h1 ⊢
      obtain ⟨now, hle, h⟩ := ih (pre ++ [op]) h1 hp' (fun o ho => hno o (by simp [ho]))
        (fun o ho => ht o (by simp [ho])) (by omega) (by omega)
      exact ⟨now, hle, mem_drop_of_le h (started_len _ _ _)⟩

/-- **C51, what holds.** With one configured delay `d` (the code reads a single delay), if at every
wake-up at most one object is due, an object announced at time `t` and not announced again is
processed at some time ≥ `t + d`, at the latest when the timer has fired `wakeupInterval` times after
`t + d`.  What is missing: several objects due at the same wake-up, where the statement is false
(`scheduler_loses_job`). -/
theorem scheduler_processes_due_partial (cfg : Config) (d : Int) (hd : cfg.delayTimes = [d])
    (before : List Op) (t t' : Int) (x : String) (ok : Bool) (waiting after : List Op)
    (hone : AtMostOneDue cfg (before ++ .add t t' x ok :: (waiting ++ after)))
    (hno : ∀ op ∈ waiting ++ after, ¬ op.adds x)
    (htime : ∀ op ∈ after, t + d ≤ op.now)
    (hlen : 1 ≤ after.length) (hlen' : cfg.wakeupInterval ≤ after.length) :
    ∃ now, t + d ≤ now ∧ (now, x) ∈
      (run cfg (before ++ .add t t' x ok :: (waiting ++ after))).started.drop
        (run cfg before).started.length := by
  have heq : before ++ .add t t' x ok :: (waiting ++ after) =
      (before ++ [.add t t' x ok]) ++ waiting ++ after := by simp
  -- the arrival itself
  have hinv := beforeJobs_inv (cfg := cfg) (run_inv cfg before) (.add t t' x ok)
  obtain ⟨b1, b2, b3⟩ := beforeJobs_started cfg (run cfg before) (.add t t' x ok)
  have h1 : AtMostOneDue cfg (before ++ [.add t t' x ok]) := by
    rw [heq, List.append_assoc] at hone; exact atMostOneDue_prefix hone
  have hidle := idle_run cfg before (atMostOneDue_prefix h1)
  obtain ⟨p, hb, hrt⟩ : ∃ p, (beforeJobs cfg (run cfg before) (.add t t' x ok)).procs.find? x = some p
      ∧ p.runTimes = [t + d] := by
    unfold beforeJobs schedule
    simp only
    split
    · exact ⟨_, AMap.find?_set_self _ _ _, by simp [hd]⟩
    · exact ⟨_, AMap.find?_set_self _ _ _, by simp [hd]⟩
  have hfirst : (t + d ≤ t' ∧ (run cfg (before ++ [.add t t' x ok])).started =
      (run cfg before).started ++ [(t', x)]) ∨ Pending (run cfg (before ++ [.add t t' x ok])) x (t + d) := by
    rw [run_snoc]
    show _ ∧ (runNewJobs cfg t' ok (beforeJobs cfg (run cfg before) (.add t t' x ok))).started = _ ∨
      Pending (runNewJobs cfg t' ok (beforeJobs cfg (run cfg before) (.add t t' x ok))) _ _
    have hid := hinv.key _ _ hb
    rcases runNewJobs_cases cfg t' ok _ hinv with ⟨hc, h⟩ | ⟨hc, s', hi, h, hpr, hq, hst', _⟩
    · right; rw [h]; exact ⟨p, hb, hrt⟩
    · obtain ⟨s1, s2, s3, _⟩ := startNext_spec t' ok s' hi.nodup
      rw [h]
      by_cases hdue : t + d ≤ t'
      · left
        refine ⟨hdue, ?_⟩
        rw [s1, hst', b1]
        congr 1
        have hdd : due t' p = true := by unfold due; rw [hrt]; simpa using hdue
        have hmem : p.ref ∈ s'.queue := (hq p.ref).2 ⟨p, by rw [hid]; exact hb, rfl,
          by rw [hrt]; simp, .inr hdd⟩
        cases hqq : s'.queue with
        | nil => rw [hqq] at hmem; cases hmem
        | cons r q =>
          obtain ⟨p', hf', hp', hn', hor'⟩ := (hq r).1 (by rw [hqq]; simp)
          rw [b2, hidle] at hor'
          simp only [List.not_mem_nil, false_or] at hor'
          have := h1 before _ (List.prefix_refl _) hc r.id x p' p hf' hb (due_head.1 hor')
            (due_head.1 hdd)
          simp [this]
      · right
        push Not at hdue
        refine ⟨p, ?_, hrt⟩
        have hdd : due t' p = false := by unfold due; rw [hrt]; simpa using hdue
        have hs' : s'.procs.find? x = some p := by
          rw [hpr, hb]; simp [afterCron, hrt, hdd]
        rw [s3 x ?_, hs']
        intro r hr _ he
        obtain ⟨p', hf', hp', hn', hor'⟩ := (hq r).1 (List.mem_of_mem_head? hr)
        rw [b2, hidle] at hor'
        simp only [List.not_mem_nil, false_or] at hor'
        rw [he, hb] at hf'
        cases hf'
        rw [hdd] at hor'; cases hor'
  rcases hfirst with ⟨hle, hst⟩ | hpend
  · exact ⟨t', hle, started_now hst⟩
  · rw [heq] at hone ⊢
    rcases pending_wait cfg x (t + d) waiting _ (atMostOneDue_prefix hone) hpend
        (fun o ho => hno o (by simp [ho])) with ⟨now, hle, h⟩ | hpend2
    · refine ⟨now, hle, ?_⟩
      obtain ⟨rest, hr⟩ := started_prefix cfg (before ++ [.add t t' x ok] ++ waiting) after
      rw [← hr]
      have := mem_drop_of_le h (started_len cfg before (.add t t' x ok))
      rw [List.drop_append_of_le_length]
      · exact List.mem_append_left _ this
      · exact le_trans (started_len cfg before (.add t t' x ok))
          (started_prefix cfg _ waiting).length_le
    · obtain ⟨now, hle, h⟩ := pending_due cfg x (t + d) after _ hone hpend2
        (fun o ho => hno o (by simp [ho])) htime hlen (by
          have := cron_le cfg (before ++ [.add t t' x ok] ++ waiting)
          omega)
      exact ⟨now, hle, mem_drop_of_le h (le_trans (started_len cfg before (.add t t' x ok))
          (started_prefix cfg _ waiting).length_le)⟩

/-- executable check of `AtMostOneDue`, used in the example below -/
def checkDue (cfg : Config) (ops : List Op) : Bool :=
  (List.range ops.length).all fun n => match ops[n]? with
    | none => true
    | some op =>
      let s := beforeJobs cfg (run cfg (ops.take n)) op
      decide (1 < s.cron) || decide ((s.procs.filter fun kv => due op.now kv.2).length ≤ 1)

theorem checkDue_sound {cfg : Config} {ops : List Op} (h : checkDue cfg ops = true) :
    AtMostOneDue cfg ops := by
  intro pre op hpre s hc k k' p p' hk hk' hd hd'
  obtain ⟨rest, rfl⟩ := hpre
  have hn := List.all_eq_true.1 h pre.length (by simp)
  have e1 : (pre ++ [op] ++ rest)[pre.length]? = some op := by simp
  have e2 : (pre ++ [op] ++ rest).take pre.length = pre := by simp
  simp only [e1, e2, Bool.or_eq_true, decide_eq_true_eq] at hn
  rcases hn with hn | hn
  · exact absurd hc (by simpa [s] using hn)
  · have m1 : (k, p) ∈ (s.procs.filter fun kv => due op.now kv.2) :=
      List.mem_filter.2 ⟨AMap.mem_of_find? hk, due_head.2 hd⟩
    have m2 : (k', p') ∈ (s.procs.filter fun kv => due op.now kv.2) :=
      List.mem_filter.2 ⟨AMap.mem_of_find? hk', due_head.2 hd'⟩
    match hl : (s.procs.filter fun kv => due op.now kv.2) with
    | [] => rw [hl] at m1; cases m1
    | [x] => rw [hl] at m1 m2; simp at m1 m2; rw [← m2] at m1; exact congrArg Prod.fst m1
    | x :: y :: l => rw [hl] at hn; simp at hn

/-- a history meeting the hypotheses: two objects arriving five seconds apart -/
example : AtMostOneDue ⟨[10], 1⟩ ([] ++ .add 0 0 "a" true :: ([.add 5 5 "b" true] ++ [.tick 10 true])) ∧
    (∀ op ∈ [Op.tick 10 true], (0 : Int) + 10 ≤ op.now) ∧
    (run ⟨[10], 1⟩ ([] ++ .add 0 0 "a" true :: ([.add 5 5 "b" true] ++ [.tick 10 true]))).started
      = [(10, "a")] :=
  ⟨checkDue_sound (by decide +kernel), by simp [Op.now], by decide +kernel⟩

/-- what is still to come, when every operation looks for due objects -/
structure Waiting (d : Int) (ops : List Op) (s : State) : Prop where
  cron : s.cron ≤ 1
  times : ∀ k p, s.procs.find? k = some p → p.runTimes = [] ∨ ∃ (i : Nat) (t t' : Int) (ok : Bool),
    p.runTimes = [t + d] ∧ ops[i]? = some (.add t t' k ok) ∧ ∀ m op, i ≤ m → ops[m]? = some op → op.now < t + d

/-- the same just before the periodic part of an operation -/
theorem Waiting.before {cfg : Config} {d : Int} (hd : cfg.delayTimes = [d]) {ops : List Op} {s : State} (h : Waiting d ops s)
    (op : Op) (k : String) (p : Proc) (hk : (beforeJobs cfg s op).procs.find? k = some p) :
    p.runTimes = [] ∨ ∃ (i : Nat) (t t' : Int) (ok : Bool), p.runTimes = [t + d] ∧
      (ops ++ [op])[i]? = some (.add t t' k ok) ∧ ∀ m o, i ≤ m → m < ops.length → ops[m]? = some o → o.now < t + d := by
  have hold : s.procs.find? k = some p → p.runTimes = [] ∨ ∃ (i : Nat) (t t' : Int) (ok : Bool), p.runTimes = [t + d] ∧
      (ops ++ [op])[i]? = some (.add t t' k ok) ∧ ∀ m o, i ≤ m → m < ops.length → ops[m]? = some o → o.now < t + d := by
    intro hk
    rcases h.times k p hk with h | ⟨i, t, t', ok, h1, h2, h3⟩
    · exact .inl h
    · have hi : i < ops.length := (List.getElem?_eq_some_iff.1 h2).1
      exact .inr ⟨i, t, t', ok, h1, by rw [List.getElem?_append_left hi]; exact h2, fun m o hm _ ho => h3 m o hm ho⟩
  cases op with
  | tick => exact hold hk
  | add t t' id ok =>
    by_cases he : k = id
    · subst he
      have hrt : p.runTimes = [t + d] := by
        unfold beforeJobs schedule at hk
        simp only at hk
        split at hk <;>
        · rw [AMap.find?_set_self] at hk
          simp only [Option.some.injEq] at hk
          subst hk
          simp [hd]
      refine .inr ⟨ops.length, t, t', ok, hrt, by simp, fun m o hm hm' => absurd hm' (by omega)⟩
    · refine hold ?_
      unfold beforeJobs schedule at hk
      simp only at hk
      split at hk <;> simpa only [AMap.find?_set_ne _ _ he] using hk

theorem Waiting.run {cfg : Config} {d : Int} (hd : cfg.delayTimes = [d]) (hw : cfg.wakeupInterval ≤ 1) (ops : List Op) :
    Waiting d ops (run cfg ops) := by
  induction ops using List.reverseRecOn with
  | nil => exact ⟨hw, by simp [Scheduler.run, init]⟩
  | append_singleton ops op ih =>
    rw [run_snoc]
    obtain ⟨ok, hst⟩ := step_eq cfg (Scheduler.run cfg ops) op
    have hinv := beforeJobs_inv (cfg := cfg) (run_inv cfg ops) op
    obtain ⟨b1, b2, b3⟩ := beforeJobs_started cfg (Scheduler.run cfg ops) op
    rw [hst]
    rcases runNewJobs_cases cfg op.now ok _ hinv with ⟨hc, -⟩ | ⟨hc, s', hi, h, hpr, hq, hst', hcr⟩
    · rw [b3] at hc
      exact absurd hc (not_lt.2 ih.cron)
    · obtain ⟨s1, s2, s3, s4⟩ := startNext_spec op.now ok s' hi.nodup
      rw [h]
      refine ⟨by rw [s4, hcr]; exact hw, ?_⟩
      intro k p hk
      have hk' : s'.procs.find? k = some p := by
        unfold startNext at hk
        cases hqq : s'.queue with
        | nil => rw [hqq] at hk; exact hk
        | cons r q =>
          rw [hqq] at hk
          cases ok with
          | true => exact hk
          | false =>
            simp only [Bool.false_eq_true, if_false, removeProcess, AMap.find?_erase] at hk
            split at hk
            · cases hk
            · exact hk
      rw [hpr] at hk'
      cases hb : (beforeJobs cfg (Scheduler.run cfg ops) op).procs.find? k with
      | none => rw [hb] at hk'; simp at hk'
      | some p0 =>
        rw [hb] at hk'
        simp only [Option.bind_some] at hk'
        unfold afterCron at hk'
        split at hk'
        · cases hk'
        · rename_i hne
          simp only [Option.some.injEq] at hk'
          rcases ih.before hd op k p0 hb with h0 | ⟨i, t, t', ok', h1, h2, h3⟩
          · exact absurd h0 hne
          · by_cases hdue : due op.now p0 = true
            · left
              rw [if_pos hdue] at hk'
              subst hk'
              simp only
              unfold due at hdue
              rw [h1] at hdue ⊢
              simp only [decide_eq_true_eq] at hdue
              simp [List.dropWhile, hdue]
            · right
              rw [if_neg hdue] at hk'
              subst hk'
              refine ⟨i, t, t', ok', h1, h2, ?_⟩
              intro m o hm ho
              by_cases hml : m < ops.length
              · rw [List.getElem?_append_left hml] at ho
                exact h3 m o hm hml ho
              · have hml' : m = ops.length := by
                  have := (List.getElem?_eq_some_iff.1 ho).1
                  simp at this; omega
                subst hml'
                simp at ho
                subst ho
                unfold due at hdue
                rw [h1] at hdue
                simpa using hdue

theorem atMostOneDue_of_spaced {cfg : Config} {d : Int} (hd : cfg.delayTimes = [d]) (hw : cfg.wakeupInterval ≤ 1) {ops : List Op}
    (hs : Spaced d ops) : AtMostOneDue cfg ops := by
  intro pre op hpre s _ k k' p p' hk hk' ⟨τ, hτ, hle⟩ ⟨τ', hτ', hle'⟩
  by_contra hne
  obtain ⟨rest, rfl⟩ := hpre
  have key : ∀ {k k' : String} {p p' : Proc} {τ τ' : Int}, k ≠ k' → s.procs.find? k = some p → s.procs.find? k' = some p' →
      τ ∈ p.runTimes.head? → τ ≤ op.now → τ' ∈ p'.runTimes.head? → τ' ≤ op.now → τ ≤ τ' → False := by
    intro k k' p p' τ τ' hne hk hk' hτ hle hτ' hle' hord
    rcases (Waiting.run hd hw pre).before hd op k p hk with h | ⟨i, t, t', ok, h1, h2, h3⟩
    · rw [h] at hτ; simp at hτ
    rcases (Waiting.run hd hw pre).before hd op k' p' hk' with h | ⟨j, u, u', ok', g1, g2, g3⟩
    · rw [h] at hτ'; simp at hτ'
    rw [h1] at hτ; rw [g1] at hτ'
    simp only [List.head?_cons, Option.mem_def, Option.some.injEq] at hτ hτ'
    subst hτ hτ'
    have hi := (List.getElem?_eq_some_iff.1 h2).1
    have hj := (List.getElem?_eq_some_iff.1 g2).1
    obtain ⟨m, o, m1, m2, m3, m4, m5⟩ := hs i j pre.length t t' u u' k k' ok ok' op hne
      (by rw [List.getElem?_append_left hi]; exact h2) (by rw [List.getElem?_append_left hj]; exact g2) (by omega)
      (by simp at hj; omega) (by simp) hle'
    rw [List.append_assoc, List.getElem?_append_left m2] at m3
    have := h3 m o m1 m2 m3
    omega
  rcases le_total τ τ' with h | h
  · exact key hne hk hk' hτ hle hτ' hle' h
  · exact key (Ne.symm hne) hk' hk hτ' hle' hτ hle h

/-- **C51, what holds, in terms of what happens outside.** With the configured delay `d` and a timer that is looked at every
second, if announcements of different objects are spaced, an object announced at time `t` and not announced again is processed
at a time ≥ `t + d`, as soon as the timer fires (or an object arrives) at such a time. -/
theorem scheduler_processes_spaced_partial (cfg : Config) (d : Int) (hd : cfg.delayTimes = [d]) (hw : cfg.wakeupInterval ≤ 1)
    (before : List Op) (t t' : Int) (x : String) (ok : Bool) (after : List Op)
    (hclock : ClockMonotone (before ++ .add t t' x ok :: after)) (hs : Spaced d (before ++ .add t t' x ok :: after))
    (hno : ∀ op ∈ after, ¬ op.adds x) (hfire : ∃ op ∈ after, t + d ≤ op.now) :
    ∃ now, t + d ≤ now ∧ (now, x) ∈
      (run cfg (before ++ .add t t' x ok :: after)).started.drop (run cfg before).started.length := by
  have hsplit : after.takeWhile (fun op => decide (op.now < t + d)) ++ after.dropWhile (fun op => decide (op.now < t + d)) = after :=
    List.takeWhile_append_dropWhile
  have hmono : (after.map Op.now).Pairwise (· ≤ ·) := by
    unfold ClockMonotone at hclock
    have h1 : (after.flatMap Op.clock).Pairwise (· ≤ ·) := by
      rw [List.flatMap_append, List.flatMap_cons] at hclock
      exact (List.pairwise_append.1 (List.pairwise_append.1 hclock).2.1).2.1
    clear hclock hs hno hfire hsplit
    induction after with
    | nil => simp
    | cons op l ih =>
      rw [List.flatMap_cons, List.pairwise_append] at h1
      rw [List.map_cons, List.pairwise_cons]
      refine ⟨?_, ih h1.2.1⟩
      intro n hn
      obtain ⟨o, ho, rfl⟩ := List.mem_map.1 hn
      refine h1.2.2 _ ?_ _ (List.mem_flatMap.2 ⟨o, ho, ?_⟩)
      · cases op <;> simp [Op.clock, Op.now]
      · cases o <;> simp [Op.clock, Op.now]
  have hne : after.dropWhile (fun op => decide (op.now < t + d)) ≠ [] := by
    intro h
    obtain ⟨op, h1, h2⟩ := hfire
    rw [h, List.append_nil] at hsplit
    rw [← hsplit] at h1
    have := List.mem_takeWhile_imp (p := fun op : Op => decide (op.now < t + d)) h1
    simp only [decide_eq_true_eq] at this
    omega
  have htime : ∀ op ∈ after.dropWhile (fun op => decide (op.now < t + d)), t + d ≤ op.now := by
    cases hdw : after.dropWhile (fun op => decide (op.now < t + d)) with
    | nil => simp
    | cons o l =>
      have ho : ¬ (decide (o.now < t + d)) = true := by
        have := List.head_dropWhile_not (fun op : Op => decide (op.now < t + d)) hne
        simp only [hdw, List.head_cons] at this
        simp [this]
      have hm : ((o :: l).map Op.now).Pairwise (· ≤ ·) := by
        rw [← hdw]
        exact hmono.sublist ((List.dropWhile_sublist _).map _)
      rw [List.map_cons, List.pairwise_cons] at hm
      simp only [decide_eq_true_eq, not_lt] at ho
      intro op hop
      rcases List.mem_cons.1 hop with rfl | hop
      · exact ho
      · exact le_trans ho (hm.1 _ (List.mem_map_of_mem hop))
  have hlen : 1 ≤ (after.dropWhile (fun op => decide (op.now < t + d))).length := List.length_pos_iff.2 hne
  have := scheduler_processes_due_partial cfg d hd before t t' x ok (after.takeWhile (fun op => decide (op.now < t + d)))
    (after.dropWhile (fun op => decide (op.now < t + d))) (by rw [hsplit]; exact atMostOneDue_of_spaced hd hw hs)
    (by rw [hsplit]; exact hno) htime hlen (by omega)
  rw [hsplit] at this
  exact this

/-- a history meeting the hypotheses: two objects arriving five seconds apart, both processed -/
example : Spaced 10 [.add 0 0 "a" true, .add 5 5 "b" true, .tick 10 true, .tick 15 true] ∧
    ClockMonotone [.add 0 0 "a" true, .add 5 5 "b" true, .tick 10 true, .tick 15 true] ∧
    (run ⟨[10], 1⟩ [.add 0 0 "a" true, .add 5 5 "b" true, .tick 10 true, .tick 15 true]).started = [(10, "a"), (15, "b")] := by
  refine ⟨?_, by unfold ClockMonotone; decide +kernel, by decide +kernel⟩
  intro i j n t₁ t₁' t₂ t₂' x y ok₁ ok₂ op hne hi hj hle hjn hn hdue
  have hi4 := (List.getElem?_eq_some_iff.1 hi).1
  have hj4 := (List.getElem?_eq_some_iff.1 hj).1
  have hn4 := (List.getElem?_eq_some_iff.1 hn).1
  simp only [List.length_cons, List.length_nil] at hi4 hj4 hn4
  have hi' : i = 0 ∧ t₁ = 0 ∧ x = "a" ∨ i = 1 ∧ t₁ = 5 ∧ x = "b" := by
    interval_cases i <;> simp at hi <;> simp [hi]
  have hj' : j = 0 ∧ t₂ = 0 ∧ y = "a" ∨ j = 1 ∧ t₂ = 5 ∧ y = "b" := by
    interval_cases j <;> simp at hj <;> simp [hj]
  rcases hi' with ⟨rfl, rfl, rfl⟩ | ⟨rfl, rfl, rfl⟩ <;> rcases hj' with ⟨rfl, rfl, rfl⟩ | ⟨rfl, rfl, rfl⟩
  · exact absurd rfl hne
  · refine ⟨2, .tick 10 true, by omega, ?_, rfl, by simp [Op.now], by simp [Op.now]⟩
    interval_cases n
    · simp at hn; subst hn; simp [Op.now] at hdue
    · simp at hn; subst hn; simp [Op.now] at hdue
    · simp
  · omega
  · exact absurd rfl hne

/-- **C51, offline.** Processing a list of given origins (or the origins of an XML file) starts
exactly one job for each of them, in order. -/
theorem scheduler_offline_exact (cfg : Config) (arrivals : List (Int × Int × String × Bool))
    (hclock : ∀ a ∈ arrivals, a.1 ≤ a.2.1) :
    (runOffline cfg arrivals).started = arrivals.map (fun a => (a.2.1, a.2.2.1)) := by
  suffices h : Inv (runOffline cfg arrivals) ∧ (runOffline cfg arrivals).queue = [] ∧
      (∀ k p, (runOffline cfg arrivals).procs.find? k = some p → p.runTimes = []) ∧
      (runOffline cfg arrivals).started = arrivals.map (fun a => (a.2.1, a.2.2.1)) from h.2.2.2
  induction arrivals using List.reverseRecOn with
  | nil => exact ⟨init_inv cfg, rfl, by simp [runOffline, init], rfl⟩
  | append_singleton arrivals a ih =>
    obtain ⟨hi, hq0, hrt, hst⟩ := ih (fun a ha => hclock a (by simp [ha]))
    obtain ⟨t, t', x, ok⟩ := a
    have htt : t ≤ t' := hclock (t, t', x, ok) (by simp)
    let cfg0 : Config := { cfg with delayTimes := [0] }
    have hrun : runOffline cfg (arrivals ++ [(t, t', x, ok)]) =
        runNewJobs cfg0 t' ok (schedule cfg0 t x { runOffline cfg arrivals with cron := 0 }) := by
      simp [runOffline, List.foldl_append, addProcess, cfg0]
    generalize runOffline cfg arrivals = s0 at *
    have hi0 : Inv { s0 with cron := 0 } := ⟨hi.keys, hi.key, hi.nodup, hi.queued⟩
    have hinv : Inv (schedule cfg0 t x { s0 with cron := 0 }) := schedule_inv hi0
    obtain ⟨b1, b2, b3⟩ := beforeJobs_started cfg0 { s0 with cron := 0 } (.add t t' x ok)
    simp only [beforeJobs] at b1 b2 b3
    have hall : ∀ k p, (schedule cfg0 t x { s0 with cron := 0 }).procs.find? k = some p →
        (k = x ∧ p.runTimes = [t]) ∨ (k ≠ x ∧ p.runTimes = []) := by
      intro k p hf
      unfold schedule at hf
      simp only at hf
      split at hf <;>
      · simp only [AMap.find?_set] at hf
        split at hf
        · left; refine ⟨by assumption, ?_⟩; simp at hf; rw [← hf]; simp [cfg0]
        · right; exact ⟨by assumption, hrt k p hf⟩
    obtain ⟨p, hx⟩ : ∃ p, (schedule cfg0 t x { s0 with cron := 0 }).procs.find? x = some p := by
      unfold schedule
      simp only
      split
      · exact ⟨_, AMap.find?_set_self _ _ _⟩
      · exact ⟨_, AMap.find?_set_self _ _ _⟩
    rw [hrun]
    rcases runNewJobs_cases cfg0 t' ok _ hinv with ⟨hc, h⟩ | ⟨hc, s', hi', h, hpr, hq, hst', _⟩
    · rw [b3] at hc; omega
    · obtain ⟨s1, s2, s3, _⟩ := startNext_spec t' ok s' hi'.nodup
      have hid := hinv.key _ _ hx
      have hqu : s'.queue = [p.ref] := by
        have hmem : ∀ r, r ∈ s'.queue ↔ r = p.ref := by
          intro r
          rw [hq]
          constructor
          · rintro ⟨p', hf', rfl, hn', _⟩
            rcases hall _ _ hf' with ⟨he, _⟩ | ⟨_, he⟩
            · rw [he, hx] at hf'; cases hf'; rfl
            · exact absurd he hn'
          · rintro rfl
            refine ⟨p, by rw [hid]; exact hx, rfl, ?_, .inr ?_⟩
            · rcases hall _ _ hx with ⟨_, he⟩ | ⟨he, _⟩
              · rw [he]; simp
              · exact absurd rfl he
            · rcases hall _ _ hx with ⟨_, he⟩ | ⟨he, _⟩
              · unfold due; rw [he]; simpa using htt
              · exact absurd rfl he
        have hnd := hi'.nodup
        match hqq : s'.queue with
        | [] => have := (hmem p.ref).2 rfl; rw [hqq] at this; cases this
        | [r] => have := (hmem r).1 (by rw [hqq]; simp); rw [this]
        | r :: r' :: q =>
          have e1 := (hmem r).1 (by rw [hqq]; simp)
          have e2 := (hmem r').1 (by rw [hqq]; simp)
          rw [hqq, e1, e2] at hnd; simp at hnd
      refine ⟨?_, ?_, ?_, ?_⟩
      · rw [h]; exact startNext_inv hi'
      · rw [h, s2, hqu]; rfl
      · intro k p' hf
        rw [h] at hf
        have hf' : s'.procs.find? k = some p' := by
          unfold startNext at hf
          rw [hqu] at hf
          simp only at hf
          split at hf
          · exact hf
          · simp only [removeProcess, AMap.find?_erase] at hf
            split at hf
            · cases hf
            · exact hf
        rw [hpr] at hf'
        cases hb : (schedule cfg0 t x { s0 with cron := 0 }).procs.find? k with
        | none => rw [hb] at hf'; simp at hf'
        | some p0 =>
          rw [hb] at hf'
          simp only [Option.bind_some, afterCron] at hf'
          rcases hall _ _ hb with ⟨_, he⟩ | ⟨_, he⟩
          · rw [he] at hf'
            simp [due, he, htt] at hf'
            rw [← hf']
          · rw [he] at hf'; simp at hf'
      · rw [h, s1, hst', b1, hqu]
        simp only [hst, List.map_append, List.map_cons, List.map_nil, List.head?_cons,
          Option.toList_some, hid]

end Verif.Scheduler
