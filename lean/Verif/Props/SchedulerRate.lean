import Verif.Props.Scheduler

/-!
# C52: how often the real-time scheduler starts jobs
-/

set_option linter.unusedSectionVars false

namespace Verif.Scheduler

/-- what the job started by the operation (if any) reports: can it be run again? -/
def Op.ok : Op → Bool
  | .tick _ ok => ok
  | .add _ _ _ ok => ok

/-- number of times `x` is announced -/
def announcements (x : String) (ops : List Op) : Nat :=
  ops.countP (fun op => match op with | .add _ _ id _ => id = x | .tick _ _ => false)

/-- number of times a job for `x` was started -/
def starts (x : String) (log : List (Int × String)) : Nat := log.countP (fun e => e.2 = x)

theorem step_ok (cfg : Config) (s : State) (op : Op) :
    step cfg s op = runNewJobs cfg op.now op.ok (beforeJobs cfg s op) := by
  cases op <;> rfl

/-- run times still to come for `x`, and whether it waits in the queue -/
def pending (s : State) (x : String) : Nat :=
  (match s.procs.find? x with | some p => p.runTimes.length | none => 0) +
    s.queue.countP (fun r => r.id = x)

theorem countP_queue {s : State} (h : Inv s) (x : String) :
    s.queue.countP (fun r => r.id = x) = if ∃ r ∈ s.queue, r.id = x then 1 else 0 := by
  split
  · rename_i he
    obtain ⟨r, hr, hx⟩ := he
    have : s.queue.countP (fun r => decide (r.id = x)) = s.queue.count r := by
      rw [List.count]
      apply List.countP_congr
      intro r' hr'
      simp only [decide_eq_true_eq, beq_iff_eq]
      constructor
      · intro hx'
        obtain ⟨p, hp, e⟩ := h.queued r hr
        obtain ⟨p', hp', e'⟩ := h.queued r' hr'
        rw [hx] at hp; rw [hx', hp] at hp'
        cases hp'
        rw [← e, ← e']
      · rintro rfl; exact hx
    rw [this]
    exact List.count_eq_one_of_mem h.nodup hr
  · rename_i he
    rw [List.countP_eq_zero]
    intro r hr
    simp only [decide_eq_true_eq]
    exact fun hx => he ⟨r, hr, hx⟩

theorem length_dropWhile_lt {l : List Int} {now : Int} (h : ∃ t ∈ l.head?, t ≤ now) :
    (l.dropWhile (fun x => x ≤ now)).length + 1 ≤ l.length := by
  cases l with
  | nil => simp at h
  | cons a l =>
    simp only [List.head?_cons, Option.mem_def, Option.some.injEq, exists_eq_left'] at h
    rw [List.dropWhile_cons_of_pos (by simpa using h)]
    simp only [List.length_cons, Nat.add_le_add_iff_right]
    exact (List.dropWhile_sublist _).length_le

theorem starts_append (x : String) (a b : List (Int × String)) :
    starts x (a ++ b) = starts x a + starts x b := List.countP_append

/-- starting a job moves it from the queue to the log -/
theorem pending_startNext {now : Int} {ok : Bool} {s : State} (h : Inv s) (x : String) :
    starts x (startNext now ok s).started + pending (startNext now ok s) x ≤
      starts x s.started + pending s x := by
  unfold startNext
  cases hq : s.queue with
  | nil => simp
  | cons r q =>
    have hnd := h.nodup
    rw [hq, List.nodup_cons] at hnd
    have hst : starts x (s.started ++ [(now, r.id)]) =
        starts x s.started + (if r.id = x then 1 else 0) := by
      rw [starts_append]; simp [starts, List.countP_cons]
    have hp : pending s x = (match s.procs.find? x with | some p => p.runTimes.length | none => 0) +
        (q.countP (fun r => r.id = x) + if r.id = x then 1 else 0) := by
      unfold pending; rw [hq, List.countP_cons]; simp
    cases ok with
    | true =>
      simp only [if_true, hst, hp]
      unfold pending
      simp only
      omega
    | false =>
      simp only [Bool.false_eq_true, if_false, removeProcess, hst, hp]
      unfold pending
      simp only [List.erase_of_not_mem hnd.1, AMap.find?_erase]
      by_cases hx : x = r.id
      · subst hx; simp only [if_true]; omega
      · simp only [hx, if_false]; omega

/-- the periodic part never increases what was and may be started -/
theorem pending_runNewJobs (cfg : Config) (now : Int) (ok : Bool) {s : State} (h : Inv s)
    (x : String) :
    starts x (runNewJobs cfg now ok s).started + pending (runNewJobs cfg now ok s) x ≤
      starts x s.started + pending s x := by
  rcases runNewJobs_cases cfg now ok s h with ⟨_, e⟩ | ⟨_, s', hi, e, hp, hq, hst, _⟩
  · rw [e]; exact le_rfl
  · rw [e]
    refine (pending_startNext hi x).trans ?_
    rw [hst]
    apply Nat.add_le_add_left
    unfold pending
    rw [countP_queue hi, countP_queue h, hp]
    cases hf : s.procs.find? x with
    | none =>
      simp only [Option.bind_none]
      rw [if_neg]
      · omega
      · rintro ⟨r, hr, hx⟩
        obtain ⟨p, hf', _⟩ := (hq r).1 hr
        rw [hx, hf] at hf'; cases hf'
    | some p =>
      simp only [Option.bind_some, afterCron]
      by_cases hn : p.runTimes = []
      · simp only [hn, if_true]
        rw [if_neg]
        · omega
        · rintro ⟨r, hr, hx⟩
          obtain ⟨p', hf', _, hn', _⟩ := (hq r).1 hr
          rw [hx, hf] at hf'; cases hf'
          exact hn' hn
      · simp only [hn, if_false]
        by_cases hd : due now p = true
        · simp only [hd, if_true]
          have := length_dropWhile_lt (due_head.1 hd)
          split <;> split <;> omega
        · simp only [hd, if_false, Bool.false_eq_true]
          have : (∃ r ∈ s'.queue, r.id = x) → ∃ r ∈ s.queue, r.id = x := by
            rintro ⟨r, hr, hx⟩
            obtain ⟨p', hf', _, _, ho⟩ := (hq r).1 hr
            rw [hx, hf] at hf'; cases hf'
            rcases ho with ho | ho
            · exact ⟨r, ho, hx⟩
            · exact absurd ho hd
          split
          · rename_i h1; rw [if_pos (this h1)]
          · omega

theorem pending_beforeJobs (cfg : Config) (s : State) (op : Op) (x : String) :
    pending (beforeJobs cfg s op) x ≤
      pending s x + cfg.delayTimes.length * announcements x [op] := by
  cases op with
  | tick => simp [beforeJobs, announcements]
  | add t t' id ok =>
    unfold beforeJobs schedule pending
    simp only
    by_cases hx : x = id
    · subst hx
      have : announcements x [Op.add t t' x ok] = 1 := by simp [announcements]
      rw [this]
      cases hf : s.procs.find? x <;> simp [AMap.find?_set] <;> omega
    · cases hf : s.procs.find? id <;> simp [AMap.find?_set_ne _ _ hx]

/-- **C52d.** Jobs are not repeated: over any history a job for `x` is started at most once per
announcement of `x` and configured delay (the default configuration has one delay). -/
theorem scheduler_start_count (cfg : Config) (ops : List Op) (x : String) :
    starts x (run cfg ops).started ≤ cfg.delayTimes.length * announcements x ops := by
  suffices h : starts x (run cfg ops).started + pending (run cfg ops) x ≤
      cfg.delayTimes.length * announcements x ops by omega
  induction ops using List.reverseRecOn with
  | nil => simp [run, init, starts, pending]
  | append_singleton ops op ih =>
    rw [run_snoc, step_ok]
    have h1 := pending_runNewJobs cfg op.now op.ok
      (beforeJobs_inv (cfg := cfg) (run_inv cfg ops) op) x
    rw [(beforeJobs_started cfg (run cfg ops) op).1] at h1
    have h2 := pending_beforeJobs cfg (run cfg ops) op x
    have h3 : announcements x (ops ++ [op]) = announcements x ops + announcements x [op] :=
      List.countP_append
    rw [h3, Nat.mul_add]
    omega

/-- the bound is reached: two announcements, two jobs -/
example : starts "a" (run ⟨[10], 1⟩ [.add 0 0 "a" true, .tick 10 true, .add 11 11 "a" true,
    .tick 21 true, .tick 30 true]).started = 2 := by decide +kernel

/-- **C52e.** Jobs are started at wake-ups, which are at least `wakeupInterval` operations (timer
ticks and arrivals) apart: if both `op` and a later `op'` start a job, then `op'` is at least the
`wakeupInterval`-th operation after `op`. -/
theorem scheduler_interval (cfg : Config) (pre : List Op) (op : Op) (mid : List Op) (op' : Op)
    (h : (run cfg (pre ++ [op])).started ≠ (run cfg pre).started)
    (h' : (run cfg (pre ++ [op] ++ mid ++ [op'])).started ≠
      (run cfg (pre ++ [op] ++ mid)).started) :
    cfg.wakeupInterval ≤ mid.length + 1 := by
  have nowake : ∀ (ops : List Op) (o : Op), 1 < (run cfg ops).cron →
      (run cfg (ops ++ [o])).started = (run cfg ops).started ∧
      (run cfg (ops ++ [o])).cron = (run cfg ops).cron - 1 := by
    intro ops o hc
    obtain ⟨b1, _, b3⟩ := beforeJobs_started cfg (run cfg ops) o
    rw [run_snoc, step_ok]
    rcases runNewJobs_cases cfg o.now o.ok _ (beforeJobs_inv (cfg := cfg) (run_inv cfg ops) o) with
      ⟨_, e⟩ | ⟨hle, _⟩
    · rw [e]; exact ⟨b1, by rw [b3]⟩
    · rw [b3] at hle; omega
  have hreset : (run cfg (pre ++ [op])).cron = cfg.wakeupInterval := by
    by_contra hne
    apply h
    obtain ⟨b1, _, b3⟩ := beforeJobs_started cfg (run cfg pre) op
    rw [run_snoc, step_ok] at hne ⊢
    have hinv := beforeJobs_inv (cfg := cfg) (run_inv cfg pre) op
    rcases runNewJobs_cases cfg op.now op.ok _ hinv with ⟨_, e⟩ | ⟨_, s', hi, e, _, _, _, hcr⟩
    · rw [e]; exact b1
    · exact absurd (by rw [e, (startNext_spec op.now op.ok s' hi.nodup).2.2.2, hcr]) hne
  by_contra hlt
  have hcount : ∀ l : List Op, (l.length : Int) + 1 < cfg.wakeupInterval →
      (run cfg (pre ++ [op] ++ l)).cron = cfg.wakeupInterval - l.length := by
    intro l
    induction l using List.reverseRecOn with
    | nil => intro _; simpa using hreset
    | append_singleton l o ih =>
      intro hl
      simp only [List.length_append, List.length_singleton, Int.natCast_add, Int.natCast_one] at hl ⊢
      have := ih (by omega)
      rw [← List.append_assoc, (nowake _ o (by omega)).2]
      omega
  exact h' (nowake _ op' (by rw [hcount mid (by omega)]; omega)).1

/-- with an interval of three operations, jobs started by the third and sixth operation -/
example : (run ⟨[0], 3⟩ [.add 0 0 "a" true, .add 0 0 "b" true, .tick 1 true]).started = [(1, "a")] ∧
    (run ⟨[0], 3⟩ [.add 0 0 "a" true, .add 0 0 "b" true, .tick 1 true, .add 2 2 "c" true, .tick 3 true,
      .tick 4 true]).started = [(1, "a"), (4, "c")] := by decide +kernel

/-- **C52f.** A job that reports it cannot be run again is forgotten: its object is not started
again unless it is announced again. -/
theorem scheduler_failed_forgotten (cfg : Config) (pre : List Op) (op : Op) (x : String)
    (more : List Op)
    (h : (run cfg (pre ++ [op])).started = (run cfg pre).started ++ [(op.now, x)])
    (hok : op.ok = false) (hno : ∀ o ∈ more, ¬ o.adds x) :
    starts x (run cfg (pre ++ [op] ++ more)).started = starts x (run cfg (pre ++ [op])).started := by
  have h0 : pending (run cfg (pre ++ [op])) x = 0 := by
    obtain ⟨b1, _, b3⟩ := beforeJobs_started cfg (run cfg pre) op
    rw [run_snoc, step_ok] at h ⊢
    have hinv := beforeJobs_inv (cfg := cfg) (run_inv cfg pre) op
    rcases runNewJobs_cases cfg op.now op.ok _ hinv with ⟨_, e⟩ | ⟨_, s', hi, e, _, _, hst, _⟩
    · rw [e] at h
      simp only [b1] at h
      simp at h
    · have hinv' : Inv (startNext op.now op.ok s') := startNext_inv hi
      rw [e] at h ⊢
      rw [(startNext_spec op.now op.ok s' hi.nodup).1, hst, b1, List.append_cancel_left_eq] at h
      have hnone : (startNext op.now op.ok s').procs.find? x = none := by
        unfold startNext
        cases hq : s'.queue with
        | nil => rw [hq] at h; simp at h
        | cons r q =>
          rw [hq] at h
          simp only [List.head?_cons, Option.toList_some, List.map_cons, List.map_nil,
            List.cons.injEq, Prod.mk.injEq, true_and, and_true] at h
          simp only [hok, Bool.false_eq_true, if_false, removeProcess, h, AMap.find?_erase, if_true]
      unfold pending
      rw [hnone, countP_queue hinv', if_neg]
      rintro ⟨r, hr, hx⟩
      obtain ⟨p, hf, _⟩ := hinv'.queued r hr
      rw [hx, hnone] at hf; cases hf
  have hle : starts x (run cfg (pre ++ [op] ++ more)).started +
      pending (run cfg (pre ++ [op] ++ more)) x ≤ starts x (run cfg (pre ++ [op])).started ∧
      starts x (run cfg (pre ++ [op])).started ≤
        starts x (run cfg (pre ++ [op] ++ more)).started := by
    induction more using List.reverseRecOn with
    | nil => simp [h0]
    | append_singleton more o ih =>
      obtain ⟨ih1, ih2⟩ := ih (fun o ho => hno o (by simp [ho]))
      have hone := scheduler_one_job_per_wakeup cfg (pre ++ [op] ++ more) o
      rw [← List.append_assoc]
      refine ⟨?_, ?_⟩
      · rw [run_snoc, step_ok]
        have h1 := pending_runNewJobs cfg o.now o.ok
          (beforeJobs_inv (cfg := cfg) (run_inv cfg (pre ++ [op] ++ more)) o) x
        rw [(beforeJobs_started cfg (run cfg (pre ++ [op] ++ more)) o).1] at h1
        have h2 := pending_beforeJobs cfg (run cfg (pre ++ [op] ++ more)) o x
        have h3 : announcements x [o] = 0 := by
          have := hno o (by simp)
          cases o with
          | tick => rfl
          | add t t' id ok => simpa [announcements, Op.adds] using this
        rw [h3] at h2
        omega
      · rcases hone with e | ⟨y, e⟩
        · rw [e]; exact ih2
        · rw [e, starts_append]; omega
  omega

/-- a job that fails at its first of two run times is not started at the second one; one that
succeeds is -/
example : (run ⟨[0, 5], 1⟩ [.add 0 0 "a" false, .tick 6 true]).started = [(0, "a")] ∧
    (run ⟨[0, 5], 1⟩ [.add 0 0 "a" true, .tick 6 true]).started = [(0, "a"), (6, "a")] := by
  decide +kernel

end Verif.Scheduler
