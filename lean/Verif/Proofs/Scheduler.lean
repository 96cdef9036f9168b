import Verif.Model.Scheduler
import Mathlib.Data.List.Induction
import Mathlib.Data.List.Sort

set_option linter.unusedSectionVars false
set_option linter.unusedSimpArgs false

namespace Verif.Scheduler

/-- the process is due: its next run time is not in the future -/
def due (now : Int) (p : Proc) : Bool :=
  match p.runTimes with
  | [] => false
  | t :: _ => decide (t ≤ now)

theorem due_false_of_nil {now : Int} {p : Proc} (h : p.runTimes = []) : due now p = false := by
  unfold due; rw [h]

/-- queue after the crontab loop -/
def pushDue (now : Int) (q : List Ref) (kv : String × Proc) : List Ref :=
  if due now kv.2 ∧ kv.2.ref ∉ q then q ++ [kv.2.ref] else q

theorem cronStep_eq (now : Int) (acc : State × List Ref) (kv : String × Proc) :
    (cronStep now acc kv).1.queue = pushDue now acc.1.queue kv ∧
    (cronStep now acc kv).1.started = acc.1.started ∧
    (cronStep now acc kv).1.nextUid = acc.1.nextUid ∧
    (cronStep now acc kv).1.cron = acc.1.cron ∧
    (cronStep now acc kv).1.procs = (if due now kv.2 then acc.1.procs.set kv.1
      { kv.2 with runTimes := kv.2.runTimes.dropWhile (fun x => x ≤ now) } else acc.1.procs) ∧
    (cronStep now acc kv).2 = acc.2 ++ (if kv.2.runTimes = [] then [kv.2.ref] else []) := by
  unfold cronStep pushDue due
  cases h : kv.2.runTimes with
  | nil => simp
  | cons t ts =>
    by_cases ht : t > now
    · simp [ht, not_le.2 ht]
    · by_cases hq : kv.2.ref ∈ acc.1.queue
      · simp [ht, not_lt.1 ht, hq]
      · simp [ht, not_lt.1 ht, hq]

theorem cron_fold (now : Int) (l : List (String × Proc)) (acc : State × List Ref) :
    (l.foldl (cronStep now) acc).1.queue = l.foldl (pushDue now) acc.1.queue ∧
    (l.foldl (cronStep now) acc).1.started = acc.1.started ∧
    (l.foldl (cronStep now) acc).1.nextUid = acc.1.nextUid ∧
    (l.foldl (cronStep now) acc).1.cron = acc.1.cron ∧
    (l.foldl (cronStep now) acc).2 =
      acc.2 ++ (l.filter (fun kv => kv.2.runTimes = [])).map (fun kv => kv.2.ref) := by
  induction l generalizing acc with
  | nil => simp
  | cons kv l ih =>
    obtain ⟨h1, h2, h3, h4, _, h6⟩ := cronStep_eq now acc kv
    obtain ⟨g1, g2, g3, g4, g5⟩ := ih (cronStep now acc kv)
    simp only [List.foldl_cons]
    refine ⟨by rw [g1, h1], by rw [g2, h2], by rw [g3, h3], by rw [g4, h4], ?_⟩
    rw [g5, h6]
    by_cases h : kv.2.runTimes = [] <;> simp [h]

theorem cron_fold_procs (now : Int) (l : List (String × Proc)) (hnd : (l.map (·.1)).Nodup)
    (acc : State × List Ref) (hs : acc.1.procs.NodupKeys) :
    (l.foldl (cronStep now) acc).1.procs.NodupKeys ∧
    (∀ k, k ∉ l.map (·.1) → (l.foldl (cronStep now) acc).1.procs.find? k = acc.1.procs.find? k) ∧
    (∀ kv ∈ l, acc.1.procs.find? kv.1 = some kv.2 →
      (l.foldl (cronStep now) acc).1.procs.find? kv.1 =
        some (if due now kv.2 then
          { kv.2 with runTimes := kv.2.runTimes.dropWhile (fun x => x ≤ now) } else kv.2)) := by
  induction l generalizing acc with
  | nil => exact ⟨hs, fun _ _ => rfl, by simp⟩
  | cons kv l ih =>
    obtain ⟨_, _, _, _, h5, _⟩ := cronStep_eq now acc kv
    simp only [List.map_cons, List.nodup_cons] at hnd
    have hs' : (cronStep now acc kv).1.procs.NodupKeys := by
      rw [h5]; split
      · exact AMap.nodupKeys_set hs _ _
      · exact hs
    obtain ⟨g0, g1, g2⟩ := ih hnd.2 (cronStep now acc kv) hs'
    have hother : ∀ k, k ≠ kv.1 → (cronStep now acc kv).1.procs.find? k = acc.1.procs.find? k := by
      intro k hk; rw [h5]; split
      · exact AMap.find?_set_ne _ _ hk
      · rfl
    simp only [List.foldl_cons]
    refine ⟨g0, ?_, ?_⟩
    · intro k hk
      simp only [List.map_cons, List.mem_cons, not_or] at hk
      rw [g1 k hk.2, hother k hk.1]
    · intro kv' hkv' hf
      rcases List.mem_cons.1 hkv' with rfl | hkv'
      · rw [g1 _ hnd.1, h5]
        split
        · rw [AMap.find?_set_self]
        · exact hf
      · have hne : kv'.1 ≠ kv.1 := by
          intro he; exact hnd.1 (by rw [← he]; exact List.mem_map.2 ⟨kv', hkv', rfl⟩)
        exact g2 kv' hkv' (by rw [hother _ hne]; exact hf)

theorem pushDue_fold_mem (now : Int) (l : List (String × Proc)) (q : List Ref) (r : Ref) :
    r ∈ l.foldl (pushDue now) q ↔ r ∈ q ∨ ∃ kv ∈ l, due now kv.2 ∧ kv.2.ref = r := by
  induction l generalizing q with
  | nil => simp
  | cons kv l ih =>
    simp only [List.foldl_cons, ih, List.mem_cons, exists_eq_or_imp]
    unfold pushDue
    by_cases h : due now kv.2 = true ∧ kv.2.ref ∉ q
    · simp only [h, not_false_eq_true, and_self, if_true, List.mem_append, List.mem_singleton,
        true_and]
      tauto
    · rw [if_neg h]
      constructor
      · rintro (h' | h')
        · exact .inl h'
        · exact .inr (.inr h')
      · rintro (h' | ⟨h1, rfl⟩ | h')
        · exact .inl h'
        · left; by_contra hc; exact h ⟨h1, hc⟩
        · exact .inr h'

theorem pushDue_fold_nodup (now : Int) (l : List (String × Proc)) (q : List Ref) (hq : q.Nodup) :
    (l.foldl (pushDue now) q).Nodup := by
  induction l generalizing q with
  | nil => exact hq
  | cons kv l ih =>
    apply ih
    unfold pushDue
    split
    · rename_i h
      rw [List.nodup_append]
      refine ⟨hq, by simp, ?_⟩
      intro a ha b hb hab
      simp at hb; subst hb; subst hab; exact h.2 ha
    · exact hq

theorem pushDue_fold_none (now : Int) (l : List (String × Proc)) (q : List Ref)
    (h : ∀ kv ∈ l, due now kv.2 = false) : l.foldl (pushDue now) q = q := by
  induction l generalizing q with
  | nil => rfl
  | cons kv l ih =>
    simp only [List.foldl_cons]
    rw [show pushDue now q kv = q from by unfold pushDue; simp [h kv (by simp)]]
    exact ih q (fun kv hkv => h kv (by simp [hkv]))

theorem remove_fold (rm : List Ref) (s : State) (hs : s.procs.NodupKeys) (hq : s.queue.Nodup) :
    (rm.foldl removeProcess s).procs.NodupKeys ∧ (rm.foldl removeProcess s).queue.Nodup ∧
    (∀ k, (rm.foldl removeProcess s).procs.find? k =
      if k ∈ rm.map (·.id) then none else s.procs.find? k) ∧
    (∀ r, r ∈ (rm.foldl removeProcess s).queue ↔ r ∈ s.queue ∧ r ∉ rm) ∧
    (rm.foldl removeProcess s).started = s.started ∧
    (rm.foldl removeProcess s).nextUid = s.nextUid ∧
    (rm.foldl removeProcess s).cron = s.cron ∧
    (rm.foldl removeProcess s).queue.Sublist s.queue := by
  induction rm generalizing s with
  | nil => simp [hs, hq]
  | cons r rm ih =>
    obtain ⟨h0, h1, h2, h3, h4, h5, h6, h7⟩ := ih (removeProcess s r) (AMap.nodupKeys_erase hs _)
      (hq.erase r)
    simp only [List.foldl_cons]
    refine ⟨h0, h1, ?_, ?_, h4, h5, h6, h7.trans List.erase_sublist⟩
    · intro k
      rw [h2]
      simp only [removeProcess, AMap.find?_erase, List.map_cons, List.mem_cons]
      by_cases hk : k = r.id
      · simp [hk]
      · simp [hk, -List.mem_map]
    · intro r'
      rw [h3]
      simp only [removeProcess, hq.mem_erase_iff, List.mem_cons, not_or]
      tauto

/-- State invariant. -/
structure Inv (s : State) : Prop where
  keys : s.procs.NodupKeys
  key : ∀ k p, s.procs.find? k = some p → p.ref.id = k
  nodup : s.queue.Nodup
  queued : ∀ r ∈ s.queue, ∃ p, s.procs.find? r.id = some p ∧ p.ref = r

theorem sorted_perm (m : AMap String Proc) : (sorted m).Perm m := List.perm_insertionSort _ _

theorem sorted_nodup {m : AMap String Proc} (h : m.NodupKeys) : ((sorted m).map (·.1)).Nodup :=
  ((sorted_perm m).map (fun kv : String × Proc => kv.1)).nodup_iff.2 h

theorem mem_sorted {m : AMap String Proc} (h : m.NodupKeys) {k : String} {p : Proc} :
    (k, p) ∈ sorted m ↔ m.find? k = some p := by
  rw [(sorted_perm m).mem_iff, AMap.mem_iff_find? h]

/-- the state between the removal of expired processes and the start of a job -/
def prepared (cfg : Config) (now : Int) (s : State) : State :=
  let s := { s with cron := cfg.wakeupInterval }
  let (s, toRemove) := (sorted s.procs).foldl (cronStep now) (s, [])
  toRemove.foldl removeProcess s

theorem wakeUp_eq (cfg : Config) (now : Int) (ok : Bool) (s : State) :
    wakeUp cfg now ok s = startNext now ok (prepared cfg now s) := rfl

/-- what is left of a process after the crontab loop -/
def afterCron (now : Int) (p : Proc) : Option Proc :=
  if p.runTimes = [] then none
  else some (if due now p then
    { p with runTimes := p.runTimes.dropWhile (fun x => x ≤ now) } else p)

theorem prepared_spec (cfg : Config) (now : Int) (s : State) (h : Inv s) :
    Inv (prepared cfg now s) ∧
    (∀ k, (prepared cfg now s).procs.find? k = (s.procs.find? k).bind (afterCron now)) ∧
    (∀ r, r ∈ (prepared cfg now s).queue ↔ ∃ p, s.procs.find? r.id = some p ∧ p.ref = r ∧
      p.runTimes ≠ [] ∧ (r ∈ s.queue ∨ due now p = true)) ∧
    (prepared cfg now s).started = s.started ∧ (prepared cfg now s).cron = cfg.wakeupInterval ∧
    (prepared cfg now s).nextUid = s.nextUid := by
  obtain ⟨f1, f2, f3, f4, f5⟩ := cron_fold now (sorted s.procs)
    ({ s with cron := cfg.wakeupInterval }, [])
  obtain ⟨p0, p1, p2⟩ := cron_fold_procs now (sorted s.procs) (sorted_nodup h.keys)
    ({ s with cron := cfg.wakeupInterval }, []) h.keys
  have hq : ((sorted s.procs).foldl (pushDue now) s.queue).Nodup :=
    pushDue_fold_nodup _ _ _ h.nodup
  rw [← f1] at hq
  obtain ⟨r0, r1, r2, r3, r4, r5, r6, _⟩ := remove_fold
    ((sorted s.procs).foldl (cronStep now) ({ s with cron := cfg.wakeupInterval }, [])).2
    ((sorted s.procs).foldl (cronStep now) ({ s with cron := cfg.wakeupInterval }, [])).1 p0 hq
  simp only [List.nil_append] at f5
  have hrm : ∀ k, k ∈ (((sorted s.procs).foldl (cronStep now)
      ({ s with cron := cfg.wakeupInterval }, [])).2).map (·.id) ↔
      ∃ p, s.procs.find? k = some p ∧ p.runTimes = [] := by
    intro k
    rw [f5]
    constructor
    · intro hk
      simp only [List.mem_map, List.mem_filter, decide_eq_true_eq] at hk
      obtain ⟨r, ⟨kv, ⟨hkv, hn⟩, rfl⟩, rfl⟩ := hk
      have hf := (mem_sorted h.keys).1 hkv
      rw [h.key _ _ hf]
      exact ⟨_, hf, hn⟩
    · rintro ⟨p, hf, hn⟩
      simp only [List.mem_map, List.mem_filter, decide_eq_true_eq]
      exact ⟨p.ref, ⟨(k, p), ⟨(mem_sorted h.keys).2 hf, hn⟩, rfl⟩, h.key _ _ hf⟩
  have hproc : ∀ k, (prepared cfg now s).procs.find? k = (s.procs.find? k).bind (afterCron now) := by
    intro k
    unfold prepared
    simp only
    rw [r2]
    cases hf : s.procs.find? k with
    | none =>
      simp only [Option.bind_none]
      split
      · rfl
      · rw [p1]
        · exact hf
        · intro hc
          rw [List.mem_map] at hc
          obtain ⟨kv, hkv, rfl⟩ := hc
          rw [(mem_sorted h.keys).1 hkv] at hf; cases hf
    | some p =>
      simp only [Option.bind_some, afterCron]
      by_cases hn : p.runTimes = []
      · rw [if_pos ((hrm k).2 ⟨p, hf, hn⟩), if_pos hn]
      · rw [if_neg, if_neg hn]
        · exact p2 (k, p) ((mem_sorted h.keys).2 hf) hf
        · rw [hrm]; rintro ⟨p', hf', hn'⟩
          rw [hf] at hf'; cases hf'; exact hn hn'
  have hqueue : ∀ r, r ∈ (prepared cfg now s).queue ↔ ∃ p, s.procs.find? r.id = some p ∧ p.ref = r ∧
      p.runTimes ≠ [] ∧ (r ∈ s.queue ∨ due now p = true) := by
    intro r
    unfold prepared
    simp only
    rw [r3, f1, pushDue_fold_mem]
    have hin : r ∈ (((sorted s.procs).foldl (cronStep now)
        ({ s with cron := cfg.wakeupInterval }, [])).2) ↔
        ∃ p, s.procs.find? r.id = some p ∧ p.ref = r ∧ p.runTimes = [] := by
      rw [f5]
      simp only [List.mem_map, List.mem_filter, decide_eq_true_eq]
      constructor
      · rintro ⟨kv, ⟨hkv, hn⟩, rfl⟩
        have hf := (mem_sorted h.keys).1 hkv
        exact ⟨kv.2, by rw [h.key _ _ hf]; exact hf, rfl, hn⟩
      · rintro ⟨p, hf, rfl, hn⟩
        exact ⟨(p.ref.id, p), ⟨(mem_sorted h.keys).2 hf, hn⟩, rfl⟩
    rw [hin]
    constructor
    · rintro ⟨hl | ⟨kv, hkv, hd, rfl⟩, hr⟩
      · obtain ⟨p, hf, hpr⟩ := h.queued r hl
        exact ⟨p, hf, hpr, fun hn => hr ⟨p, hf, hpr, hn⟩, .inl hl⟩
      · have hf := (mem_sorted h.keys).1 hkv
        have hid := h.key _ _ hf
        refine ⟨kv.2, by rw [hid]; exact hf, rfl, ?_, .inr hd⟩
        intro hn; rw [due_false_of_nil hn] at hd; cases hd
    · rintro ⟨p, hf, rfl, hn, hor⟩
      constructor
      · rcases hor with hl | hd
        · exact .inl hl
        · exact .inr ⟨(p.ref.id, p), (mem_sorted h.keys).2 hf, hd, rfl⟩
      · rintro ⟨p', hf', _, hn'⟩
        rw [hf] at hf'; cases hf'; exact hn hn'
  refine ⟨⟨r0, ?_, r1, ?_⟩, hproc, hqueue, ?_, ?_, ?_⟩
  · intro k p hf
    rw [hproc] at hf
    cases hs : s.procs.find? k with
    | none => rw [hs] at hf; simp at hf
    | some p' =>
      rw [hs] at hf
      have hid := h.key _ _ hs
      simp only [Option.bind_some, afterCron] at hf
      split at hf
      · cases hf
      · split at hf <;> (simp at hf; subst hf; exact hid)
  · intro r hr
    obtain ⟨p, hf, hpr, hn, _⟩ := (hqueue r).1 hr
    rw [hproc, hf]
    simp only [Option.bind_some, afterCron, if_neg hn]
    refine ⟨_, rfl, ?_⟩
    split <;> exact hpr
  · unfold prepared; simp only; rw [r4, f2]
  · unfold prepared; simp only; rw [r6, f4]
  · unfold prepared; simp only; rw [r5, f3]

theorem startNext_inv {now : Int} {ok : Bool} {s : State} (h : Inv s) : Inv (startNext now ok s) := by
  unfold startNext
  cases hq : s.queue with
  | nil => exact h
  | cons r q =>
    simp only
    have hnd := h.nodup
    rw [hq, List.nodup_cons] at hnd
    cases ok with
    | true =>
      exact ⟨h.keys, h.key, hnd.2, fun r' hr' => h.queued r' (by rw [hq]; exact List.mem_cons_of_mem _ hr')⟩
    | false =>
      simp only [Bool.false_eq_true, if_false, removeProcess]
      refine ⟨AMap.nodupKeys_erase h.keys _, ?_, hnd.2.erase r, ?_⟩
      · intro k p hf
        rw [AMap.find?_erase] at hf
        split at hf
        · cases hf
        · exact h.key _ _ hf
      · intro r' hr'
        have hr'' := (hnd.2.mem_erase_iff.1 hr').2
        obtain ⟨p, hf, hpr⟩ := h.queued r' (by rw [hq]; simp [hr''])
        refine ⟨p, ?_, hpr⟩
        rw [AMap.find?_erase_ne]
        · exact hf
        · intro hid
          obtain ⟨p2, hf2, hpr2⟩ := h.queued r (by rw [hq]; simp)
          rw [hid, hf2] at hf
          cases hf
          rw [hpr] at hpr2
          subst hpr2
          exact hnd.1 hr''

theorem schedule_inv {cfg : Config} {t : Int} {id : String} {s : State} (h : Inv s) :
    Inv (schedule cfg t id s) := by
  unfold schedule
  cases hf : s.procs.find? id with
  | some p =>
    refine ⟨AMap.nodupKeys_set h.keys _ _, ?_, h.nodup, ?_⟩
    · intro k p' hk
      simp only [AMap.find?_set] at hk
      split at hk
      · simp at hk; subst hk; rename_i he; rw [he]; exact h.key id p hf
      · exact h.key _ _ hk
    · intro r hr
      obtain ⟨p', hf', hpr⟩ := h.queued r hr
      simp only [AMap.find?_set]
      by_cases he : r.id = id
      · rw [if_pos he]
        refine ⟨_, rfl, ?_⟩
        rw [he, hf] at hf'; cases hf'; exact hpr
      · rw [if_neg he]; exact ⟨p', hf', hpr⟩
  | none =>
    refine ⟨AMap.nodupKeys_set h.keys _ _, ?_, h.nodup, ?_⟩
    · intro k p' hk
      simp only [AMap.find?_set] at hk
      split at hk
      · simp at hk; subst hk; rename_i he; exact he.symm
      · exact h.key _ _ hk
    · intro r hr
      obtain ⟨p', hf', hpr⟩ := h.queued r hr
      simp only [AMap.find?_set]
      by_cases he : r.id = id
      · rw [he, hf] at hf'; cases hf'
      · rw [if_neg he]; exact ⟨p', hf', hpr⟩

theorem runNewJobs_inv {cfg : Config} {now : Int} {ok : Bool} {s : State} (h : Inv s) :
    Inv (runNewJobs cfg now ok s) := by
  unfold runNewJobs
  have h' : Inv { s with cron := s.cron - 1 } := ⟨h.keys, h.key, h.nodup, h.queued⟩
  simp only
  split
  · rw [wakeUp_eq]; exact startNext_inv (prepared_spec cfg now _ h').1
  · exact h'

theorem step_inv {cfg : Config} {s : State} (h : Inv s) (op : Op) : Inv (step cfg s op) := by
  cases op with
  | tick now ok => exact runNewJobs_inv h
  | add t t' id ok => exact runNewJobs_inv (schedule_inv h)

theorem init_inv (cfg : Config) : Inv (init cfg) :=
  ⟨AMap.nodupKeys_nil, by simp [init], by simp [init], by simp [init]⟩

theorem run_snoc (cfg : Config) (ops : List Op) (op : Op) :
    run cfg (ops ++ [op]) = step cfg (run cfg ops) op := by simp [run, List.foldl_append]

theorem run_inv (cfg : Config) (ops : List Op) : Inv (run cfg ops) := by
  induction ops using List.reverseRecOn with
  | nil => exact init_inv cfg
  | append_singleton ops op ih => rw [run_snoc]; exact step_inv ih op

end Verif.Scheduler
