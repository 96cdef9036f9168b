import Verif.Spec.Log
import Mathlib.Tactic.Tauto
import Mathlib.Data.List.Induction

/-! Lemmas for C113. -/

set_option linter.unusedSimpArgs false

namespace Verif.Log

theorem run_append (s : State) (a b : List Op) : run s (a ++ b) = run (run s a) b := List.foldl_append

theorem run_snoc (s : State) (a : List Op) (op : Op) : run s (a ++ [op]) = step (run s a) op := by
  rw [run_append]
  rfl

theorem log_loggers (s : State) (l : Level) (t : String) : (log s l t).loggers = s.loggers := by
  unfold log toFiles
  split <;> rfl

theorem log_minLevel (s : State) (l : Level) (t : String) : (log s l t).minLevel = s.minLevel := by
  unfold log toFiles
  split <;> rfl

theorem log_user (s : State) (l : Level) (t : String) : (log s l t).user = s.user := by
  unfold log toFiles
  split <;> rfl

theorem message_loggers (s : State) (fm : Bool) (l : Level) (t : String) : (message s fm l t).loggers = s.loggers := by
  unfold message
  split
  · split
    · exact log_loggers s l t
    · rfl
  · exact log_loggers s l t

theorem message_minLevel (s : State) (fm : Bool) (l : Level) (t : String) : (message s fm l t).minLevel = s.minLevel := by
  unfold message
  split
  · split
    · exact log_minLevel s l t
    · rfl
  · exact log_minLevel s l t

theorem message_user (s : State) (fm : Bool) (l : Level) (t : String) : (message s fm l t).user = s.user := by
  unfold message
  split
  · split
    · exact log_user s l t
    · rfl
  · exact log_user s l t

theorem log_files (s : State) (l : Level) (t : String) (name : String) :
    (log s l t).files name = match s.loggers.find? name with
      | some min => if min.rank ≤ l.rank then s.files name ++ [(l, t)] else s.files name
      | none => s.files name := by
  unfold log toFiles
  split <;> rfl

/-- whether a message is written -/
def passes (s : State) (name : String) (fm : Bool) (l : Level) : Bool :=
  match s.loggers.find? name with
  | some min => decide (min.rank ≤ l.rank) && (!fm || decide (s.minLevel.rank ≤ l.rank))
  | none => false

theorem message_files (s : State) (fm : Bool) (l : Level) (t : String) (name : String) :
    (message s fm l t).files name = if passes s name fm l then s.files name ++ [(l, t)] else s.files name := by
  unfold message passes
  cases fm with
  | false =>
    simp only [Bool.false_eq_true, if_false, log_files]
    cases s.loggers.find? name with
    | none => simp
    | some min => by_cases h : min.rank ≤ l.rank <;> simp [h]
  | true =>
    simp only [if_true]
    by_cases hg : s.minLevel.rank ≤ l.rank
    · simp only [hg, if_true, log_files]
      cases s.loggers.find? name with
      | none => simp
      | some min => by_cases h : min.rank ≤ l.rank <;> simp [h]
    · simp only [hg, if_false]
      cases s.loggers.find? name with
      | none => simp
      | some min => simp [hg]

theorem message_shown (s : State) (fm : Bool) (l : Level) (t : String) :
    (message s fm l t).shown = if s.minLevel.rank ≤ l.rank then s.shown ++ [(s.user, l, t)] else s.shown := by
  unfold message log toFiles
  by_cases hg : s.minLevel.rank ≤ l.rank <;> cases fm <;> simp [hg]

/-! ## which files are active -/

theorem step_find (s : State) (op : Op) (name : String) :
    (step s op).loggers.find? name =
      match op with
      | .removeFile n => if n = name then none else s.loggers.find? name
      | .addFile n l ok => match s.loggers.find? name with
        | some m => some m
        | none => if n = name ∧ ok = true then some l else none
      | _ => s.loggers.find? name := by
  cases op with
  | setLevel l => rfl
  | setLogger c => simp only [step]; cases s.user <;> rfl
  | clearLogger => rfl
  | message fm l t =>
    show (message s fm l t).loggers.find? name = _
    rw [message_loggers]
  | addFile n l ok =>
    show (addFile s n l ok).1.loggers.find? name = _
    unfold addFile
    cases hn : s.loggers.find? n with
    | some m =>
      simp only
      cases hname : s.loggers.find? name with
      | some m' => rfl
      | none =>
        have : n ≠ name := by
          rintro rfl
          rw [hn] at hname
          cases hname
        simp [this]
    | none =>
      cases ok with
      | false =>
        simp
        cases s.loggers.find? name <;> rfl
      | true =>
        simp only [if_true]
        by_cases h : n = name
        · subst h
          rw [AMap.find?_set, hn]
          simp
        · rw [AMap.find?_set_ne _ _ (Ne.symm h)]
          simp [h]
          try cases s.loggers.find? name <;> rfl
  | removeFile n =>
    show (s.loggers.erase n).find? name = _
    by_cases h : n = name
    · subst h
      simp
    · rw [AMap.find?_erase_ne _ (Ne.symm h)]
      simp [h]

/-- no log of this name -/
def Closed (ops : List Op) (name : String) : Prop :=
  ∃ a b, ops = a ++ b ∧ (a = [] ∨ ∃ a', a = a' ++ [.removeFile name]) ∧
    ∀ op ∈ b, op ≠ .removeFile name ∧ ∀ l', op ≠ .addFile name l' true

theorem keeps_none {name : String} (b : List Op) (hb : ∀ op ∈ b, op ≠ .removeFile name ∧ ∀ l', op ≠ .addFile name l' true)
    {s : State} (h : s.loggers.find? name = none) : (run s b).loggers.find? name = none := by
  induction b generalizing s with
  | nil => exact h
  | cons op b ih =>
    refine ih (fun o ho => hb o (List.mem_cons_of_mem _ ho)) ?_
    obtain ⟨h1, h2⟩ := hb op (List.mem_cons_self ..)
    rw [step_find]
    cases op with
    | addFile n l ok =>
      simp only [h]
      rw [if_neg]
      rintro ⟨rfl, rfl⟩
      exact h2 l rfl
    | removeFile n => simp [h]
    | _ => exact h

theorem keeps_some {name : String} (b : List Op) (hb : Op.removeFile name ∉ b) {s : State} {l : Level}
    (h : s.loggers.find? name = some l) : (run s b).loggers.find? name = some l := by
  induction b generalizing s with
  | nil => exact h
  | cons op b ih =>
    simp only [List.mem_cons, not_or] at hb
    refine ih hb.2 ?_
    rw [step_find]
    cases op with
    | addFile n l ok => simp only [h]
    | removeFile n =>
      simp only
      rw [if_neg]
      · exact h
      · rintro rfl
        exact hb.1 rfl
    | _ => exact h

theorem closed_none {files : String → List Line} {ops : List Op} {name : String} (h : Closed ops name) :
    (run (init files) ops).loggers.find? name = none := by
  obtain ⟨a, b, rfl, ha, hb⟩ := h
  rw [run_append]
  refine keeps_none b hb ?_
  rcases ha with rfl | ⟨a', rfl⟩
  · rfl
  · rw [run_snoc, step_find]
    simp

theorem active_some {files : String → List Line} {ops : List Op} {name : String} {l : Level} (h : Active ops name l) :
    (run (init files) ops).loggers.find? name = some l := by
  obtain ⟨a, b, c, rfl, ha, hb, hc⟩ := h
  rw [run_append]
  show (run (step (run (init files) (a ++ b)) (.addFile name l true)) c).loggers.find? name = some l
  refine keeps_some c hc ?_
  rw [step_find]
  simp only
  rw [closed_none ⟨a, b, rfl, ha, hb⟩]
  simp

theorem closed_or_active (ops : List Op) (name : String) : Closed ops name ∨ ∃ l, Active ops name l := by
  induction ops using List.reverseRecOn with
  | nil => exact Or.inl ⟨[], [], rfl, Or.inl rfl, by simp⟩
  | append_singleton ops op ih =>
    by_cases hrm : op = .removeFile name
    · subst hrm
      exact Or.inl ⟨ops ++ [.removeFile name], [], by simp, Or.inr ⟨ops, rfl⟩, by simp⟩
    rcases ih with ⟨a, b, rfl, ha, hb⟩ | ⟨l, a, b, c, rfl, ha, hb, hc⟩
    · by_cases hadd : ∃ l, op = .addFile name l true
      · obtain ⟨l, rfl⟩ := hadd
        exact Or.inr ⟨l, a, b, [], rfl, ha, hb, by simp⟩
      · refine Or.inl ⟨a, b ++ [op], by simp, ha, fun o ho => ?_⟩
        rcases List.mem_append.1 ho with ho | ho
        · exact hb o ho
        · rw [List.mem_singleton] at ho
          subst ho
          exact ⟨hrm, fun l' h => hadd ⟨l', h⟩⟩
    · refine Or.inr ⟨l, a, b, c ++ [op], by simp, ha, hb, ?_⟩
      simp only [List.mem_append, List.mem_singleton, not_or]
      exact ⟨hc, fun h => hrm h.symm⟩

theorem active_iff {files : String → List Line} {ops : List Op} {name : String} {l : Level} :
    (run (init files) ops).loggers.find? name = some l ↔ Active ops name l := by
  constructor
  · intro h
    rcases closed_or_active ops name with hc | ⟨l', ha⟩
    · rw [closed_none hc] at h
      cases h
    · have := active_some (files := files) ha
      rw [this] at h
      cases h
      exact ha
  · exact active_some

/-! ## the global level -/

theorem step_minLevel (s : State) (op : Op) : (step s op).minLevel = match op with | .setLevel l => l | _ => s.minLevel := by
  cases op with
  | setLogger c => simp only [step]; cases s.user <;> rfl
  | message fm l t => exact message_minLevel s fm l t
  | addFile n l ok =>
    show (addFile s n l ok).1.minLevel = s.minLevel
    unfold addFile
    split
    · rfl
    · split <;> rfl
  | _ => rfl

theorem globalLevel_iff {files : String → List Line} {ops : List Op} {g : Level} :
    GlobalLevel ops g ↔ (run (init files) ops).minLevel = g := by
  induction ops using List.reverseRecOn generalizing g with
  | nil =>
    constructor
    · rintro (⟨a, c, h, -⟩ | ⟨rfl, -⟩)
      · simp at h
      · rfl
    · intro h
      exact Or.inr ⟨h.symm, by simp⟩
  | append_singleton ops op ih =>
    rw [run_snoc, step_minLevel]
    by_cases hset : ∃ l, op = .setLevel l
    · obtain ⟨l, rfl⟩ := hset
      constructor
      · rintro (⟨a, c, h, hc⟩ | ⟨-, h⟩)
        · rcases List.eq_nil_or_concat c with rfl | ⟨c', x, rfl⟩
          · have := (List.append_inj' h rfl).2
            simp at this
            exact this
          · have h' : ops ++ [Op.setLevel l] = (a ++ .setLevel g :: c') ++ [x] := by
              rw [h]; simp
            have := (List.append_inj' h' rfl).2
            simp only [List.cons.injEq, and_true] at this
            exact absurd this.symm (hc x (by simp) l)
        · exact absurd rfl (h _ (by simp) l)
      · rintro rfl
        exact Or.inl ⟨ops, [], rfl, by simp⟩
    · have hm : (step (run (init files) ops) op).minLevel = (run (init files) ops).minLevel := by
        rw [step_minLevel]
        cases op with
        | setLevel l => exact absurd ⟨l, rfl⟩ hset
        | _ => rfl
      rw [← step_minLevel, hm, ← ih]
      constructor
      · rintro (⟨a, c, h, hc⟩ | ⟨rfl, h⟩)
        · rcases List.eq_nil_or_concat c with rfl | ⟨c', x, rfl⟩
          · have := (List.append_inj' h rfl).2
            simp only [List.cons.injEq, and_true] at this
            exact absurd ⟨_, this⟩ hset
          · have h' : ops ++ [op] = (a ++ .setLevel g :: c') ++ [x] := by
              rw [h]; simp
            obtain ⟨h1, h2⟩ := List.append_inj' h' rfl
            exact Or.inl ⟨a, c', h1, fun o ho => hc o (by simp [ho])⟩
        · exact Or.inr ⟨rfl, fun o ho => h o (by simp [ho])⟩
      · rintro (⟨a, c, rfl, hc⟩ | ⟨rfl, h⟩)
        · refine Or.inl ⟨a, c ++ [op], by simp, fun o ho l hl => ?_⟩
          rcases List.mem_append.1 ho with ho | ho
          · exact hc o ho l hl
          · rw [List.mem_singleton] at ho
            subst ho
            exact hset ⟨l, hl⟩
        · refine Or.inr ⟨rfl, fun o ho l hl => ?_⟩
          rcases List.mem_append.1 ho with ho | ho
          · exact h o ho l hl
          · rw [List.mem_singleton] at ho
            subst ho
            exact hset ⟨l, hl⟩

/-! ## the listener -/

theorem step_user (s : State) (op : Op) : (step s op).user =
    match op with
    | .clearLogger => none
    | .setLogger c => match s.user with
      | none => some c
      | some u => some u
    | _ => s.user := by
  cases op with
  | setLogger c => simp only [step]; cases h : s.user <;> simp [h]
  | message fm l t => exact message_user s fm l t
  | addFile n l ok =>
    show (addFile s n l ok).1.user = s.user
    unfold addFile
    split
    · rfl
    · split <;> rfl
  | _ => rfl

theorem user_none (b : List Op) (hb : ∀ op ∈ b, ∀ c, op ≠ .setLogger c) {s : State} (h : s.user = none) :
    (run s b).user = none := by
  induction b generalizing s with
  | nil => exact h
  | cons op b ih =>
    refine ih (fun o ho => hb o (List.mem_cons_of_mem _ ho)) ?_
    have := hb op (List.mem_cons_self ..)
    rw [step_user]
    cases op with
    | setLogger c => exact absurd rfl (this c)
    | _ => first | exact h | rfl

theorem user_some (b : List Op) (hb : Op.clearLogger ∉ b) {s : State} {u : String} (h : s.user = some u) :
    (run s b).user = some u := by
  induction b generalizing s with
  | nil => exact h
  | cons op b ih =>
    simp only [List.mem_cons, not_or] at hb
    refine ih hb.2 ?_
    rw [step_user]
    cases op with
    | setLogger c => simp only [h]
    | clearLogger => exact absurd rfl hb.1
    | _ => exact h

theorem listener_user {files : String → List Line} {ops : List Op} {u : Option String} (h : Listener ops u) :
    (run (init files) ops).user = u := by
  obtain ⟨a, b, rfl, ha, hcl, h⟩ := h
  have h0 : (run (init files) a).user = none := by
    rcases ha with rfl | ⟨a', rfl⟩
    · rfl
    · rw [run_snoc, step_user]
  rw [run_append]
  rcases h with ⟨rfl, hb⟩ | ⟨c, b1, b2, rfl, rfl, hb⟩
  · exact user_none b hb h0
  · rw [run_append]
    show (run (step (run (run (init files) a) b1) (.setLogger c)) b2).user = some c
    refine user_some b2 (fun h => hcl (by simp [h])) ?_
    rw [step_user]
    simp only [user_none b1 hb h0]

theorem listener_exists (ops : List Op) : ∃ u, Listener ops u := by
  induction ops using List.reverseRecOn with
  | nil => exact ⟨none, [], [], rfl, Or.inl rfl, by simp, Or.inl ⟨rfl, by simp⟩⟩
  | append_singleton ops op ih =>
    by_cases hcl : op = .clearLogger
    · subst hcl
      exact ⟨none, ops ++ [.clearLogger], [], by simp, Or.inr ⟨ops, rfl⟩, by simp, Or.inl ⟨rfl, by simp⟩⟩
    obtain ⟨u, a, b, rfl, ha, hb, h⟩ := ih
    have hb' : Op.clearLogger ∉ b ++ [op] := by
      simp only [List.mem_append, List.mem_singleton, not_or]
      exact ⟨hb, fun h => hcl h.symm⟩
    rcases h with ⟨rfl, hn⟩ | ⟨c, b1, b2, rfl, rfl, h1⟩
    · by_cases hset : ∃ c, op = .setLogger c
      · obtain ⟨c, rfl⟩ := hset
        exact ⟨some c, a, b ++ [.setLogger c], by simp, ha, hb', Or.inr ⟨c, b, [], rfl, rfl, hn⟩⟩
      · refine ⟨none, a, b ++ [op], by simp, ha, hb', Or.inl ⟨rfl, fun o ho c hc => ?_⟩⟩
        rcases List.mem_append.1 ho with ho | ho
        · exact hn o ho c hc
        · rw [List.mem_singleton] at ho
          subst ho
          exact hset ⟨c, hc⟩
    · exact ⟨some c, a, (b1 ++ .setLogger c :: b2) ++ [op], by simp, ha, hb', Or.inr ⟨c, b1, b2 ++ [op], rfl, by simp, h1⟩⟩

/-! ## messages -/

theorem step_files_other (s : State) (op : Op) (name : String) (h : ∀ fm l t, op ≠ .message fm l t) :
    (step s op).files name = s.files name ∧ (step s op).shown = s.shown := by
  cases op with
  | setLogger c => simp only [step]; cases s.user <;> exact ⟨rfl, rfl⟩
  | message fm l t => exact absurd rfl (h fm l t)
  | addFile n l ok =>
    show (addFile s n l ok).1.files name = _ ∧ (addFile s n l ok).1.shown = _
    unfold addFile
    split
    · exact ⟨rfl, rfl⟩
    · split <;> exact ⟨rfl, rfl⟩
  | _ => exact ⟨rfl, rfl⟩

theorem run_texts (ts : List Text) (s : State) :
    (run s (ts.map Text.op)).loggers = s.loggers ∧ (run s (ts.map Text.op)).minLevel = s.minLevel ∧
    ∀ name, (run s (ts.map Text.op)).files name =
      s.files name ++ (ts.filter fun t => passes s name t.formatted t.level).map fun t => (t.level, t.text) := by
  induction ts generalizing s with
  | nil => simp [run]
  | cons t ts ih =>
    obtain ⟨h1, h2, h3⟩ := ih (message s t.formatted t.level t.text)
    have hl := message_loggers s t.formatted t.level t.text
    have hm := message_minLevel s t.formatted t.level t.text
    refine ⟨h1.trans hl, h2.trans hm, fun name => ?_⟩
    have hp : ∀ u : Text, passes (message s t.formatted t.level t.text) name u.formatted u.level =
        passes s name u.formatted u.level := by
      intro u
      unfold passes
      rw [hl, hm]
    have := h3 name
    simp only [hp] at this
    show (run (message s t.formatted t.level t.text) (ts.map Text.op)).files name = _
    rw [this, message_files, List.filter_cons]
    by_cases hpt : passes s name t.formatted t.level = true
    · simp [hpt]
    · simp [hpt]

/-- the messages while the file is a log of level `info` -/
theorem texts_active {ts : List Text} {s : State} {name : String} (hg : s.minLevel.rank ≤ Level.info.rank)
    (h : s.loggers.find? name = some .info) : (run s (ts.map Text.op)).files name = s.files name ++ important ts := by
  rw [(run_texts ts s).2.2]
  congr 1
  unfold important
  congr 1
  refine List.filter_congr fun t _ => ?_
  unfold passes
  rw [h]
  rw [Bool.eq_iff_iff]
  simp only [Bool.and_eq_true, decide_eq_true_eq, Bool.or_eq_true, Bool.not_eq_true']
  constructor
  · exact fun h => h.1
  · exact fun h => ⟨h, Or.inr (Nat.le_trans hg h)⟩

theorem texts_unused {ts : List Text} {s : State} {name : String} (h : s.Unused name) :
    (run s (ts.map Text.op)).files name = s.files name := by
  rw [(run_texts ts s).2.2]
  have : (ts.filter fun t => passes s name t.formatted t.level) = [] := by
    rw [List.filter_eq_nil_iff]
    intro t _
    unfold passes
    rw [show s.loggers.find? name = none from h]
    simp
  rw [this]
  simp

theorem important_append (a b : List Text) : important (a ++ b) = important a ++ important b := by
  unfold important
  rw [List.filter_append, List.map_append]

theorem important_nil : important [] = [] := rfl

theorem addFile_new {s : State} {name : String} {l : Level} (h : s.Unused name) :
    addFile s name l true = ({ s with loggers := s.loggers.set name l }, true) := by
  unfold addFile
  rw [show s.loggers.find? name = none from h]
  simp

theorem unused_texts {s : State} {name : String} (ts : List Text) (h : s.Unused name) :
    (run s (ts.map Text.op)).Unused name := by
  unfold State.Unused
  rw [(run_texts ts s).1]
  exact h

/-- a log file opened, messages, and the file closed -/
theorem bracket {s : State} {name : String} (ts : List Text) (h : s.Unused name) (hg : s.minLevel.rank ≤ Level.info.rank) :
    let r := step (run (addFile s name .info true).1 (ts.map Text.op)) (.removeFile name)
    r.files name = s.files name ++ important ts ∧ r.Unused name ∧ r.minLevel = s.minLevel ∧
    (∀ n, n ≠ name → r.loggers.find? n = s.loggers.find? n) ∧
    (∀ n, n ≠ name → s.Unused n → r.files n = s.files n) ∧
    (∀ n, n ≠ name → s.loggers.find? n = some .info → r.files n = s.files n ++ important ts) := by
  intro r
  have hadd := addFile_new (l := .info) h
  have hr : r = step (run { s with loggers := s.loggers.set name .info } (ts.map Text.op)) (.removeFile name) := by
    show step (run (addFile s name .info true).1 _) _ = _
    rw [hadd]
  generalize hs1 : ({ s with loggers := s.loggers.set name .info } : State) = s1 at hr
  have hf1 : s1.files = s.files := by rw [← hs1]
  have hm1 : s1.minLevel = s.minLevel := by rw [← hs1]
  have hl1 : s1.loggers.find? name = some .info := by rw [← hs1]; exact AMap.find?_set_self ..
  have hl1n : ∀ n, n ≠ name → s1.loggers.find? n = s.loggers.find? n := by
    intro n hn
    rw [← hs1]
    exact AMap.find?_set_ne _ _ hn
  have hfiles : ∀ n, r.files n = (run s1 (ts.map Text.op)).files n := by
    intro n
    rw [hr]
    exact (step_files_other _ _ n (by simp)).1
  refine ⟨?_, ?_, ?_, ?_, ?_, ?_⟩
  · rw [hfiles, texts_active (by rw [hm1]; exact hg) hl1, hf1]
  · unfold State.Unused
    rw [hr, step_find]
    simp
  · rw [hr, step_minLevel]
    simp only
    rw [(run_texts ts s1).2.1, hm1]
  · intro n hn
    rw [hr, step_find]
    simp only
    rw [if_neg (Ne.symm hn), (run_texts ts s1).1, hl1n n hn]
  · intro n hn hu
    rw [hfiles, texts_unused (by unfold State.Unused; rw [hl1n n hn]; exact hu), hf1]
  · intro n hn ha
    rw [hfiles, texts_active (by rw [hm1]; exact hg) (by rw [hl1n n hn]; exact ha), hf1]

theorem addFile_keeps {s : State} {main name : String} {l l' : Level} {ok : Bool} (h : s.loggers.find? main = some l) :
    (addFile s name l' ok).1.loggers.find? main = some l := by
  have := step_find s (.addFile name l' ok) main
  simp only [h] at this
  exact this

theorem clusters_keep {main : String} (save : Bool) (cs : List Cluster) (s : State) {l : Level}
    (hmain : s.loggers.find? main = some l) (hne : ∀ c ∈ cs, c.file ≠ main) :
    (runClusters save s cs).1.loggers.find? main = some l := by
  induction cs generalizing s with
  | nil => exact hmain
  | cons c cs ih =>
    rw [runClusters]
    have h1 : (run s (c.before.map Text.op)).loggers.find? main = some l := by rw [(run_texts _ s).1]; exact hmain
    generalize run s (c.before.map Text.op) = s1 at h1
    have h2 : (if save = true then addFile s1 c.file .info c.canOpen else (s1, true)).1.loggers.find? main = some l := by
      split
      · exact addFile_keeps h1
      · exact h1
    generalize (if save = true then addFile s1 c.file .info c.canOpen else (s1, true)) = r at h2
    have h3 : (run r.1 (c.body.map Text.op)).loggers.find? main = some l := by rw [(run_texts _ r.1).1]; exact h2
    simp only
    split
    · split
      · refine ih _ ?_ fun d hd => hne d (List.mem_cons_of_mem _ hd)
        split
        · rw [step_find]
          simp only
          rw [if_neg (hne c (List.mem_cons_self ..))]
          exact h3
        · exact h3
      · exact h3
    · exact h2

/-- the clusters, with another file being a log -/
theorem clusters_logs {main : String} (cs : List Cluster) (s : State) (hg : s.minLevel.rank ≤ Level.info.rank)
    (hmain : s.loggers.find? main = some .info) (hok : ∀ c ∈ cs, c.canOpen = true ∧ c.ended = true)
    (hun : ∀ c ∈ cs, s.Unused c.file) (hd : (cs.map Cluster.file).Nodup) :
    let r := runClusters true s cs
    r.2 = true ∧ r.1.minLevel = s.minLevel ∧ (∀ n, r.1.loggers.find? n = s.loggers.find? n) ∧
    r.1.files main = s.files main ++ important (texts cs) ∧
    (∀ c ∈ cs, r.1.files c.file = s.files c.file ++ important c.body) ∧
    (∀ n, s.Unused n → n ∉ cs.map Cluster.file → r.1.files n = s.files n) := by
  induction cs generalizing s with
  | nil => exact ⟨rfl, rfl, fun _ => rfl, by simp [runClusters, texts, important], by simp, fun _ _ _ => rfl⟩
  | cons c cs ih =>
    intro r
    obtain ⟨hopen, hended⟩ := hok c (List.mem_cons_self ..)
    have hu := hun c (List.mem_cons_self ..)
    obtain ⟨t1, t2, t3⟩ := run_texts c.before s
    generalize hs1 : run s (c.before.map Text.op) = s1 at t1 t2 t3
    have hu1 : s1.Unused c.file := by rw [← hs1]; exact unused_texts _ hu
    have hg1 : s1.minLevel.rank ≤ Level.info.rank := by rw [t2]; exact hg
    obtain ⟨b1, b2, b3, b4, b5, b6⟩ := bracket c.body hu1 hg1
    generalize hs2 : step (run (addFile s1 c.file .info true).1 (c.body.map Text.op)) (.removeFile c.file) = s2
      at b1 b2 b3 b4 b5 b6
    have hr : r = runClusters true s2 cs := by
      show runClusters true s (c :: cs) = _
      rw [runClusters]
      simp only [if_true, hs1, hopen, hended, addFile_new hu1]
      rw [addFile_new hu1] at hs2
      rw [hs2]
    have hne : main ≠ c.file := by
      rintro rfl
      rw [show s.loggers.find? c.file = none from hu] at hmain
      cases hmain
    have hl2 : ∀ n, s2.loggers.find? n = s.loggers.find? n := by
      intro n
      by_cases hn : n = c.file
      · subst hn
        rw [show s2.loggers.find? c.file = none from b2, show s.loggers.find? c.file = none from hu]
      · rw [b4 n hn, t1]
    simp only [List.map_cons, List.nodup_cons] at hd
    obtain ⟨i1, i2, i3, i4, i5, i6⟩ := ih s2 (by rw [b3, t2]; exact hg) (by rw [hl2]; exact hmain)
      (fun d hd => hok d (List.mem_cons_of_mem _ hd))
      (fun d hd' => by unfold State.Unused; rw [hl2]; exact hun d (List.mem_cons_of_mem _ hd')) hd.2
    rw [← hr] at i1 i2 i3 i4 i5 i6
    have hs1f : ∀ n, s.Unused n → s1.files n = s.files n := fun n hn => by rw [← hs1]; exact texts_unused hn
    refine ⟨i1, by rw [i2, b3, t2], fun n => by rw [i3, hl2], ?_, ?_, ?_⟩
    · have hm1 : s1.files main = s.files main ++ important c.before := by
        rw [← hs1]; exact texts_active hg hmain
      rw [i4, b6 main hne (by rw [t1]; exact hmain), hm1]
      simp only [texts, List.flatMap_cons, important_append, List.append_assoc]
    · intro d hd'
      rcases List.mem_cons.1 hd' with rfl | hd''
      · rw [i6 _ (by unfold State.Unused; rw [hl2]; exact hu) hd.1, b1, hs1f _ hu]
      · have hud := hun d (List.mem_cons_of_mem _ hd'')
        have hdne : d.file ≠ c.file := by
          intro h
          exact hd.1 (h ▸ List.mem_map_of_mem hd'')
        rw [i5 d hd'', b5 _ hdne (by unfold State.Unused; rw [t1]; exact hud), hs1f _ hud]
    · intro n hn hnot
      simp only [List.map_cons, List.mem_cons, not_or] at hnot
      rw [i6 n (by unfold State.Unused; rw [hl2]; exact hn) hnot.2,
        b5 n hnot.1 (by unfold State.Unused; rw [t1]; exact hn), hs1f n hn]

end Verif.Log
