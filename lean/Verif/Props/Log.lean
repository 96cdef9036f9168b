import Verif.Proofs.Log

/-!
# C113: what is written to the log files
-/

set_option linter.unusedSimpArgs false

namespace Verif.Log

/-! ## the log -/

/-- After any calls, a message is appended to a file exactly if the file is a log of at most the message's level, opened and not
removed since, and, for a message with a format, the global level is not higher than the message's. -/
theorem file_message (files : String → List Line) (ops : List Op) (formatted : Bool) (l : Level) (text name : String) :
    (Written ops name formatted l → (run (init files) (ops ++ [.message formatted l text])).files name =
      (run (init files) ops).files name ++ [(l, text)]) ∧
    (¬ Written ops name formatted l → (run (init files) (ops ++ [.message formatted l text])).files name =
      (run (init files) ops).files name) := by
  have hp : passes (run (init files) ops) name formatted l = true ↔ Written ops name formatted l := by
    unfold passes Written
    constructor
    · intro h
      cases hf : (run (init files) ops).loggers.find? name with
      | none => simp [hf] at h
      | some min =>
        rw [hf] at h
        simp only [Bool.and_eq_true, decide_eq_true_eq, Bool.or_eq_true, Bool.not_eq_true'] at h
        refine ⟨⟨min, active_iff.1 hf, h.1⟩, fun hfm => ?_⟩
        rcases h.2 with h2 | h2
        · rw [hfm] at h2
          cases h2
        · exact ⟨_, globalLevel_iff.2 rfl, h2⟩
    · rintro ⟨⟨min, ha, hmin⟩, hg⟩
      rw [active_iff.2 ha]
      simp only [Bool.and_eq_true, decide_eq_true_eq, Bool.or_eq_true, Bool.not_eq_true']
      refine ⟨hmin, ?_⟩
      cases formatted with
      | false => exact Or.inl rfl
      | true =>
        obtain ⟨g, hg1, hg2⟩ := hg rfl
        rw [globalLevel_iff.1 hg1]
        exact Or.inr hg2
  rw [run_snoc]
  show (_ → (message _ formatted l text).files name = _) ∧ (_ → (message _ formatted l text).files name = _)
  rw [message_files, ← hp]
  constructor
  · intro h
    rw [if_pos h]
  · intro h
    rw [if_neg h]

/-- Nothing else changes a file, and nothing else is shown: opening and closing a log keep what is in it. -/
theorem file_kept (files : String → List Line) (ops : List Op) (op : Op) (name : String)
    (h : ∀ formatted l text, op ≠ .message formatted l text) :
    (run (init files) (ops ++ [op])).files name = (run (init files) ops).files name ∧
    (run (init files) (ops ++ [op])).shown = (run (init files) ops).shown := by
  rw [run_snoc]
  exact step_files_other _ _ _ h

/-- A message goes, if the global level is not higher, to the first logger set since the last `clearLogger` and, without one, to
the standard error stream; otherwise nobody gets it.  There is exactly one such receiver. -/
theorem shown_message (files : String → List Line) (ops : List Op) (formatted : Bool) (l : Level) (text : String) :
    (∃! u, Listener ops u) ∧ (∃! g, GlobalLevel ops g) ∧
    ∀ u g, Listener ops u → GlobalLevel ops g →
      (run (init files) (ops ++ [.message formatted l text])).shown =
        (run (init files) ops).shown ++ if g.rank ≤ l.rank then [(u, l, text)] else [] := by
  refine ⟨?_, ⟨_, globalLevel_iff (files := files).2 rfl, fun g hg => (globalLevel_iff.1 hg).symm⟩, ?_⟩
  · obtain ⟨u, hu⟩ := listener_exists ops
    refine ⟨u, hu, fun v hv => ?_⟩
    rw [← listener_user (files := files) hv, listener_user hu]
  · intro u g hu hg
    rw [run_snoc]
    show (message _ formatted l text).shown = _
    rw [message_shown, listener_user hu, globalLevel_iff.1 hg]
    split <;> simp

/-- `log` says that files are "always" written (log.cpp:132).  With a format they are not: with the global level `warning` a
message of level `info` is missing in a log file of level `info`, while one without a format is in it. -/
theorem format_not_written :
    let s := run (init fun _ => []) [.addFile "f" .info true, .setLevel .warning, .message true .info "a",
      .message false .info "b", .message true .error "c"]
    s.files "f" = [(.info, "b"), (.error, "c")] ∧ s.shown = [(none, .error, "c")] := by
  decide +kernel

/-! ## the relocation of an event -/

/-- A relocation of an event that ends normally appends to its log file its messages of level `info` and higher, after opening the
file, and nothing else; it leaves files that are not logs as they are, and the set of log files as it was. -/
theorem single_finished {s : State} {c : Single} (hsave : c.save = true) (hopen : c.canOpen = true)
    (hend : c.ending = .finished) (hun : s.Unused c.file) (hg : s.minLevel.rank ≤ Level.info.rank) :
    (runSingle s c).files c.file = s.files c.file ++ important c.body ∧
    (∀ n, (runSingle s c).loggers.find? n = s.loggers.find? n) ∧
    (∀ n, n ≠ c.file → s.Unused n → (runSingle s c).files n = s.files n) ∧
    (runSingle s c).minLevel = s.minLevel := by
  obtain ⟨t1, t2, -⟩ := run_texts c.before s
  have hu1 := unused_texts c.before hun
  obtain ⟨b1, b2, b3, b4, b5, -⟩ := bracket c.body hu1 (by rw [t2]; exact hg)
  have hr : runSingle s c = step (run (addFile (run s (c.before.map Text.op)) c.file .info true).1 (c.body.map Text.op))
      (.removeFile c.file) := by
    unfold runSingle
    simp only [hsave, if_true, hopen, hend, addFile_new hu1]
  rw [hr]
  refine ⟨by rw [b1, texts_unused hun], fun n => ?_, fun n hn hu => by rw [b5 n hn (unused_texts _ hu), texts_unused hu], by rw [b3, t2]⟩
  by_cases hn : n = c.file
  · subst hn
    exact b2.trans hun.symm
  · rw [b4 n hn, t1]

/-- Several relocations that all end normally, one after the other, each with its own file: every file gets the messages of its
own relocation and of no other one. -/
theorem singles_apart_partial (cs : List Single) (s : State)
    (hok : ∀ c ∈ cs, c.save = true ∧ c.canOpen = true ∧ c.ending = .finished ∧ s.Unused c.file)
    (hd : (cs.map Single.file).Nodup) (hg : s.minLevel.rank ≤ Level.info.rank) :
    (∀ c ∈ cs, (cs.foldl runSingle s).files c.file = s.files c.file ++ important c.body) ∧
    (∀ n, n ∉ cs.map Single.file → s.Unused n → (cs.foldl runSingle s).files n = s.files n) ∧
    ∀ n, (cs.foldl runSingle s).loggers.find? n = s.loggers.find? n := by
  induction cs generalizing s with
  | nil => exact ⟨by simp, fun _ _ _ => rfl, fun _ => rfl⟩
  | cons c cs ih =>
    obtain ⟨h1, h2, h3, h4⟩ := hok c (List.mem_cons_self ..)
    obtain ⟨a1, a2, a3, a4⟩ := single_finished h1 h2 h3 h4 hg
    simp only [List.map_cons, List.nodup_cons] at hd
    have hun : ∀ n, s.Unused n → (runSingle s c).Unused n := fun n hn => by unfold State.Unused; rw [a2]; exact hn
    obtain ⟨i1, i2, i3⟩ := ih (runSingle s c) (fun d hd' => by
      obtain ⟨k1, k2, k3, k4⟩ := hok d (List.mem_cons_of_mem _ hd')
      exact ⟨k1, k2, k3, hun _ k4⟩) hd.2 (by rw [a4]; exact hg)
    refine ⟨fun d hd' => ?_, fun n hn hu => ?_, fun n => ?_⟩
    · rcases List.mem_cons.1 hd' with rfl | hd''
      · exact (i2 _ hd.1 (hun _ h4)).trans a1
      · have hne : d.file ≠ c.file := by
          intro h
          exact hd.1 (h ▸ List.mem_map_of_mem hd'')
        rw [List.foldl_cons, i1 d hd'', a3 _ hne (hok d hd').2.2.2]
    · simp only [List.map_cons, List.mem_cons, not_or] at hn
      rw [List.foldl_cons, i2 n hn.2 (hun n hu), a3 n hn.1 hu]
    · rw [List.foldl_cons, i3, a2]

/-- A relocation that finds too few neighbours, or that throws, leaves its file open as a log (dd.cpp:599 returns before :647). -/
theorem single_leaves_open {s : State} {c : Single} (hsave : c.save = true) (hopen : c.canOpen = true)
    (hend : c.ending ≠ .finished) (hun : s.Unused c.file) (hg : s.minLevel.rank ≤ Level.info.rank) :
    (runSingle s c).loggers.find? c.file = some .info ∧
    (runSingle s c).files c.file = s.files c.file ++ important c.body ∧
    (runSingle s c).minLevel = s.minLevel ∧
    ∀ n, n ≠ c.file → (runSingle s c).loggers.find? n = s.loggers.find? n := by
  obtain ⟨t1, t2, -⟩ := run_texts c.before s
  have hu1 := unused_texts c.before hun
  have hr : runSingle s c = run { run s (c.before.map Text.op) with
      loggers := (run s (c.before.map Text.op)).loggers.set c.file .info } (c.body.map Text.op) := by
    unfold runSingle
    simp only [hsave, if_true, hopen, addFile_new hu1]
    cases he : c.ending with
    | finished => exact absurd he hend
    | _ => rfl
  rw [hr]
  obtain ⟨u1, u2, -⟩ := run_texts c.body { run s (c.before.map Text.op) with
      loggers := (run s (c.before.map Text.op)).loggers.set c.file .info }
  refine ⟨by rw [u1]; exact AMap.find?_set_self .., ?_, by rw [u2]; exact t2, fun n hn => ?_⟩
  · rw [texts_active (by show (run s _).minLevel.rank ≤ _; rw [t2]; exact hg) (AMap.find?_set_self ..)]
    show (run s _).files _ ++ _ = _
    rw [texts_unused hun]
  · rw [u1]
    show ((run s _).loggers.set c.file .info).find? n = _
    rw [AMap.find?_set_ne _ _ hn, t1]

/-- All important messages of a relocation, also those before its own log file is open -/
def Single.all (c : Single) : List Text := c.before ++ c.body

/-- The file left open gets the messages of the next relocation too, whether it saves its processing or not, as long as that one
does not use the same file. -/
theorem leaks_into_next {s : State} {c d : Single} (hsave : c.save = true) (hopen : c.canOpen = true)
    (hend : c.ending ≠ .finished) (hun : s.Unused c.file) (hg : s.minLevel.rank ≤ Level.info.rank)
    (hne : d.file ≠ c.file) (hd : d.save = true → d.canOpen = true) :
    (runSingle (runSingle s c) d).files c.file = s.files c.file ++ important c.body ++ important d.all ∧
    (runSingle (runSingle s c) d).loggers.find? c.file = some .info := by
  obtain ⟨a1, a2, a3, -⟩ := single_leaves_open hsave hopen hend hun hg
  generalize runSingle s c = s' at a1 a2 a3
  have hg' : s'.minLevel.rank ≤ Level.info.rank := by rw [a3]; exact hg
  obtain ⟨t1, t2, -⟩ := run_texts d.before s'
  have hf1 : (run s' (d.before.map Text.op)).files c.file = s'.files c.file ++ important d.before := texts_active hg' a1
  unfold runSingle
  generalize run s' (d.before.map Text.op) = s1 at t1 t2 hf1 ⊢
  have key : ∀ s2 : State, s2.loggers.find? c.file = some .info → s2.minLevel = s1.minLevel →
      s2.files c.file = s1.files c.file →
      ∀ r, (r = run s2 (d.body.map Text.op) ∨ r = step (run s2 (d.body.map Text.op)) (.removeFile d.file)) →
      r.files c.file = s.files c.file ++ important c.body ++ important d.all ∧ r.loggers.find? c.file = some .info := by
    intro s2 h1 h2 h3 r hr
    have hfile : (run s2 (d.body.map Text.op)).files c.file = s.files c.file ++ important c.body ++ important d.all := by
      rw [texts_active (by rw [h2, t2]; exact hg') h1, h3, hf1, a2]
      simp only [Single.all, important_append, List.append_assoc]
    have hlog : (run s2 (d.body.map Text.op)).loggers.find? c.file = some .info := by
      rw [(run_texts d.body s2).1]
      exact h1
    rcases hr with rfl | rfl
    · exact ⟨hfile, hlog⟩
    · refine ⟨(step_files_other _ _ _ (by simp)).1.trans hfile, ?_⟩
      rw [step_find]
      simp only
      rw [if_neg hne]
      exact hlog
  have hopen' : ∃ s2, (if d.save = true then addFile s1 d.file .info d.canOpen else (s1, true)) = (s2, true) ∧
      s2.loggers.find? c.file = some .info ∧ s2.minLevel = s1.minLevel ∧ s2.files c.file = s1.files c.file := by
    have h0 : s1.loggers.find? c.file = some .info := by rw [t1]; exact a1
    by_cases hs : d.save = true
    · rw [if_pos hs, hd hs]
      unfold addFile
      split
      · exact ⟨s1, rfl, h0, rfl, rfl⟩
      · exact ⟨_, rfl, by rw [← h0]; exact AMap.find?_set_ne _ _ (Ne.symm hne), rfl, rfl⟩
    · rw [if_neg hs]
      exact ⟨s1, rfl, h0, rfl, rfl⟩
  obtain ⟨s2, h0, h1, h2, h3⟩ := hopen'
  simp only [h0, if_true]
  cases d.ending with
  | finished => exact key s2 h1 h2 h3 _ (Or.inr rfl)
  | tooFew => exact key s2 h1 h2 h3 _ (Or.inl rfl)
  | exception => exact key s2 h1 h2 h3 _ (Or.inl rfl)

/-- Without saving the processing a relocation writes to no file that is not a log, but when it ends normally it closes a log
called like its file, which somebody else may have opened. -/
theorem single_unsaved {s : State} {c : Single} (hsave : c.save = false) :
    (∀ n, s.Unused n → (runSingle s c).files n = s.files n) ∧
    (∀ n, n ≠ c.file → (runSingle s c).loggers.find? n = s.loggers.find? n) ∧
    (c.ending = .finished → (runSingle s c).Unused c.file) := by
  obtain ⟨t1, -, -⟩ := run_texts c.before s
  obtain ⟨u1, -, -⟩ := run_texts c.body (run s (c.before.map Text.op))
  have hf : ∀ n, s.Unused n → (run (run s (c.before.map Text.op)) (c.body.map Text.op)).files n = s.files n := by
    intro n hn
    rw [texts_unused (unused_texts _ hn), texts_unused hn]
  unfold runSingle
  simp only [hsave, Bool.false_eq_true, if_false, if_true]
  cases c.ending with
  | finished =>
    refine ⟨fun n hn => (step_files_other _ _ _ (by simp)).1.trans (hf n hn), fun n hn => ?_, fun _ => ?_⟩
    · rw [step_find]
      simp only
      rw [if_neg (Ne.symm hn), u1, t1]
    · unfold State.Unused
      rw [step_find]
      simp
  | tooFew => exact ⟨hf, fun n _ => by rw [u1, t1], by simp⟩
  | exception => exact ⟨hf, fun n _ => by rw [u1, t1], by simp⟩

/-- If the log file of a relocation, not in use as a log, cannot be opened, the relocation ends there: of its messages only those
before the file are logged, and no file is left open. -/
theorem single_cannot_open {s : State} {c : Single} (hsave : c.save = true) (hopen : c.canOpen = false) (hun : s.Unused c.file) :
    runSingle s c = run s (c.before.map Text.op) ∧ (runSingle s c).files c.file = s.files c.file ∧
    ∀ n, (runSingle s c).loggers.find? n = s.loggers.find? n := by
  have hu1 : (run s (c.before.map Text.op)).loggers.find? c.file = none := unused_texts c.before hun
  have hr : runSingle s c = run s (c.before.map Text.op) := by
    unfold runSingle
    simp only [hsave, hopen, addFile, hu1, if_true, Bool.false_eq_true, if_false]
  exact ⟨hr, by rw [hr, texts_unused hun], fun n => by rw [hr, (run_texts c.before s).1]⟩

/-! ## the relocation of the catalog -/

/-- The same for a relocation of the catalog: it throws, whether the file of the catalog or one of a cluster cannot be opened. -/
theorem multi_cannot_open {s : State} {c : Multi} (hsave : c.save = true) (hun : s.Unused c.file)
    (h : c.canOpen = false ∨ ∃ d ∈ c.clusters, d.canOpen = false ∧ s.Unused d.file)
    (hd : (c.file :: c.clusters.map Cluster.file).Nodup) :
    (runMulti s c).2 = false ∧
    (c.canOpen = false → (runMulti s c).1 = run s (c.before.map Text.op)) := by
  have hu1 : (run s (c.before.map Text.op)).loggers.find? c.file = none := unused_texts c.before hun
  by_cases hopen : c.canOpen = false
  · have hr : runMulti s c = (run s (c.before.map Text.op), false) := by
      unfold runMulti
      simp only [hsave, hopen, addFile, hu1, if_true, Bool.false_eq_true, if_false]
    rw [hr]; exact ⟨rfl, fun _ => rfl⟩
  · refine ⟨?_, fun h => absurd h hopen⟩
    obtain ⟨d, hdm, hdo, hdu⟩ := h.resolve_left hopen
    simp only [List.nodup_cons] at hd
    have key : ∀ (cs : List Cluster) (t : State), d ∈ cs → (cs.map Cluster.file).Nodup → t.Unused d.file →
        (runClusters true t cs).2 = false := by
      intro cs
      induction cs with
      | nil => intro t hm; cases hm
      | cons e cs ih =>
        intro t hm hnd htu
        have ht1 : (run t (e.before.map Text.op)).Unused d.file := unused_texts _ htu
        simp only [List.map_cons, List.nodup_cons] at hnd
        unfold runClusters
        simp only [if_true]
        rcases List.mem_cons.1 hm with rfl | hm'
        · have : (run t (d.before.map Text.op)).loggers.find? d.file = none := ht1
          simp only [addFile, this, hdo, Bool.false_eq_true, if_false]
        · have hne : d.file ≠ e.file := fun he => hnd.1 (he ▸ List.mem_map.2 ⟨d, hm', rfl⟩)
          split
          · split
            · refine ih _ hm' hnd.2 ?_
              show (step _ _).loggers.find? d.file = none
              show (AMap.erase _ _).find? d.file = none
              rw [AMap.find?_erase]
              rw [if_neg hne]
              rw [(run_texts e.body _).1]
              unfold addFile
              cases hfe : (run t (e.before.map Text.op)).loggers.find? e.file with
              | some _ => exact ht1
              | none =>
                cases e.canOpen with
                | false => exact ht1
                | true =>
                  show (AMap.set _ _ _).find? d.file = none
                  rw [AMap.find?_set, if_neg hne]; exact ht1
            · rfl
          · rfl
    unfold runMulti
    have hc : c.canOpen = true := by simpa using hopen
    simp only [hsave, hc, addFile_new hu1, if_true]
    have hne : d.file ≠ c.file := fun he => hd.1 (he ▸ List.mem_map.2 ⟨d, hdm, rfl⟩)
    have hu2 : ({ run s (c.before.map Text.op) with
        loggers := (run s (c.before.map Text.op)).loggers.set c.file .info } : State).Unused d.file := by
      show (AMap.set _ _ _).find? d.file = none
      rw [AMap.find?_set, if_neg hne]
      exact unused_texts c.before hdu
    have hk := key c.clusters _ hdm hd.2 (unused_texts c.start hu2)
    simp only [hk, Bool.false_eq_true, if_false]

/-- the relocation of two clusters, the second of which cannot open its file -/
example : (runMulti (init fun _ => []) ⟨true, "all", true, [], [], [⟨[], "1", true, [], true⟩, ⟨[], "2", false, [], true⟩], [], true⟩).2 = false := by
  decide +kernel

/-- A relocation of the catalog that ends appends to `relocation.log` its messages of level `info` and higher after opening the
file, those of the clusters included, and to the file of each cluster the messages of that cluster only.  All logs are closed
again, and files that are not logs stay as they are. -/
theorem multi_finished {s : State} {c : Multi} (hsave : c.save = true) (hopen : c.canOpen = true) (hend : c.ended = true)
    (hun : s.Unused c.file) (hg : s.minLevel.rank ≤ Level.info.rank)
    (hcl : ∀ d ∈ c.clusters, d.canOpen = true ∧ d.ended = true ∧ s.Unused d.file)
    (hd : (c.file :: c.clusters.map Cluster.file).Nodup) :
    (runMulti s c).2 = true ∧
    (runMulti s c).1.files c.file = s.files c.file ++ important (c.start ++ texts c.clusters ++ c.last) ∧
    (∀ d ∈ c.clusters, (runMulti s c).1.files d.file = s.files d.file ++ important d.body) ∧
    (∀ n, n ∉ c.file :: c.clusters.map Cluster.file → s.Unused n → (runMulti s c).1.files n = s.files n) ∧
    ∀ n, (runMulti s c).1.loggers.find? n = s.loggers.find? n := by
  obtain ⟨t1, t2, -⟩ := run_texts c.before s
  have hu1 := unused_texts c.before hun
  have hf1 : ∀ n, s.Unused n → (run s (c.before.map Text.op)).files n = s.files n := fun n hn => texts_unused hn
  unfold runMulti
  simp only [hsave, if_true, hopen, hend, addFile_new hu1]
  generalize run s (c.before.map Text.op) = s1 at t1 t2 hu1 hf1 ⊢
  generalize hs2 : ({ s1 with loggers := s1.loggers.set c.file .info } : State) = s2
  have hl2 : s2.loggers.find? c.file = some .info := by rw [← hs2]; exact AMap.find?_set_self ..
  have hl2n : ∀ n, n ≠ c.file → s2.loggers.find? n = s.loggers.find? n := by
    intro n hn
    rw [← hs2, ← t1]
    exact AMap.find?_set_ne _ _ hn
  have hm2 : s2.minLevel = s.minLevel := by rw [← hs2, ← t2]
  have hf2 : s2.files = s1.files := by rw [← hs2]
  obtain ⟨v1, v2, -⟩ := run_texts c.start s2
  have v3 := texts_active (ts := c.start) (by rw [hm2]; exact hg) hl2
  have v4 : ∀ n, s2.Unused n → (run s2 (c.start.map Text.op)).files n = s2.files n := fun n hn => texts_unused hn
  generalize run s2 (c.start.map Text.op) = s3 at v1 v2 v3 v4 ⊢
  simp only [List.nodup_cons] at hd
  have hdf : ∀ d ∈ c.clusters, d.file ≠ c.file := fun d hd' h => hd.1 (h ▸ List.mem_map_of_mem hd')
  obtain ⟨k1, k2, k3, k4, k5, k6⟩ := clusters_logs c.clusters s3 (by rw [v2, hm2]; exact hg) (by rw [v1]; exact hl2)
    (fun d hd' => ⟨(hcl d hd').1, (hcl d hd').2.1⟩)
    (fun d hd' => by unfold State.Unused; rw [v1, hl2n _ (hdf d hd')]; exact (hcl d hd').2.2) hd.2
  generalize runClusters true s3 c.clusters = r at k1 k2 k3 k4 k5 k6 ⊢
  simp only [k1, if_true]
  have hun3 : ∀ n, n ≠ c.file → s.Unused n → s3.Unused n := fun n hn hu => by
    unfold State.Unused; rw [v1, hl2n n hn]; exact hu
  have hfin : ∀ n, (step (run r.1 (c.last.map Text.op)) (.removeFile c.file)).files n =
      (run r.1 (c.last.map Text.op)).files n := fun n => (step_files_other _ _ _ (by simp)).1
  refine ⟨trivial, ?_, fun d hd' => ?_, fun n hn hu => ?_, fun n => ?_⟩
  · rw [hfin, texts_active (by rw [k2, v2, hm2]; exact hg) (by rw [k3, v1]; exact hl2), k4, v3, hf2, hf1 _ hun]
    simp only [important_append, List.append_assoc]
  · have hu := (hcl d hd').2.2
    have hu3 := hun3 _ (hdf d hd') hu
    rw [hfin, texts_unused (by unfold State.Unused; rw [k3]; exact hu3), k5 d hd',
      v4 _ (by unfold State.Unused; rw [hl2n _ (hdf d hd')]; exact hu), hf2, hf1 _ hu]
  · simp only [List.mem_cons, not_or] at hn
    have hu3 := hun3 _ hn.1 hu
    rw [hfin, texts_unused (by unfold State.Unused; rw [k3]; exact hu3), k6 n hu3 hn.2,
      v4 _ (by unfold State.Unused; rw [hl2n _ hn.1]; exact hu), hf2, hf1 _ hu]
  · rw [step_find]
    simp only
    by_cases hn : c.file = n
    · subst hn
      rw [if_pos rfl]
      exact hun.symm
    · rw [if_neg hn, (run_texts c.last r.1).1, k3, v1, hl2n _ (Ne.symm hn)]

/-- A relocation of the catalog that throws after opening its file leaves it open as a log. -/
theorem multi_leaves_open {s : State} {c : Multi} (hsave : c.save = true) (hopen : c.canOpen = true) (hun : s.Unused c.file)
    (hne : ∀ d ∈ c.clusters, d.file ≠ c.file) (hthrow : (runMulti s c).2 = false) :
    (runMulti s c).1.loggers.find? c.file = some .info := by
  have hu1 := unused_texts c.before hun
  revert hthrow
  unfold runMulti
  simp only [hsave, if_true, hopen, addFile_new hu1]
  generalize run s (c.before.map Text.op) = s1
  generalize hs2 : ({ s1 with loggers := s1.loggers.set c.file .info } : State) = s2
  have hl2 : s2.loggers.find? c.file = some .info := by rw [← hs2]; exact AMap.find?_set_self ..
  have hl3 : (run s2 (c.start.map Text.op)).loggers.find? c.file = some .info := by rw [(run_texts _ s2).1]; exact hl2
  have hl4 := clusters_keep true c.clusters _ hl3 hne
  generalize runClusters true (run s2 (c.start.map Text.op)) c.clusters = r at hl4
  split
  · split
    · simp
    · intro _
      rw [(run_texts _ r.1).1]
      exact hl4
  · intro _
    exact hl4

/-! ## an example -/

namespace Example

instance (s : State) (name : String) : Decidable (s.Unused name) := inferInstanceAs (Decidable (_ = none))

def text (l : Level) (t : String) : Text := ⟨true, l, t⟩

/-- two relocations: the first finds too few neighbours -/
def first : Single := ⟨true, "d1/relocation.log", true, [text .info "Saving processing data in d1"],
  [text .info "Found 2 neighbouring events", text .debug "x"], .tooFew⟩
def second : Single := ⟨true, "d2/relocation.log", true, [text .info "Saving processing data in d2"],
  [text .info "Found 9 neighbouring events", text .warning "y"], .finished⟩

def start : State := init fun n => if n = "d1/relocation.log" then [(.info, "old")] else []

/-- the log of the first relocation has the messages of the second one -/
example :
    let s := runSingle (runSingle start first) second
    s.files "d1/relocation.log" = [(.info, "old"), (.info, "Found 2 neighbouring events"),
      (.info, "Saving processing data in d2"), (.info, "Found 9 neighbouring events"), (.warning, "y")] ∧
    s.files "d2/relocation.log" = [(.info, "Found 9 neighbouring events"), (.warning, "y")] := by decide +kernel

example : start.Unused first.file ∧ first.ending ≠ .finished ∧ start.minLevel.rank ≤ Level.info.rank := by decide +kernel

/-- the other order keeps them apart -/
example : ∀ c ∈ [second, { first with ending := .finished }],
    c.save = true ∧ c.canOpen = true ∧ c.ending = .finished ∧ start.Unused c.file := by decide +kernel

/-- a catalog with two clusters -/
def multi : Multi := ⟨true, "m/relocation.log", true, [text .info "Starting"], [text .info "Found 2 event clusters"],
  [⟨[text .info "Relocating cluster 1"], "m/cluster-1-relocation.log", true, [text .info "a"], true⟩,
   ⟨[text .info "Relocating cluster 2"], "m/cluster-2-relocation.log", true, [text .debug "b", text .info "c"], true⟩], [], true⟩

example :
    let s := (runMulti start multi).1
    s.files "m/relocation.log" = [(.info, "Found 2 event clusters"), (.info, "Relocating cluster 1"), (.info, "a"),
      (.info, "Relocating cluster 2"), (.info, "c")] ∧
    s.files "m/cluster-1-relocation.log" = [(.info, "a")] ∧ s.files "m/cluster-2-relocation.log" = [(.info, "c")] ∧
    s.loggers = [] := by decide +kernel

example : start.Unused multi.file ∧ (∀ d ∈ multi.clusters, d.canOpen = true ∧ d.ended = true ∧ start.Unused d.file) ∧
    (multi.file :: multi.clusters.map Cluster.file).Nodup := by decide +kernel

/-- the second cluster throws: two logs stay open -/
def throwing : Multi := { multi with clusters := multi.clusters.map fun d => { d with ended := d.file == "m/cluster-1-relocation.log" } }

example : (runMulti start throwing).2 = false ∧ (∀ d ∈ throwing.clusters, d.file ≠ throwing.file) ∧
    (runMulti start throwing).1.loggers = [("m/cluster-2-relocation.log", .info), ("m/relocation.log", .info)] := by
  decide +kernel

/-- somebody's log named `relocation.log` is closed by a relocation that saves nothing -/
example : (runSingle (step start (.addFile "relocation.log" .debug true))
    ⟨false, "relocation.log", true, [], [], .finished⟩).loggers = [] := by decide +kernel

/-- a file added, removed and added again: the level is that of the second addition -/
example : Active [.addFile "f" .debug true, .removeFile "f", .addFile "f" .error false, .addFile "f" .warning true,
    .addFile "f" .info true] "f" .warning :=
  ⟨[.addFile "f" .debug true, .removeFile "f"], [.addFile "f" .error false], [.addFile "f" .info true], rfl,
    Or.inr ⟨[.addFile "f" .debug true], rfl⟩, by simp, by simp⟩

end Example

end Verif.Log
