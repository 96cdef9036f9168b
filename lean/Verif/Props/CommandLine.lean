import Verif.Spec.CommandLine
import Verif.Props.DaemonExample
import Verif.Props.Scheduler

/-!
# C90: relocation of the origins given on the command line
-/

set_option linter.unusedSimpArgs false

namespace Verif.CommandLine
open Verif.Catalog Verif.Daemon Spec Verif.Daemon.Spec
open Verif.Csv (Str)

/-! ## lists in the command line -/

theorem splitComma_item {x : Str} (h : ',' ∉ x) : ∀ (cur : Str) (gap : Bool) (s : Str),
    splitComma cur gap (x ++ s) = if x = [] then splitComma cur gap s else splitComma (cur ++ x) false s := by
  induction x with
  | nil => intro cur gap s; simp
  | cons c x ih =>
    intro cur gap s
    have hc : c ≠ ',' := by rintro rfl; simp at h
    rw [List.cons_append, splitComma, if_neg hc, ih (fun hm => h (List.mem_cons_of_mem _ hm))]
    by_cases hx : x = [] <;> simp [hx]

/-- **C90a** A list of texts with commas between them is read as these texts. -/
theorem tokens_commaSeparated {xs : List Str} (hne : xs ≠ []) (h : ∀ x ∈ xs, Item x) : tokens (commaSeparated xs) = xs := by
  suffices hs : ∀ gap, splitComma [] gap (commaSeparated xs) = xs from hs false
  induction xs with
  | nil => exact absurd rfl hne
  | cons x xs ih =>
    intro gap
    have hx := h x (by simp)
    cases xs with
    | nil =>
      have := splitComma_item hx.2 [] gap []
      rw [List.append_nil, if_neg hx.1] at this
      simpa [commaSeparated, splitComma] using this
    | cons y ys =>
      simp only [commaSeparated]
      rw [splitComma_item hx.2, if_neg hx.1, splitComma, if_pos rfl]
      simp only [List.nil_append, Bool.false_eq_true, if_false]
      exact congrArg _ (ih (by simp) (fun z hz => h z (by simp [hz])) true)

example : tokens "o1,o2,,o3".toList = ["o1".toList, "o2".toList, "o3".toList] := by decide +kernel

/-- a comma at the end adds an empty text -/
example : tokens "o1,".toList = ["o1".toList, []] := by decide +kernel

/-! ## the origins -/

/-- the operations of the application (C80) that correspond to the origins -/
def addsOf (xs : List Given) : List Op := xs.map (fun x => .add x.t x.now (.origin x.o) x.w)

/-- everything about the state after some origins -/
structure After (cfg : Config) (profiles : List Profile) (xs : List Given) (s : State) : Prop where
  inv : Inv profiles (addsOf xs) s
  sched : ∃ arrivals : List (Int × Int × String × Bool), arrivals.map (fun a => (a.1, a.2.1, a.2.2.1)) =
    xs.map (fun x => (x.t, x.now, x.o.org.publicID)) ∧ s.sched = Scheduler.runOffline cfg.sched arrivals
  loaded : ∀ (i : Nat) p a, s.profs[i]? = some (p, a) → a.dd = loadedBy xs p
  results : ∃ news : List (Option Published), news.length = xs.length ∧
    (∀ i x new, xs[i]? = some x → news[i]? = some new → Result cfg profiles (xs.take (i + 1)) x new) ∧
    s.stored = (xs.zip news).flatMap (fun a => if a.1.w.eventParameters.isSome then a.2.toList else []) ∧
    s.sent = (xs.zip news).flatMap (fun a => if a.1.w.connected && !cfg.testMode then a.2.toList else [])

theorem started_of {cfg : Config} {xs : List Given} {s : State}
    (h : ∃ arrivals : List (Int × Int × String × Bool), arrivals.map (fun a => (a.1, a.2.1, a.2.2.1)) =
      xs.map (fun x => (x.t, x.now, x.o.org.publicID)) ∧ s.sched = Scheduler.runOffline cfg.sched arrivals)
    (hc : ∀ x ∈ xs, x.t ≤ x.now) : s.sched.started = xs.map (fun x => (x.now, x.o.org.publicID)) := by
  obtain ⟨arr, h1, h2⟩ := h
  rw [h2, Scheduler.scheduler_offline_exact]
  · have := congrArg (List.map (fun a : Int × Int × String => (a.2.1, a.2.2))) h1
    simpa [List.map_map, Function.comp_def] using this
  · intro a ha
    have : (a.1, a.2.1, a.2.2.1) ∈ xs.map (fun x => (x.t, x.now, x.o.org.publicID)) := by
      rw [← h1]; exact List.mem_map.2 ⟨a, ha, rfl⟩
    obtain ⟨x, hx, he⟩ := List.mem_map.1 this
    have e1 : x.t = a.1 := congrArg (·.1) he
    have e2 : x.now = a.2.1 := congrArg (·.2.1) he
    rw [← e1, ← e2]
    exact hc x hx

theorem After.init (cfg : Config) (profiles : List Profile) (start : Int) : After cfg profiles [] (init cfg profiles start) where
  inv := Inv.init cfg profiles start
  sched := ⟨[], rfl, rfl⟩
  loaded := by
    intro i p a h
    unfold Daemon.init at h
    simp only [List.getElem?_map] at h
    obtain ⟨q, -, hq⟩ := Option.map_eq_some_iff.1 h
    cases hq
    rfl
  results := ⟨[], rfl, by simp, rfl, rfl⟩

theorem inv_cron {profiles : List Profile} {ops : List Op} {s : State} (h : Inv profiles ops s) (c : Int) :
    Inv profiles ops { s with sched := { s.sched with cron := c } } :=
  ⟨⟨h.sched.keys, h.sched.key, h.sched.nodup, h.sched.queued⟩, h.objs, h.consistent, h.profiles⟩

theorem loadedBy_snoc (xs : List Given) (x : Given) (p : Profile) :
    loadedBy (xs ++ [x]) p = (loadedBy xs p).or (x.w.load p) := by
  unfold loadedBy
  rw [List.findSome?_append]
  simp [List.findSome?]
  cases x.w.load p <;> rfl

theorem change_loaded {w : World} {now : Int} {p : Profile} {a b : ProfileState} (hc : a.loaded = a.dd.isSome) (h : Change w now p a b) :
    b.dd = a.dd.or (w.load p) := by
  cases hd : a.dd with
  | some dd =>
    rw [(h.1 (by rw [hc, hd]; rfl)).2.1, hd]; rfl
  | none =>
    obtain ⟨h1, h2⟩ := h.2 (by rw [hc, hd]; rfl)
    cases hl : w.load p with
    | none => rw [h2 hl]; rfl
    | some dd => rw [h1 dd hl]; rfl

theorem After.next {cfg : Config} {profiles : List Profile} {xs : List Given} {s s' : State} {x : Given} (h : After cfg profiles xs s)
    (hs : Sane (xs ++ [x])) (he : relocateNow cfg s x = .ok s') : After cfg profiles (xs ++ [x]) s' := by
  have hops : addsOf (xs ++ [x]) = addsOf xs ++ [.add x.t x.now (.origin x.o) x.w] := by simp [addsOf]
  set s0 : State := { s with sched := { s.sched with cron := 0 } } with hs0
  have hb : Inv profiles (addsOf (xs ++ [x])) (schedule (forced cfg) x.t (.origin x.o) s0) := by
    rw [hops]
    exact ((inv_cron h.inv 0).mono (fun o ho => by simp [ho])).schedule (now := x.now) (w := x.w) (by simp)
  have hm := handleTimeout_moment hb he
  obtain ⟨b1, b2, b3, -, b5⟩ := schedule_state (forced cfg) x.t (.origin x.o) s0
  have hsched : ∃ arrivals : List (Int × Int × String × Bool), arrivals.map (fun a => (a.1, a.2.1, a.2.2.1)) =
      (xs ++ [x]).map (fun x => (x.t, x.now, x.o.org.publicID)) ∧ s'.sched = Scheduler.runOffline cfg.sched arrivals := by
    obtain ⟨arr, h1, h2⟩ := h.sched
    obtain ⟨ok, hok⟩ := hm.sched
    refine ⟨arr ++ [(x.t, x.now, x.o.org.publicID, ok)], by simp [h1], ?_⟩
    rw [hok]
    show Scheduler.runNewJobs _ _ _ (Scheduler.schedule _ _ _ { s.sched with cron := 0 }) = _
    rw [h2]
    simp [Scheduler.runOffline, List.foldl_append, Scheduler.addProcess, forced, Obj.publicID]
  have hloaded : ∀ (i : Nat) p a, s'.profs[i]? = some (p, a) → a.dd = loadedBy (xs ++ [x]) p := by
    intro i p b hi
    have hlen : s'.profs.map Prod.fst = s.profs.map Prod.fst := hm.inv.profiles.trans h.inv.profiles.symm
    have hp : (s.profs.map Prod.fst)[i]? = some p := by rw [← hlen, List.getElem?_map, hi]; rfl
    rw [List.getElem?_map] at hp
    obtain ⟨⟨q, a⟩, ha, rfl⟩ := Option.map_eq_some_iff.1 hp
    obtain ⟨b', hb', hch⟩ := hm.change i q a (by rw [b1]; exact ha)
    rw [hi] at hb'
    cases hb'
    rw [change_loaded (h.inv.consistent _ (List.mem_of_getElem? ha)) hch, h.loaded i q a ha, loadedBy_snoc]
  -- exactly the given origin is relocated
  have hst : s.sched.started = xs.map (fun x => (x.now, x.o.org.publicID)) :=
    started_of h.sched (fun y hy => hs.1 y (by simp [hy]))
  have hst' : s'.sched.started = s.sched.started ++ [(x.now, x.o.org.publicID)] := by
    rw [started_of hsched hs.1, hst]; simp
  have hjob : ∃ again new, startProcess (forced cfg) x.w x.now (.origin x.o) (s.profs.map (checked (forced cfg) x.w x.now)) =
        .ok (again, s'.profs, new) ∧
      s'.stored = s.stored ++ (if x.w.eventParameters.isSome then new.toList else []) ∧
      s'.sent = s.sent ++ (if x.w.connected && !cfg.testMode then new.toList else []) := by
    rcases hm.jobs with ⟨k1, -, -⟩ | ⟨obj, again, new, ⟨t, now, w, k1⟩, k2, k3, k4, k5⟩
    · rw [k1, b5] at hst'
      have := congrArg List.length hst'
      simp [hs0] at this
    · rw [b5] at k3
      rw [hst'] at k3
      have hid : obj.publicID = x.o.org.publicID := by
        have := List.append_cancel_left k3
        simpa using this.symm
      obtain ⟨y, hy, hy'⟩ := List.mem_map.1 k1
      cases hy'
      have : y.o = x.o := hs.2 y hy x (by simp) hid
      rw [this, b1] at k2
      rw [b2] at k4
      rw [b3] at k5
      exact ⟨again, new, k2, k4, k5⟩
  obtain ⟨again, new, j1, j2, j3⟩ := hjob
  refine ⟨hm.inv, hsched, hloaded, ?_⟩
  obtain ⟨news, n1, n2, n3, n4⟩ := h.results
  refine ⟨news ++ [new], by simp [n1], ?_, ?_, ?_⟩
  · intro i y new' hy hnew
    by_cases hi : i < xs.length
    · rw [List.getElem?_append_left hi] at hy
      rw [List.getElem?_append_left (by omega)] at hnew
      rw [List.take_append_of_le_length (by omega)]
      exact n2 i y new' hy hnew
    · have hi' : i = xs.length := by
        have := (List.getElem?_eq_some_iff.1 hy).1
        simp at this; omega
      subst hi'
      rw [List.getElem?_append_right (by omega)] at hy
      rw [List.getElem?_append_right (by omega), n1] at hnew
      simp only [Nat.sub_self, List.getElem?_cons_zero, Option.some.injEq] at hy hnew
      subst hy; subst hnew
      rw [List.take_of_length_le (by simp)]
      have hprofs : (s.profs.map (checked (forced cfg) x.w x.now)).map Prod.fst = profiles :=
        (map_fst_checked _ _ _ _).trans h.inv.profiles
      rcases job_result j1 with ⟨hno, -, -, hn⟩ | ⟨o, i, p, st, ⟨h1, h2, h3⟩, hi, -, hr⟩
      · refine .inl ⟨fun i p hf => hno ⟨x.o, i, rfl, .inl rfl, (chosen_firstFit hprofs).2 ⟨p, hf⟩⟩, hn⟩
      · obtain ⟨q, hq⟩ := (chosen_firstFit hprofs).1 h3
        have hqp : q = p := by
          have := hq.1
          rw [← hprofs, List.getElem?_map, hi] at this
          cases this; rfl
        subst hqp
        cases h1
        have hlt := (List.getElem?_eq_some_iff.1 hi).1
        refine .inr ⟨i, q, hq, ?_⟩
        rcases hr with ⟨-, -, g3, g4⟩ | ⟨dd, -, g2, g3⟩
        · exact .inl ⟨(hloaded i q ⟨false, none, x.now⟩ (by rw [g4]; exact List.getElem?_set_self hlt)).symm, g3⟩
        · exact .inr ⟨dd, (hloaded i q ⟨true, some dd, x.now⟩ (by rw [g2]; exact List.getElem?_set_self hlt)).symm, g3⟩
  · rw [j2, n3, List.zip_append n1.symm]; simp
  · rw [j3, n4, List.zip_append n1.symm]; simp

theorem relocateAll_after {cfg : Config} {profiles : List Profile} {start : Int} {xs : List Given} {s : State} (hs : Sane xs)
    (h : relocateAll cfg xs (init cfg profiles start) = .ok s) : After cfg profiles xs s := by
  induction xs using List.reverseRecOn generalizing s with
  | nil => cases h; exact After.init cfg profiles start
  | append_singleton xs x ih =>
    unfold relocateAll at h
    rw [foldlM_snoc] at h
    obtain ⟨s0, h0, h1⟩ := bind_eq_ok h
    exact (ih ⟨fun y hy => hs.1 y (by simp [hy]), fun y hy z hz => hs.2 y (by simp [hy]) z (by simp [hz])⟩ h0).next hs h1

/-- **C90b** Every given origin is relocated exactly once, at once and in the given order, whatever the configured filters and
delays are: with the first profile in charge, as it was first loaded. The results are added to the event parameters, and sent
if messages are sent, in this order; there is nothing else. -/
theorem given_origins_relocated {cfg : Config} {profiles : List Profile} {start : Int} {xs : List Given} {s : State} (hs : Sane xs)
    (h : relocateAll cfg xs (init cfg profiles start) = .ok s) :
    s.sched.started = xs.map (fun x => (x.now, x.o.org.publicID)) ∧
    ∃ news : List (Option Published), news.length = xs.length ∧
      (∀ i x new, xs[i]? = some x → news[i]? = some new → Result cfg profiles (xs.take (i + 1)) x new) ∧
      s.stored = (xs.zip news).flatMap (fun a => if a.1.w.eventParameters.isSome then a.2.toList else []) ∧
      s.sent = (xs.zip news).flatMap (fun a => if a.1.w.connected && !cfg.testMode then a.2.toList else []) := by
  have ha := relocateAll_after hs h
  exact ⟨started_of ha.sched hs.1, ha.results⟩

theorem relocateIds_eq (cfg : Config) (moments : Nat → Int × Int × World) : ∀ (ids : List Str) (k : Nat) (s : State),
    relocateIds cfg moments k ids s = relocateAll cfg ((ids.zipIdx k).filterMap (fun a => ((moments a.2).2.2.origins (String.ofList a.1)).map
      (fun o => ⟨o, (moments a.2).1, (moments a.2).2.1, (moments a.2).2.2⟩))) s
  | [], _, s => rfl
  | id :: ids, k, s => by
    rw [List.zipIdx_cons, relocateIds]
    cases ho : (moments k).2.2.origins (String.ofList id) with
    | none =>
      rw [List.filterMap_cons_none (by simp [ho])]
      exact relocateIds_eq cfg moments ids (k + 1) s
    | some o =>
      rw [List.filterMap_cons_some (f := fun a : Str × Nat => ((moments a.2).2.2.origins (String.ofList a.1)).map
        (fun o => (⟨o, (moments a.2).1, (moments a.2).2.1, (moments a.2).2.2⟩ : Given)))
        (b := ⟨o, (moments k).1, (moments k).2.1, (moments k).2.2⟩) (by simp [ho])]
      show (relocateNow cfg s _ >>= _) = _
      unfold relocateAll
      rw [List.foldlM_cons]
      congr 1
      funext s'
      exact relocateIds_eq cfg moments ids (k + 1) s'

theorem flatMap_zip {A B : Type} (f : A → Bool) : ∀ (l : List (Option B)) (xs : List A), l.length = xs.length → (∀ x ∈ xs, f x = true) →
    (xs.zip l).flatMap (fun a => if f a.1 then a.2.toList else []) = l.flatMap Option.toList
  | [], xs, _, _ => by simp
  | a :: l, [], hl, _ => (by cases hl)
  | a :: l, x :: xs, hl, hf => by
    rw [List.zip_cons_cons, List.flatMap_cons, List.flatMap_cons,
      flatMap_zip f l xs (by simpa using hl) (fun y hy => hf y (by simp [hy]))]
    simp [hf x (by simp)]

/-- **C90c** The option with a list of origin ids: those that are found are relocated, in the order of the list, and the others
are skipped. All results are in the XML output if there is one; they are sent if there is a connection and neither a test nor
XML output was asked for. -/
theorem origin_ids_relocated {cfg : Config} {profiles : List Profile} {start : Int} {o : Options} {moments : Nat → Int × Int × World}
    {ids : List Str} {s : State} (hne : ids ≠ []) (hids : ∀ x ∈ ids, Item x) (ho : o.originIDs = commaSeparated ids)
    (hs : Sane (found (surroundings o moments) ids)) (h : relocateOrigins cfg profiles start o moments = .ok s) :
    s.sched.started = (found (surroundings o moments) ids).map (fun x => (x.now, x.o.org.publicID)) ∧
    ∃ news : List (Option Published), news.length = (found (surroundings o moments) ids).length ∧
      (∀ i x new, (found (surroundings o moments) ids)[i]? = some x → news[i]? = some new →
        Result cfg profiles ((found (surroundings o moments) ids).take (i + 1)) x new) ∧
      (o.eventXML ≠ [] ∨ o.xmlout = true → s.stored = news.flatMap Option.toList) ∧
      (o.test = true ∨ o.eventXML ≠ [] ∨ o.xmlout = true → s.sent = []) ∧
      (offline o = false → o.test = false → o.xmlout = false → (∀ i, (moments i).2.2.connected = true) →
        s.sent = news.flatMap Option.toList) := by
  have hw : ∀ x ∈ found (surroundings o moments) ids, ∃ i, x.w = sees o (moments i).2.2 := by
    intro x hx
    unfold found at hx
    obtain ⟨a, -, ha⟩ := List.mem_filterMap.1 hx
    obtain ⟨org, -, rfl⟩ := Option.map_eq_some_iff.1 ha
    exact ⟨a.2, rfl⟩
  unfold relocateOrigins at h
  simp only at h
  rw [ho, tokens_commaSeparated hne hids, relocateIds_eq] at h
  have hr := given_origins_relocated (start := start) (profiles := profiles) (cfg := { cfg with testMode := testMode o })
    (xs := found (surroundings o moments) ids) hs h
  obtain ⟨h1, news, h2, h3, h4, h5⟩ := hr
  refine ⟨h1, news, h2, h3, ?_, ?_, ?_⟩
  · intro hx
    rw [h4]
    refine flatMap_zip (fun x => x.w.eventParameters.isSome) news _ h2 ?_
    intro x hx'
    obtain ⟨i, hi⟩ := hw x hx'
    rw [hi]
    have : (o.eventXML ≠ [] || o.xmlout) = true := by simpa using hx
    simp only [sees, this, if_true, Option.isSome_some]
  · intro hx
    rw [h5]
    rw [List.flatMap_eq_nil_iff]
    intro a ha
    rw [if_neg]
    obtain ⟨i, hi⟩ := hw a.1 (List.of_mem_zip ha).1
    rw [hi]
    have hid : o.originIDs ≠ [] := by
      rw [ho]
      obtain ⟨y, ys, rfl⟩ := List.exists_cons_of_ne_nil hne
      have := (hids y (by simp)).1
      cases ys <;> simp [commaSeparated, this]
    simp only [sees, testMode, offline]
    by_cases he : o.eventXML = []
    · rcases hx with hx | hx | hx
      · simp [hx]
      · exact absurd he hx
      · simp [hx, he, hid]
    · simp [he]
  · intro ho' ht hxml hc
    rw [h5]
    refine flatMap_zip (fun x => x.w.connected && !testMode o) news _ h2 ?_
    intro x hx'
    obtain ⟨i, hi⟩ := hw x hx'
    rw [hi]
    simp [sees, testMode, ho', ht, hxml, hc]

/-- **C90d** The option with an XML file: all its origins are relocated in order, all results are in the XML output, and nothing
is sent. -/
theorem xml_origins_relocated {cfg : Config} {profiles : List Profile} {start : Int} {o : Options} {xs : List Given} {s : State}
    (ho : o.eventXML ≠ []) (hs : Sane xs) (h : relocateXml cfg profiles start o xs = .ok s) :
    s.sched.started = xs.map (fun x => (x.now, x.o.org.publicID)) ∧ s.sent = [] ∧
    ∃ news : List (Option Published), news.length = xs.length ∧ s.stored = news.flatMap Option.toList ∧
      (∀ i x new, xs[i]? = some x → news[i]? = some new →
        Result cfg profiles ((xs.take (i + 1)).map (fun x => { x with w := sees o x.w })) { x with w := sees o x.w } new) := by
  have hs' : Sane (xs.map (fun x => { x with w := sees o x.w })) := by
    refine ⟨?_, ?_⟩
    · intro x hx
      obtain ⟨y, hy, rfl⟩ := List.mem_map.1 hx
      exact hs.1 y hy
    · intro x hx y hy
      obtain ⟨x', hx', rfl⟩ := List.mem_map.1 hx
      obtain ⟨y', hy', rfl⟩ := List.mem_map.1 hy
      exact hs.2 x' hx' y' hy'
  obtain ⟨h1, news, h2, h3, h4, h5⟩ := given_origins_relocated (cfg := { cfg with testMode := testMode o }) hs' h
  refine ⟨by rw [h1, List.map_map]; rfl, ?_, news, by simpa using h2, ?_, ?_⟩
  · rw [h5, List.flatMap_eq_nil_iff]
    intro a ha
    simp [testMode, offline, ho]
  · rw [h4]
    refine flatMap_zip (fun x : Given => x.w.eventParameters.isSome) news _ h2 ?_
    intro x hx
    obtain ⟨y, -, rfl⟩ := List.mem_map.1 hx
    simp [sees, ho]
  · intro i x new hx hnew
    rw [List.map_take]
    exact h3 i _ new (by rw [List.getElem?_map, hx]; rfl) hnew

theorem mem_of_loadedBy {xs : List Given} {p : Profile} {dd : DD} (h : loadedBy xs p = some dd) : ∃ y ∈ xs, y.w.load p = some dd :=
  List.exists_of_findSome?_eq_some h

/-- **C90e** The command ends normally if all the given origins can be relocated. -/
theorem given_origins_succeed (cfg : Config) (profiles : List Profile) (start : Int) (xs : List Given) (hs : Sane xs)
    (h : ∀ x ∈ xs, Can cfg profiles xs x) : ∃ s, relocateAll cfg xs (init cfg profiles start) = .ok s := by
  suffices hall : ∀ ys, ys <+: xs → ∃ s, relocateAll cfg ys (init cfg profiles start) = .ok s from hall xs (List.prefix_refl _)
  intro ys
  induction ys using List.reverseRecOn with
  | nil => intro _; exact ⟨_, rfl⟩
  | append_singleton ys x ih =>
    intro hpre
    have hsub : ∀ y ∈ ys ++ [x], y ∈ xs := fun y hy => hpre.subset hy
    obtain ⟨s, h0⟩ := ih ((List.prefix_append ys [x]).trans hpre)
    have hsane : Sane (ys ++ [x]) := ⟨fun y hy => hs.1 y (hsub y hy), fun y hy z hz => hs.2 y (hsub y hy) z (hsub z hz)⟩
    have ha := relocateAll_after (xs := ys) ⟨fun y hy => hsane.1 y (by simp [hy]), fun y hy z hz => hsane.2 y (by simp [hy]) z (by simp [hz])⟩ h0
    unfold relocateAll at h0 ⊢
    rw [foldlM_snoc, h0]
    simp only [Outcome.bind_ok]
    set s0 : State := { s with sched := { s.sched with cron := 0 } } with hs0
    have hops : addsOf (ys ++ [x]) = addsOf ys ++ [.add x.t x.now (.origin x.o) x.w] := by simp [addsOf]
    have hb : Inv profiles (addsOf (ys ++ [x])) (schedule (forced cfg) x.t (.origin x.o) s0) := by
      rw [hops]
      exact ((inv_cron ha.inv 0).mono (fun o ho => by simp [ho])).schedule (now := x.now) (w := x.w) (by simp)
    have hbp := (schedule_state (forced cfg) x.t (.origin x.o) s0).1
    show ∃ s', handleTimeout (forced cfg) x.w x.now (schedule (forced cfg) x.t (.origin x.o) s0) = .ok s'
    rcases handleTimeout_cases hb (forced cfg) x.w x.now with ⟨t, h1, -⟩ | ⟨obj, sched1, ⟨t, now, w, hadd⟩, h2, hsch, hstart, -⟩
    · exact ⟨t, h1⟩
    · rw [h2]
      -- the process that is due is the one just added
      obtain ⟨z, hz, hz'⟩ := List.mem_map.1 hadd
      cases hz'
      have hsched : ∃ arrivals : List (Int × Int × String × Bool), arrivals.map (fun a => (a.1, a.2.1, a.2.2.1)) =
          (ys ++ [x]).map (fun x => (x.t, x.now, x.o.org.publicID)) ∧ sched1 true = Scheduler.runOffline cfg.sched arrivals := by
        obtain ⟨arr, k1, k2⟩ := ha.sched
        refine ⟨arr ++ [(x.t, x.now, x.o.org.publicID, true)], by simp [k1], ?_⟩
        rw [hsch]
        show Scheduler.runNewJobs _ _ _ (Scheduler.schedule _ _ _ { s.sched with cron := 0 }) = _
        rw [k2]
        simp [Scheduler.runOffline, List.foldl_append, Scheduler.addProcess, forced, Obj.publicID]
      have e1 := started_of (s := { s with sched := sched1 true }) hsched hsane.1
      have e2 := started_of ha.sched (fun y hy => hsane.1 y (by simp [hy]))
      have e3 := hstart true
      rw [(schedule_state (forced cfg) x.t (.origin x.o) s0).2.2.2.2] at e3
      simp only [hs0] at e1 e3
      rw [e1, e2, List.map_append] at e3
      have hid : z.o.org.publicID = x.o.org.publicID := by
        have := List.append_cancel_left e3
        simp [Obj.publicID] at this
        exact this.symm
      have hzx : z.o = x.o := hsane.2 z hz x (by simp) hid
      rw [hzx]
      have hloaded : ∀ y ∈ ys ++ [x], ∀ i p dd, profiles[i]? = some p → y.w.load p = some dd → LoadedIn profiles (addsOf (ys ++ [x])) i dd := by
        intro y hy i p dd hp hl
        obtain ⟨pre, post, hsplit⟩ := List.append_of_mem hy
        refine ⟨addsOf pre, .add y.t y.now (.origin y.o) y.w, addsOf post, y.now, y.w, p, by rw [hsplit]; simp [addsOf], rfl, hp, hl, ?_⟩
        intro op hop
        obtain ⟨u, -, rfl⟩ := List.mem_map.1 hop
        exact id
      have hcan := h x (hsub x (by simp))
      have hwork : Workable (forced cfg) profiles (addsOf (ys ++ [x])) x.w (.origin x.o) := by
        refine ⟨.inl hcan.database, hcan.move, ?_⟩
        intro o i p dd ht _ hf hl
        cases ht
        obtain ⟨pre, op, post, now, w, q, g1, g2, g3, g4, -⟩ := hl
        have hq : q = p := by
          have := hf.1
          rw [g3] at this
          exact Option.some.inj this
        subst hq
        have hop : op ∈ addsOf (ys ++ [x]) := by rw [g1]; simp
        obtain ⟨y, hy, rfl⟩ := List.mem_map.1 hop
        cases g2
        exact hcan.relocate i q dd hf ⟨y, hsub y hy, g4⟩
      obtain ⟨r, hr⟩ := job_survives (now := x.now) ((map_fst_checked (forced cfg) x.w x.now _).trans hb.profiles) hwork (by
        intro i p a hi
        rw [List.getElem?_map] at hi
        obtain ⟨⟨p', a0⟩, ha0, he⟩ := Option.map_eq_some_iff.1 hi
        have hpp : p' = p := congrArg Prod.fst he
        subst hpp
        have hch := checked_change (cfg := forced cfg) (w := x.w) (now := x.now) (p := p') (a := a0)
        rw [he] at hch
        simp only at hch
        have hcons := hb.consistent _ (List.mem_of_getElem? ha0)
        have hpi : profiles[i]? = some p' := by rw [← hb.profiles, List.getElem?_map, ha0]; rfl
        have hdd : a.dd = loadedBy (ys ++ [x]) p' := by
          rw [change_loaded hcons hch, loadedBy_snoc]
          rw [hbp] at ha0
          rw [ha.loaded i p' a0 ha0]
        refine ⟨change_consistent hch hcons, ?_, ?_⟩
        · intro dd hd
          rw [hdd] at hd
          obtain ⟨y, hy, hl⟩ := mem_of_loadedBy hd
          exact hloaded y hy i p' dd hpi hl
        · intro hla
          have hc := change_consistent hch hcons
          rw [hla, hdd, loadedBy_snoc] at hc
          cases hl : x.w.load p' with
          | none => rfl
          | some dd => rw [hl] at hc; cases hk : loadedBy ys p' <;> simp [hk] at hc)
      rw [hr]
      exact ⟨_, rfl⟩

namespace Example
open Verif.Daemon.Example (cfg world south all origin ok_of prepared_ok steps_ok dd)

/-- the origin is rejected in real time: it is manual and of another author -/
def rejected : Origin := { origin with manual := some true, author := some "other" }

def options : Options := { originIDs := "o1,none,o1".toList, xmlout := true }
def here : World :=
  { world with
    origins := fun id => if id = "o1" then some rejected else none
    eventParameters := none
    cache := { SeisComP.Example.cch with picks := SeisComP.Example.picks } }
def moments (i : Nat) : Int × Int × World := (100 + i, 100 + i, here)

/-- The origin is given twice and another one is not found: it is relocated twice, although it would not be wanted, and the results
are in the XML output. -/
example : (relocateOrigins cfg [south, all] 0 options moments >>= fun s => .ok s.sched.started) =
      Outcome.ok [((100 : Int), "o1"), (102, "o1")] ∧
    (relocateOrigins cfg [south, all] 0 options moments >>= fun s => .ok (s.stored.map (·.1.depth))) = Outcome.ok [.num 7, .num 7] ∧
    (relocateOrigins cfg [south, all] 0 options moments >>= fun s => .ok s.sent.length) = Outcome.ok 0 ∧
    (relocateOrigins cfg [south, all] 0 { options with xmlout := false } moments >>= fun s => .ok (s.sent.map (·.1.depth))) =
      Outcome.ok [.num 7, .num 7] := by decide +kernel

/-- the hypotheses of `origin_ids_relocated` are met -/
example : (∀ x ∈ ["o1".toList, "none".toList, "o1".toList], Item x) ∧
    options.originIDs = commaSeparated ["o1".toList, "none".toList, "o1".toList] ∧
    Sane (found (surroundings options moments) ["o1".toList, "none".toList, "o1".toList]) ∧
    ∃ s, relocateOrigins cfg [south, all] 0 options moments = .ok s := by
  refine ⟨?_, by decide +kernel, ?_, ok_of (by decide +kernel)⟩
  · intro x hx
    simp only [List.mem_cons, List.not_mem_nil, or_false] at hx
    rcases hx with rfl | rfl | rfl <;> exact ⟨by decide +kernel, by decide +kernel⟩
  · have hf : ∀ x ∈ found (surroundings options moments) ["o1".toList, "none".toList, "o1".toList], x.o = rejected ∧ x.t = x.now := by
      intro x hx
      obtain ⟨a, -, ha⟩ := List.mem_filterMap.1 hx
      obtain ⟨o, ho, rfl⟩ := Option.map_eq_some_iff.1 ha
      refine ⟨?_, rfl⟩
      have ho' : (if String.ofList a.1 = "o1" then some rejected else none) = some o := ho
      split at ho'
      · exact (Option.some.inj ho').symm
      · cases ho'
    exact ⟨fun x hx => le_of_eq (hf x hx).2, fun x hx y hy _ => by rw [(hf x hx).1, (hf y hy).1]⟩

/-- the hypotheses of `xml_origins_relocated`, `given_origins_relocated` and `given_origins_succeed` are met, for any number of times the origin is given -/
def times (n : Nat) : List Given := List.replicate n ⟨origin, 5, 5, world⟩

theorem times_sane (n : Nat) : Sane (times n) :=
  ⟨fun x hx => by rw [List.eq_of_mem_replicate hx], fun x hx y hy _ => by rw [List.eq_of_mem_replicate hx, List.eq_of_mem_replicate hy]⟩

example (n : Nat) : ∃ s, relocateAll cfg (times n) (init cfg [south, all] 0) = .ok s := by
  apply given_origins_succeed cfg [south, all] 0 (times n) (times_sane n)
  intro x hx
  have hx' := List.eq_of_mem_replicate hx
  subst hx'
  refine ⟨rfl, fun _ => rfl, ?_⟩
  intro i p d hf hd
  obtain ⟨y, hy, hl⟩ := hd
  rw [List.eq_of_mem_replicate hy] at hl
  have hdd : dd 7 = d := Option.some.inj hl
  subst hdd
  have hp : p = all := by
    obtain ⟨h1, h2, h3⟩ := hf
    have : i = 0 ∨ i = 1 ∨ 2 ≤ i := by omega
    rcases this with rfl | rfl | hi
    · cases h1
      unfold Fits at h2
      rw [if_pos (by decide)] at h2
      exact absurd h2 (by decide)
    · cases h1; rfl
    · rw [List.getElem?_eq_none (by simpa using hi)] at h1
      cases h1
  subst hp
  obtain ⟨cat, r1, r2, hc, hst, h1, h2, -, he, new, hx⟩ := steps_ok
  obtain ⟨cat', hc', hpr, hne⟩ := prepared_ok
  rw [hc] at hc'
  cases hc'
  exact ⟨false, cat, r1, r2, hpr, hne, hst, h1, h2, fun _ => ⟨new, hx⟩⟩

example : ∃ s, relocateXml cfg [south, all] 0 { eventXML := "in.xml".toList } (times 3) = .ok s := ok_of (by decide +kernel)

end Example

end Verif.CommandLine
