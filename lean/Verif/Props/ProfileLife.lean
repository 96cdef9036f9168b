import Verif.Proofs.ProfileLife
import Verif.Props.MergeCatalogs
import Verif.Props.RelocateCatalog
import Verif.Props.Tables

/-!
# C116: the life of a profile
-/

set_option linter.unusedSimpArgs false

namespace Verif.ProfileLife
open Verif.Catalog Verif.Configuration Spec
open Verif.Csv (Str)
open Verif.Daemon (Num)

/-- **C116a** After any history of calls a profile is usable exactly if it was loaded and not unloaded since, and then it works with
what the first successful loading since the last unloading gave: the catalog, the table, the options, the record stream
and the disk cache of that moment. -/
theorem usable_iff_loaded {p : Profile} {start : Int} {ops : List Op} {s : State} (h : run p start ops = .ok s) (dd : DD) (now : Int)
    (task : Task) :
    (∃ s', perform now task s = .ok (s', .done dd)) ↔ Loaded p ops dd := by
  obtain ⟨h1, -, h3⟩ := run_agrees ops h
  unfold Agrees at h1
  unfold perform
  constructor
  · rintro ⟨s', hs⟩
    split at hs
    · cases task <;> cases hs
    · cases hd : s.dd with
      | none => rw [hd] at hs; cases hs
      | some d => rw [hd] at hs; cases hs; exact h3 _ hd
  · intro hl
    have hd := loaded_run h hl
    rw [hd] at h1
    rw [if_neg (by rw [h1]; simp), hd]
    exact ⟨_, rfl⟩

/-- **C116b** A profile that is not loaded refuses to work: it throws, or does nothing when it is asked to free its memory or to
relocate an origin. -/
theorem refused_iff_not_loaded {p : Profile} {start : Int} {ops : List Op} {s : State} (h : run p start ops = .ok s)
    (hn : ∀ dd, ¬ Loaded p ops dd) (now : Int) (task : Task) :
    perform now task s = .ok (s, if task = .freeResources ∨ task = .relocateOrigin then .nothing else .refused) := by
  obtain ⟨h1, -, h3⟩ := run_agrees ops h
  unfold Agrees at h1
  have hd : s.dd = none := by
    cases hd : s.dd with
    | none => rfl
    | some dd => exact absurd (h3 dd hd) (hn dd)
  rw [hd] at h1
  unfold perform
  rw [if_pos (by rw [h1]; decide)]
  cases task <;> rfl

/-- **C116c** No history of calls uses the object of a profile that has none: there is undefined behaviour only while reading what a
profile is loaded from, and no exception leaves a loading or an unloading. -/
theorem never_without_object (p : Profile) (start : Int) : ∀ ops : List Op,
    (∀ op ∈ ops, ∀ w cfg now alt, op = .load w cfg now alt → loadDD w cfg p alt ≠ .ub) → ∃ s, run p start ops = .ok s := by
  intro ops
  induction ops using List.reverseRecOn with
  | nil => exact fun _ => ⟨_, rfl⟩
  | append_singleton ops op ih =>
    intro hu
    obtain ⟨s, hs⟩ := ih (fun o ho => hu o (List.mem_append_left _ ho))
    obtain ⟨h1, -⟩ := run_agrees ops hs
    unfold Agrees at h1
    rw [run_snoc, hs]
    simp only [Outcome.bind_ok]
    cases op with
    | unload now => exact ⟨_, rfl⟩
    | perform now task =>
      simp only [step, perform]
      cases hd : s.dd with
      | none =>
        rw [hd] at h1
        rw [if_pos (by rw [h1]; decide)]
        cases task <;> exact ⟨_, rfl⟩
      | some dd =>
        rw [hd] at h1
        rw [if_neg (by rw [h1]; simp)]
        exact ⟨_, rfl⟩
    | load w cfg now alt =>
      simp only [step, State.load]
      split
      · exact ⟨_, rfl⟩
      · cases hl : loadDD w cfg p alt with
        | ok dd => exact ⟨_, rfl⟩
        | throws => exact ⟨_, rfl⟩
        | ub => exact absurd hl (hu _ (by simp) w cfg now alt rfl)

/-- what a profile is loaded from is determined -/
theorem madeFrom_unique {w : World} {cfg : CacheConfig} {p : Profile} {alt : Catalog Num} {a b : DD} (ha : MadeFrom w cfg p alt a)
    (hb : MadeFrom w cfg p alt b) : a = b := by
  have h := (loadDD_iff.2 ha).symm.trans (loadDD_iff.2 hb)
  exact Outcome.ok.inj h

/-- **C116d** Loading a profile that is loaded changes nothing: a catalog given with it is not used, and files that have changed are
not read again. -/
theorem loaded_again_ignored {p : Profile} {start : Int} {ops : List Op} {s : State} (h : run p start ops = .ok s) {dd : DD}
    (hl : Loaded p ops dd) (w : World) (cfg : CacheConfig) (now : Int) (alt : Catalog Num) :
    run p start (ops ++ [.load w cfg now alt]) = .ok s := by
  obtain ⟨h1, -⟩ := run_agrees ops h
  unfold Agrees at h1
  rw [loaded_run h hl] at h1
  rw [run_snoc, h]
  simp only [Outcome.bind_ok, step, State.load]
  rw [if_pos (show s.loaded = true from h1)]

/-- the profile as `Model/Daemon.lean` sees it; `f` is what the application uses of the object -/
def asDaemon (f : DD → Daemon.DD) (s : State) : Daemon.ProfileState := ⟨s.loaded, s.dd.map f, s.lastUsage⟩

/-- **C116h** The application of C80, whose loading of profiles is a parameter, loads, unloads and frees profiles in this way. -/
theorem refines_daemon (f : DD → Daemon.DD) {w : World} {cfg : CacheConfig} {p : Profile} {now : Int} {dw : Daemon.World}
    {dp : Daemon.Profile} (hok : ∀ dd, loadDD w cfg p Catalog.init = .ok dd → dw.load dp = some (f dd))
    (hthrows : loadDD w cfg p Catalog.init = .throws → dw.load dp = none) (s s' : State) :
    (s.load w cfg p now Catalog.init = .ok s' → (asDaemon f s).load dw now dp = asDaemon f s') ∧
    (asDaemon f s).unload now = asDaemon f (s.unload now) ∧
    (∀ r, perform now .freeResources s = .ok (s', r) → (asDaemon f s).freeResources now = .ok (asDaemon f s')) := by
  refine ⟨fun h => ?_, rfl, fun r h => ?_⟩
  · unfold State.load at h
    unfold Daemon.ProfileState.load
    cases hl : s.loaded with
    | true =>
      rw [if_pos hl] at h
      cases h
      rw [if_pos (show (asDaemon f s).loaded = true from hl)]
    | false =>
      rw [if_neg (by rw [hl]; decide)] at h
      rw [if_neg (show ¬ (asDaemon f s).loaded = true by simp [asDaemon, hl])]
      cases hd : loadDD w cfg p Catalog.init with
      | ok dd => rw [hd] at h; cases h; rw [hok dd hd]; rfl
      | throws => rw [hd] at h; cases h; rw [hthrows hd]; rfl
      | ub => rw [hd] at h; cases h
  · unfold perform at h
    unfold Daemon.ProfileState.freeResources
    cases hl : s.loaded with
    | false =>
      rw [if_pos (by rw [hl]; rfl)] at h
      cases h
      rw [if_pos (show (!(asDaemon f s).loaded) = true by simp [asDaemon, hl])]
    | true =>
      rw [if_neg (by rw [hl]; decide)] at h
      rw [if_neg (show ¬ (!(asDaemon f s).loaded) = true by simp [asDaemon, hl])]
      cases hd : s.dd with
      | none => rw [hd] at h; cases h
      | some dd =>
        rw [hd] at h
        cases h
        simp [asDaemon, hd]

namespace Example

/-- the files of a catalog with the events 2 and 7, and a file with one origin -/
def files (name : Str) : Option Str := (CommandLine.MergeExample.files name).orElse (fun _ => CommandLine.CatalogExample.files name)

/-- the directories below `/ro` cannot be created -/
def world : World := ⟨CommandLine.CatalogExample.here, id, files, Tables.world false, "url".toList, fun d => !"/ro".toList.isPrefixOf d⟩

/-- the file of events is missing -/
def broken : World := { world with files := fun n => if n = "e".toList then none else files n }

def prof : Profile :=
  { name := "all", stationFile := "s", eventFile := "e", phaFile := "p", tttType := "Native:homogeneous", tttModel := "5.8;3.36" }

/-- the same with a file of origin ids -/
def withIds : Profile := { prof with eventIDFile := "ids.csv" }

def cache (dir : String) (on : Bool) : CacheConfig := ⟨dir.toList, on, 10⟩

/-- the catalog with the events 2 and 7, and another one with the event 5 -/
def cat : Catalog Num := CatalogFile.Example.cat
def other : Catalog Num := { Catalog.init with events := [(5, { CatalogFile.Example.ev 5 false with id := 5 })] }

/-- the numbers of the events and the directory of the disk cache -/
def shown : Outcome DD → Option (List Nat × Option String)
  | .ok dd => some (dd.bgCat.eventsSorted.map Prod.fst, dd.diskCache.map (fun d => String.ofList d.1))
  | _ => none

/-- profiles are loaded from what is configured, or from the alternative catalog -/
example : shown (loadDD world (cache "/c" true) prof Catalog.init) = some ([2, 7], some "/c/all/wfcache") ∧
    shown (loadDD world (cache "/c/" false) prof Catalog.init) = some ([2, 7], none) ∧
    shown (loadDD world (cache "/c/" true) withIds Catalog.init) = some ([1], some "/c/all/wfcache") ∧
    shown (loadDD world (cache "/c" true) withIds other) = some ([5], some "/c/all/wfcache") ∧
    shown (loadDD broken (cache "/c" true) prof Catalog.init) = none ∧
    shown (loadDD broken (cache "/c" true) prof other) = some ([5], some "/c/all/wfcache") ∧
    shown (loadDD world (cache "/ro" true) prof Catalog.init) = none := by decide +kernel

/-- what a task is done with at the end of a history -/
def used (ops : List Op) : Option (List Nat × Option String) :=
  match run prof 0 ops with
  | .ok s =>
    match perform 9 .dumpClusters s with
    | .ok (_, .done dd) => shown (.ok dd)
    | _ => none
  | _ => none

/-- A history: the first loading fails, the second succeeds, the third is ignored; then the profile is unloaded and loaded
with another catalog. -/
def ops : List Op :=
  [.load broken (cache "/c" true) 1 Catalog.init, .perform 2 .dumpClusters, .load world (cache "/c" true) 3 Catalog.init,
   .perform 4 .freeResources, .load world (cache "/c" false) 5 other, .unload 6, .load world (cache "/c" false) 7 other]

example : used (ops.take 2) = none ∧ used (ops.take 3) = some ([2, 7], some "/c/all/wfcache") ∧
    used (ops.take 5) = some ([2, 7], some "/c/all/wfcache") ∧ used (ops.take 6) = none ∧
    used ops = some ([5], none) := by decide +kernel

/-- the hypotheses of `never_without_object` and `usable_iff_loaded` are met -/
example : (run prof 0 ops matches .ok _) = true ∧
    ((ops.filterMap (fun op => match op with | .load w c _ a => some (loadDD w c prof a) | _ => none)).all
      (fun r => !(r matches .ub))) = true := by decide +kernel

end Example

/-! ## directories -/

theorem parts_sep (a b : Str) : parts (a ++ '/' :: b) = parts a ++ parts b := by
  unfold parts
  rw [List.splitOn_append_cons_self, List.filter_append]

theorem parts_plain {b : Str} (h : PlainName b) : parts b = [b] := by
  unfold parts
  rw [List.splitOn_eq_singleton h.2.1]
  simp [h.1]

theorem parts_join (a : Str) {b : Str} (h : PlainName b) : parts (join a b) = parts a ++ [b] := by
  unfold join
  split
  · rename_i ha
    subst ha
    rw [parts_plain h]
    rfl
  · split
    · rename_i hl
      obtain ⟨t, rfl⟩ := List.getLast?_eq_some_iff.1 hl
      rw [List.append_assoc, List.singleton_append, parts_sep, parts_sep, parts_plain h]
      have : parts ([] : Str) = [] := rfl
      rw [this, List.append_nil]
    · rw [parts_sep, parts_plain h]

/-- **C116e** The disk cache of a profile is in a directory of its own below the cache directory: those of two profiles with
different names are not in one another. -/
theorem caches_apart (dir a b : Str) (ha : PlainName a) (hb : PlainName b) :
    Within (wfcache dir a) dir ∧ (Within (wfcache dir a) (wfcache dir b) ↔ a = b) := by
  have hw : PlainName "wfcache".toList := by unfold PlainName; decide +kernel
  unfold Within wfcache
  rw [parts_join _ hw, parts_join _ hw, parts_join _ ha, parts_join _ hb]
  refine ⟨?_, ?_⟩
  · rw [List.append_assoc]; exact List.prefix_append _ _
  · constructor
    · intro h
      have := h.eq_of_length (by simp)
      simpa using this.symm
    · rintro rfl; exact List.prefix_rfl

/-- names with slashes can share a directory -/
example : Within (wfcache "/c".toList "a".toList) (wfcache "/c".toList "a/".toList) ∧ PlainName "a".toList ∧ PlainName "b".toList := by
  refine ⟨?_, ?_, ?_⟩
  · unfold Within; decide +kernel
  · unfold PlainName; decide +kernel
  · unfold PlainName; decide +kernel

/-! ## commands -/

/-- the profile of this name that is used: the first one -/
def Chosen (name : Str) (profiles : List Profile) (p : Profile) : Prop :=
  name ≠ [] ∧ ∃ before after, profiles = before ++ p :: after ∧ p.name.toList = name ∧ ∀ q ∈ before, q.name.toList ≠ name

theorem getProfile_iff {name : Str} {profiles : List Profile} {p : Profile} : getProfile name profiles = some p ↔ Chosen name profiles p := by
  unfold getProfile Chosen
  split
  · rename_i h; simp [h]
  · rename_i h
    rw [List.find?_eq_some_iff_append]
    simp only [decide_eq_true_eq, Bool.not_eq_eq_eq_not, Bool.not_true, decide_eq_false_iff_not]
    constructor
    · rintro ⟨h1, b, a, h2, h3⟩; exact ⟨h, b, a, h2, h1, h3⟩
    · rintro ⟨-, b, a, h2, h1, h3⟩; exact ⟨h1, b, a, h2, h3⟩

theorem loadAndDo_eq {w : World} {cfg : CacheConfig} {now : Int} {p : Profile} {alt : Catalog Num} {task : Task}
    (ht : task ≠ .freeResources ∧ task ≠ .relocateOrigin) (hu : loadDD w cfg p alt ≠ .ub) :
    (∀ dd, MadeFrom w cfg p alt dd → loadAndDo w cfg now p alt task = .ok (.done task p dd)) ∧
    ((∀ dd, ¬ MadeFrom w cfg p alt dd) → loadAndDo w cfg now p alt task =
      .ok (if task = .relocateCatalog then .fails else .exception)) := by
  unfold loadAndDo State.load
  rw [if_neg (by simp [State.init])]
  constructor
  · intro dd hd
    rw [loadDD_iff.2 hd]
    rfl
  · intro hn
    cases hl : loadDD w cfg p alt with
    | ub => exact absurd hl hu
    | ok dd => exact absurd (loadDD_iff.1 hl) (hn dd)
    | throws =>
      cases task with
      | freeResources => exact absurd rfl ht.1
      | relocateOrigin => exact absurd rfl ht.2
      | _ => rfl

/-- the tasks of the commands that are given a catalog -/
def WithCatalog (task : Task) : Prop := task = .dumpClusters ∨ task = .dumpWaveforms ∨ task = .relocateCatalog

/-- **C116f** The commands that are given a catalog work on that catalog, never on the one of the profile, with everything else as
configured for the profile.  They fail without doing anything if the catalog cannot be read or is empty, or if there is no
such profile; if the profile cannot be loaded an exception ends the program, or the command fails when it relocates a
catalog. -/
theorem command_with_catalog {w : World} {cfg : CacheConfig} {now : Int} {profiles : List Profile} {name path : Str} {task : Task}
    (ht : WithCatalog task) {cat : Catalog Num} {m : AMap Nat SeisComP.Origin}
    (hc : CommandLine.getCatalog w.base w.rnd w.files path = .ok (cat, m))
    (hu : ∀ p ∈ profiles, loadDD w cfg p cat ≠ .ub) :
    (NoContent cat → catalogCommand w cfg now profiles name path task = .ok .fails) ∧
    ((∀ p, ¬ Chosen name profiles p) → catalogCommand w cfg now profiles name path task = .ok .fails) ∧
    (∀ p, ¬ NoContent cat → Chosen name profiles p → (∀ dd, ¬ MadeFrom w cfg p cat dd) →
      catalogCommand w cfg now profiles name path task = .ok (if task = .relocateCatalog then .fails else .exception)) ∧
    (∀ p dd, ¬ NoContent cat → Chosen name profiles p → MadeFrom w cfg p cat dd →
      catalogCommand w cfg now profiles name path task = .ok (.done task p dd) ∧
      dd.bgCat.events = cat.events ∧ dd.bgCat.stations = cat.stations) := by
  have ht' : task ≠ .freeResources ∧ task ≠ .relocateOrigin := by
    rcases ht with rfl | rfl | rfl <;> exact ⟨by decide, by decide⟩
  unfold catalogCommand
  rw [hc]
  simp only [Outcome.bind_ok]
  refine ⟨fun he => ?_, fun hn => ?_, fun p he hp hn => ?_, fun p dd he hp hd => ?_⟩
  · cases getProfile name profiles with
    | none => rfl
    | some p => simp only; rw [if_pos (isEmpty_iff.2 he)]
  · cases hg : getProfile name profiles with
    | none => rfl
    | some p => exact absurd (getProfile_iff.1 hg) (hn p)
  · have hm : p ∈ profiles := by obtain ⟨-, b, a, rfl, -⟩ := hp; simp
    rw [getProfile_iff.2 hp]
    simp only
    rw [if_neg (fun h => he (isEmpty_iff.1 h))]
    exact (loadAndDo_eq ht' (hu p hm)).2 hn
  · have hm : p ∈ profiles := by obtain ⟨-, b, a, rfl, -⟩ := hp; simp
    rw [getProfile_iff.2 hp]
    simp only
    rw [if_neg (fun h => he (isEmpty_iff.1 h))]
    refine ⟨(loadAndDo_eq ht' (hu p hm)).1 dd hd, ?_⟩
    obtain ⟨c, hs, hb⟩ := hd.catalog
    have hcc : c = cat := by
      cases hs with
      | alternative h => rfl
      | ids h => exact absurd h he
      | files h => exact absurd h he
    subst hcc
    rw [hb]
    exact ⟨rfl, rfl⟩

/-- **C116g** The command that fills the waveform cache works on the catalog of the profile, that of the file of origin ids if one is
configured, else that of the three files. -/
theorem preload_own_catalog {w : World} {cfg : CacheConfig} {now : Int} {profiles : List Profile} {name : Str}
    (hu : ∀ p ∈ profiles, loadDD w cfg p Catalog.init ≠ .ub) :
    ((∀ p, ¬ Chosen name profiles p) → preloadCommand w cfg now profiles name = .ok .fails) ∧
    (∀ p, Chosen name profiles p → (∀ dd, ¬ MadeFrom w cfg p Catalog.init dd) →
      preloadCommand w cfg now profiles name = .ok .exception) ∧
    (∀ p dd, Chosen name profiles p → MadeFrom w cfg p Catalog.init dd → preloadCommand w cfg now profiles name = .ok (.done .preloadWaveforms p dd) ∧
      ∃ cat : Catalog Num, dd.bgCat.events = cat.events ∧ dd.bgCat.stations = cat.stations ∧
        ((p.eventIDFile ≠ "" ∧ ∃ text m, w.files p.eventIDFile.toList = some text ∧
            SeisComP.addIdFile w.base.source w.base.inventory w.base.rawEvent w.base.rawPhase (some text) (Catalog.init, []) = .ok (cat, m)) ∨
         (p.eventIDFile = "" ∧ ∃ station event phase, w.files p.stationFile.toList = some station ∧
            w.files p.eventFile.toList = some event ∧ w.files p.phaFile.toList = some phase ∧
            CatalogFile.read w.rnd false w.base.rawEvent w.base.rawPhase { station, event, phase } = .ok cat))) := by
  have ht' : Task.preloadWaveforms ≠ .freeResources ∧ Task.preloadWaveforms ≠ .relocateOrigin := ⟨by decide, by decide⟩
  unfold preloadCommand
  refine ⟨fun hn => ?_, fun p hp hn => ?_, fun p dd hp hd => ?_⟩
  · cases hg : getProfile name profiles with
    | none => rfl
    | some p => exact absurd (getProfile_iff.1 hg) (hn p)
  · have hm : p ∈ profiles := by obtain ⟨-, b, a, rfl, -⟩ := hp; simp
    rw [getProfile_iff.2 hp]
    exact (loadAndDo_eq ht' (hu p hm)).2 hn
  · have hm : p ∈ profiles := by obtain ⟨-, b, a, rfl, -⟩ := hp; simp
    rw [getProfile_iff.2 hp]
    refine ⟨(loadAndDo_eq ht' (hu p hm)).1 dd hd, ?_⟩
    obtain ⟨c, hs, hb⟩ := hd.catalog
    refine ⟨c, by rw [hb]; rfl, by rw [hb]; rfl, ?_⟩
    cases hs with
    | alternative h => exact absurd ⟨rfl, rfl, rfl⟩ h
    | ids h hp hf hc => exact .inl ⟨hp, _, _, hf, hc⟩
    | files h hp h1 h2 h3 hc => exact .inr ⟨hp, _, _, _, h1, h2, h3, hc⟩

namespace Example

def result : Outcome Result → String ⊕ (List Nat × Option String)
  | .ok .fails => .inl "fails"
  | .ok .exception => .inl "exception"
  | .ok (.done _ _ dd) => .inr ((shown (.ok dd)).getD ([], none))
  | .throws => .inl "throws"
  | .ub => .inl "ub"

/-- the commands with a catalog and the one without -/
example :
    result (catalogCommand world (cache "/c" true) 0 [prof] "all".toList "ids.csv".toList .dumpClusters) = .inr ([1], some "/c/all/wfcache") ∧
    result (catalogCommand world (cache "/c" true) 0 [withIds] "all".toList "s,e,p".toList .relocateCatalog) =
      .inr ([2, 7], some "/c/all/wfcache") ∧
    result (catalogCommand world (cache "/c" true) 0 [prof] "x".toList "ids.csv".toList .dumpWaveforms) = .inl "fails" ∧
    result (catalogCommand broken (cache "/c" true) 0 [prof] "all".toList "s,e,p".toList .dumpWaveforms) = .inl "fails" ∧
    result (catalogCommand world (cache "/ro" true) 0 [prof] "all".toList "ids.csv".toList .dumpWaveforms) = .inl "exception" ∧
    result (catalogCommand world (cache "/ro" true) 0 [prof] "all".toList "ids.csv".toList .relocateCatalog) = .inl "fails" ∧
    result (preloadCommand world (cache "/c" true) 0 [prof] "all".toList) = .inr ([2, 7], some "/c/all/wfcache") ∧
    result (preloadCommand broken (cache "/c" true) 0 [prof] "all".toList) = .inl "exception" := by decide +kernel

end Example

end Verif.ProfileLife
