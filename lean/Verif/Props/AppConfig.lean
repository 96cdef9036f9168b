import Verif.Spec.AppConfig
import Verif.Props.Configuration

/-!
# C133: the application has the settings that the configuration files ask for
-/

set_option linter.unusedSimpArgs false

namespace Verif.AppConfig
open Verif.AppConfigSpec Verif.Configuration

theorem must_bind {α β : Type} (x : Option α) (f : α → Outcome β) (b : β) :
    (must x >>= f) = .ok b ↔ ∃ a, x = some a ∧ f a = .ok b := by
  cases x with
  | none => exact ⟨fun h => (by cases h), fun ⟨a, h, _⟩ => (by cases h)⟩
  | some a => exact ⟨fun h => ⟨a, rfl, h⟩, fun ⟨a', h, h'⟩ => by cases h; exact h'⟩

theorem readSettings_iff (g : Getters) (s : Settings) : readSettings g = .ok s ↔
    g.bool "onlyPreferredOrigins" = some s.onlyPreferredOrigin ∧ g.bool "automaticOrigins" = some s.allowAutomaticOrigin ∧
    g.bool "manualOrigins" = some s.allowManualOrigin ∧ g.strings "activeProfiles" = some s.activeProfiles ∧
    (∃ d, g.int "performance.delayTime" = some d ∧ s.delayTimes = [d]) ∧
    g.int "performance.profileTimeAlive" = some s.profileTimeAlive ∧ g.bool "performance.cacheWaveforms" = some s.cacheWaveforms ∧
    g.path "performance.cacheDirectory" = some s.cacheDirectory ∧
    g.double "performance.cachedWaveformLength" = some s.cachedWaveformLength ∧
    s.acceptedOriginAuthors = (g.strings "acceptedOriginAuthors").getD [] := by
  unfold readSettings
  simp only [must_bind]
  constructor
  · rintro ⟨a, h1, b, h2, c, h3, d, h4, e, h5, f, h6, i, h7, j, h8, k, h9, h⟩
    cases h
    exact ⟨h1, h2, h3, h4, ⟨e, h5, rfl⟩, h6, h7, h8, h9, rfl⟩
  · rintro ⟨h1, h2, h3, h4, ⟨d, h5, h5'⟩, h6, h7, h8, h9, h10⟩
    refine ⟨_, h1, _, h2, _, h3, _, h4, _, h5, _, h6, _, h7, _, h8, _, h9, ?_⟩
    rw [← h5', ← h10]

theorem readSettings_documented (g : Getters) (s : Settings) (root : String) : readSettings g = .ok s ↔
    (∀ e ∈ documented root, given g e.dflt e.name = some (e.use s)) ∧ s.delayTimes.length = 1 ∧
      s.acceptedOriginAuthors = (g.strings "acceptedOriginAuthors").getD [] := by
  rw [readSettings_iff]
  simp only [documented, List.forall_mem_cons, List.not_mem_nil, false_implies, implies_true, and_true, given, Option.map_eq_some_iff,
    Value.flag.injEq, Value.texts.injEq, Value.whole.injEq, Value.number.injEq, Value.path.injEq, exists_eq_right]
  constructor
  · rintro ⟨h1, h2, h3, h4, ⟨d, h5, h5'⟩, h6, h7, h8, h9, h10⟩
    exact ⟨⟨h2, h3, h1, h4, by rw [h5']; exact h5, h6, h7, h8, h9⟩, by rw [h5']; rfl, h10⟩
  · rintro ⟨⟨h2, h3, h1, h4, h5, h6, h7, h8, h9⟩, hl, h10⟩
    obtain ⟨d, hd⟩ := List.length_eq_one_iff.1 hl
    exact ⟨h1, h2, h3, h4, ⟨d, by rw [hd] at h5; exact h5, hd⟩, h6, h7, h8, h9, h10⟩

theorem start_iff (g : Getters) (force : String) (o : CommandLine.Options) (s : Settings) (ps : List Profile) :
    start g force o = .ok (some (s, ps)) ↔ readSettings g = .ok s ∧ ∃ db, (validate g s.activeProfiles force db).ok = true ∧
      ps = (validate g s.activeProfiles force db).profiles ∧
      db = (CommandLine.single o.dumpWaveforms || CommandLine.single o.dumpClusters || CommandLine.single o.relocateCatalog) := by
  unfold start
  cases h : readSettings g with
  | throws => exact ⟨fun h => (by cases h), fun ⟨h, _⟩ => (by cases h)⟩
  | ub => exact ⟨fun h => (by cases h), fun ⟨h, _⟩ => (by cases h)⟩
  | ok s' =>
    rw [Outcome.bind_ok]
    dsimp only
    constructor
    · intro h
      split at h
      · cases h; exact ⟨rfl, _, ‹_›, rfl, rfl⟩
      · cases h
    · rintro ⟨h, db, h1, rfl, rfl⟩
      cases h
      rw [if_pos h1]

/-- **C133** The application starts exactly if each of its nine parameters has a value of the documented type, in the files of the user
or in the file of the defaults, and the parameters of every profile to load are acceptable (C105). -/
theorem application_starts_iff (g : Getters) (force root : String) (o : CommandLine.Options) :
    (∃ r, start g force o = .ok (some r)) ↔ (∀ e ∈ documented root, (given g e.dflt e.name).isSome) ∧
      ∀ active, g.strings "activeProfiles" = some active → ∀ name ∈ ConfigurationSpec.names active force, ConfigurationSpec.Valid g name := by
  constructor
  · rintro ⟨⟨s, ps⟩, h⟩
    obtain ⟨h1, db, h2, -, -⟩ := (start_iff g force o s ps).1 h
    refine ⟨fun e he => by rw [((readSettings_documented g s root).1 h1).1 e he]; rfl, fun active ha => ?_⟩
    have := ((readSettings_iff g s).1 h1).2.2.2.1
    rw [ha] at this
    cases this
    exact (starts_iff g _ force db).1 h2
  · rintro ⟨h1, h2⟩
    simp only [documented, List.forall_mem_cons, List.not_mem_nil, false_implies, implies_true, and_true, given, Option.isSome_map] at h1
    simp only [Option.isSome_iff_exists] at h1
    obtain ⟨⟨a, ha⟩, ⟨b, hb⟩, ⟨c, hc⟩, ⟨d, hd⟩, ⟨e, he⟩, ⟨f, hf⟩, ⟨i, hi⟩, ⟨j, hj⟩, ⟨k, hk⟩⟩ := h1
    refine ⟨(⟨c, a, b, d, [e], f, i, j, k, (g.strings "acceptedOriginAuthors").getD []⟩, _), (start_iff g force o _ _).2
      ⟨(readSettings_iff g _).2 ⟨hc, ha, hb, hd, ⟨e, he, rfl⟩, hf, hi, hj, hk, rfl⟩, _, ?_, rfl, rfl⟩⟩
    exact (starts_iff g _ force _).2 (h2 d hd)

/-- **C133** An application that starts has for each parameter the value given in the configuration files, origins of all authors are
accepted unless there is a list of authors, and the profiles are those of C105. -/
theorem application_settings (g : Getters) (force root : String) (o : CommandLine.Options) (s : Settings) (ps : List Profile)
    (h : start g force o = .ok (some (s, ps))) :
    (∀ e ∈ documented root, given g e.dflt e.name = some (e.use s)) ∧ s.delayTimes.length = 1 ∧
      s.acceptedOriginAuthors = (g.strings "acceptedOriginAuthors").getD [] ∧
      ∃ db, ps = (validate g s.activeProfiles force db).profiles ∧ (validate g s.activeProfiles force db).ok = true := by
  obtain ⟨h1, db, h2, h3, -⟩ := (start_iff g force o s ps).1 h
  obtain ⟨q1, q2, q3⟩ := (readSettings_documented g s root).1 h1
  exact ⟨q1, q2, q3, db, h3, h2⟩

/-- **C133** (partial) A parameter that is not in the files of the user has its documented default.  Missing: the time that
profiles are kept in memory, for which this is false. -/
theorem defaults_partial (c : Conversions) (root : String) (hc : Usual c root) (user : Symbols) (s : Settings)
    (h : readSettings (getters c (layered user)) = .ok s) (e : Entry) (he : e ∈ documented root) (hu : user e.name = none)
    (hne : e.name ≠ "performance.profileTimeAlive") : e.use s = e.dflt := by
  have h1 := ((readSettings_documented _ s root).1 h).1 e he
  have h2 : given (getters c (layered user)) e.dflt e.name = some e.dflt := by
    have hl : layered user e.name = shipped e.name := by simp [layered, hu]
    simp only [documented, List.mem_cons, List.not_mem_nil, or_false] at he
    rcases he with rfl | rfl | rfl | rfl | rfl | rfl | rfl | rfl | rfl
    · simp only [given, getters, hl, shipped]; simp [hc.bool]
    · simp only [given, getters, hl, shipped]; simp [hc.bool]
    · simp only [given, getters, hl, shipped]; simp [hc.bool]
    · simp only [given, getters, hl, shipped]; simp
    · simp only [given, getters, hl, shipped]; simp [hc.ten]
    · exact absurd rfl hne
    · simp only [given, getters, hl, shipped]; simp [hc.bool]
    · simp only [given, getters, hl, shipped]; simp [hc.path]
    · simp only [given, getters, hl, shipped]; simp [hc.length]
  rw [h1] at h2
  exact Option.some.inj h2

/-- **C133** With the file of the defaults, the application reads its parameters unless the user gives one a text that is not of its type. -/
theorem settings_complete (c : Conversions) (root : String) (hc : Usual c root) (user : Symbols)
    (hu : ∀ e ∈ documented root, ∀ t, user e.name = some t → (given (getters c user) e.dflt e.name).isSome) :
    ∃ s, readSettings (getters c (layered user)) = .ok s := by
  have key : ∀ e ∈ documented root, (given (getters c (layered user)) e.dflt e.name).isSome := by
    intro e he
    cases h : user e.name with
    | some t =>
      have hl : layered user e.name = user e.name := by simp [layered, h]
      have := hu e he t h
      have hg : given (getters c (layered user)) e.dflt e.name = given (getters c user) e.dflt e.name := by
        unfold given getters
        cases e.dflt <;> simp only [hl]
      rw [hg]; exact this
    | none =>
      have hl : layered user e.name = shipped e.name := by simp [layered, h]
      simp only [documented, List.mem_cons, List.not_mem_nil, or_false] at he
      rcases he with rfl | rfl | rfl | rfl | rfl | rfl | rfl | rfl | rfl
      · simp only [given, getters, hl, shipped]; simp [hc.bool]
      · simp only [given, getters, hl, shipped]; simp [hc.bool]
      · simp only [given, getters, hl, shipped]; simp [hc.bool]
      · simp only [given, getters, hl, shipped]; simp
      · simp only [given, getters, hl, shipped]; simp [hc.ten]
      · simp only [given, getters, hl, shipped]; simp [hc.hour]
      · simp only [given, getters, hl, shipped]; simp [hc.bool]
      · simp only [given, getters, hl, shipped]; simp [hc.path]
      · simp only [given, getters, hl, shipped]; simp [hc.length]
  simp only [documented, List.forall_mem_cons, List.not_mem_nil, false_implies, implies_true, and_true, given, Option.isSome_map] at key
  simp only [Option.isSome_iff_exists] at key
  obtain ⟨⟨a, ha⟩, ⟨b, hb⟩, ⟨c', hc'⟩, ⟨d, hd⟩, ⟨e, he⟩, ⟨f, hf⟩, ⟨i, hi⟩, ⟨j, hj⟩, ⟨k, hk⟩⟩ := key
  exact ⟨⟨c', a, b, d, [e], f, i, j, k, _⟩, (readSettings_iff _ _).2 ⟨hc', ha, hb, hd, ⟨e, he, rfl⟩, hf, hi, hj, hk, rfl⟩⟩

/-- **C133 is false of the time that profiles are kept in memory**: it is documented as 600 seconds, but it is 3600 seconds if the
user does not set it. -/
theorem documented_time_alive_wrong (c : Conversions) (root : String) (hc : Usual c root) (user : Symbols)
    (hu : user "performance.profileTimeAlive" = none) (s : Settings) (h : readSettings (getters c (layered user)) = .ok s) :
    s.profileTimeAlive = 3600 ∧ ∃ e ∈ documented root, e.name = "performance.profileTimeAlive" ∧ e.dflt = .whole 600 := by
  refine ⟨?_, ⟨"performance.profileTimeAlive", .whole 600, fun s => .whole s.profileTimeAlive⟩, by simp [documented], rfl, rfl⟩
  have h1 := ((readSettings_iff _ s).1 h).2.2.2.2.2.1
  have hl : layered user "performance.profileTimeAlive" = some ["3600"] := by simp [layered, hu, shipped]
  simp only [getters, hl, Option.bind_some, hc.hour, Option.some.injEq] at h1
  exact h1.symm

/-- **C133** The origins that are relocated in real time are those the parameters allow whose agency is not blocked. -/
theorem allowed_origins (s : Settings) (force : String) (o : CommandLine.Options) (author agencyID : String) (w : Daemon.World)
    (org : Daemon.Origin) :
    Daemon.accepted (daemonConfig s force o author agencyID) w org = true ↔ Allowed s org ∧ w.blocked org.agencyID = false := by
  unfold Daemon.accepted daemonConfig Allowed
  dsimp only
  have hany : s.acceptedOriginAuthors.any (fun a => org.author = some a) = true ↔ ∃ a ∈ s.acceptedOriginAuthors, org.author = some a := by
    simp
  rw [← hany, ← List.isEmpty_iff]
  generalize s.acceptedOriginAuthors.any _ = x
  generalize s.acceptedOriginAuthors.isEmpty = y
  generalize w.blocked org.agencyID = z
  generalize s.allowManualOrigin = u
  generalize s.allowAutomaticOrigin = v
  generalize org.manual = m
  revert x y z u v m
  simp only [Option.forall, Bool.forall_bool]
  simp

/-- **C133** Memory of a profile is freed only if it was not used for longer than the parameter says, and never if the parameter is negative. -/
theorem profiles_stay (s : Settings) (force : String) (o : CommandLine.Options) (author agencyID : String) (w : Daemon.World) (now : Int)
    (l l' : List (Daemon.Profile × Daemon.ProfileState)) (freed : List (Int × String))
    (h : Daemon.checkProfileStatus (daemonConfig s force o author agencyID) w now l = .ok (l', freed)) :
    (s.profileTimeAlive < 0 → freed = []) ∧
    ∀ x ∈ freed, ∃ ps ∈ l, ps.1.name = x.2 ∧ ps.2.loaded = true ∧ now - ps.2.lastUsage > s.profileTimeAlive := by
  induction l generalizing l' freed with
  | nil => cases h; exact ⟨fun _ => rfl, fun x hx => by cases hx⟩
  | cons ps rest ih =>
    unfold Daemon.checkProfileStatus at h
    obtain ⟨⟨ps', b⟩, h1, h⟩ := Outcome.bind_eq_ok.1 h
    obtain ⟨⟨rest', log⟩, h2, h⟩ := Outcome.bind_eq_ok.1 h
    cases h
    obtain ⟨i1, i2⟩ := ih _ _ h2
    have hb : b = true → 0 ≤ s.profileTimeAlive ∧ ps'.1 = ps.1 ∧ ps.2.loaded = true ∧ now - ps.2.lastUsage > s.profileTimeAlive := by
      rintro rfl
      unfold Daemon.checkProfile at h1
      dsimp only at h1
      split at h1
      · rename_i hc
        obtain ⟨s', h3, h1⟩ := Outcome.bind_eq_ok.1 h1
        cases h1
        obtain ⟨c1, c2, c3⟩ := hc
        refine ⟨c1, rfl, ?_⟩
        unfold Daemon.ProfileState.load at c2 c3
        split at c3
        · exact ⟨‹_›, c3⟩
        · exfalso
          rw [if_neg ‹_›] at c2
          cases hw : w.load ps.1 with
          | none => rw [hw] at c2; cases c2
          | some dd =>
            rw [hw] at c3
            simp only [sub_self] at c3
            exact absurd c3 (not_lt.2 c1)
      · cases h1
    refine ⟨fun hneg => ?_, fun x hx => ?_⟩
    · rw [if_neg (fun hbt => absurd (hb hbt).1 (not_le.2 hneg))]
      exact i1 hneg
    · by_cases hbt : b = true
      · rw [if_pos hbt] at hx
        rcases List.mem_cons.1 hx with rfl | hx
        · obtain ⟨-, q2, q3, q4⟩ := hb hbt
          exact ⟨ps, by simp, by rw [q2], q3, q4⟩
        · obtain ⟨ps, hps, q⟩ := i2 x hx
          exact ⟨ps, by simp [hps], q⟩
      · rw [if_neg hbt] at hx
        obtain ⟨ps, hps, q⟩ := i2 x hx
        exact ⟨ps, by simp [hps], q⟩

/-! ## Concrete cases -/

namespace Example

/-- conversions that know a few texts -/
def conv : Conversions where
  toString := fun l => l.head?
  toBool := fun l => if l = ["true"] then some true else if l = ["false"] then some false else none
  toInt := fun l => if l = ["10"] then some 10 else if l = ["3600"] then some 3600 else if l = ["-1"] then some (-1) else none
  toDouble := fun l => if l = ["10"] then some 10 else none
  toDoubles := fun _ => none
  toPath := fun l => if l = ["@ROOTDIR@/var/lib/rtdd"] then some "/sc/var/lib/rtdd" else none
  number := fun _ => none

theorem conv_usual : Usual conv "/sc" := ⟨rfl, rfl, rfl, rfl, by decide +kernel⟩

/-- a user who wants manual origins of one author, and profiles in memory for ever -/
def user : Symbols := fun name =>
  if name = "automaticOrigins" then some ["false"]
  else if name = "acceptedOriginAuthors" then some ["scolv"]
  else if name = "performance.profileTimeAlive" then some ["-1"]
  else none

def settings : Settings := ⟨true, false, true, [""], [10], -1, true, "/sc/var/lib/rtdd", 10, ["scolv"]⟩

/-- the application starts, with the values of the user and the defaults -/
example : start (getters conv (layered user)) "" {} = .ok (some (settings, [])) := by rfl

example : readSettings (getters conv (layered user)) = .ok settings := by rfl

/-- a manual origin of this author is accepted, an automatic one is not -/
example (o : Daemon.Origin) (h : o.author = some "scolv") : Allowed settings { o with manual := some true } ∧
    ¬ Allowed settings { o with manual := some false } :=
  ⟨⟨fun _ => rfl, fun hne => absurd rfl hne, .inr ⟨"scolv", by simp [settings], h⟩⟩, fun ⟨_, h2, _⟩ => by simp [settings] at h2⟩

/-- a text that is no truth value keeps the application from starting, although there is a default -/
example : start (getters conv (layered (fun name => if name = "manualOrigins" then some ["yes please"] else none))) "" {} = .throws := by rfl

/-- without the file of the defaults it does not start -/
example : readSettings (getters conv user) = .throws := by rfl

end Example
end Verif.AppConfig
