import Verif.Proofs.Tables
import Verif.Props.GridIndex

/-!
# C96, C97: the travel-time table of a profile and the travel times of the SeisComP plugin
-/

set_option linter.unusedSimpArgs false

namespace Verif.Tables
open Spec
open Verif.Csv (Str)
open Verif.GridHeader (Num)

/-! ## the table of a profile -/

/-- **C96** A profile with the type `Native:NLLGrid` gets a table exactly when its text has six parts, of which the third is a
number and the fifth a whole number, the method is known and the directory exists; the settings are those written. -/
theorem native_grid_table (rnd : ℚ → ℚ) (w : World) (text : Str) (t : Table) :
    table rnd w "Native:NLLGrid".toList text = .ok t ↔
      ∃ s g, GridText rnd text s ∧ Opened rnd w.disk s g ∧ t = .native g := by
  unfold table
  rw [if_pos rfl]
  constructor
  · intro h
    split at h
    · next path name dist swap max access hp =>
      simp only [bind_ok_iff, Outcome.pure_eq, Outcome.ok.injEq] at h
      obtain ⟨d, hd, n, hn, g, hg, rfl⟩ := h
      exact ⟨_, g, .mk ((splitSemi_iff _ _).mp hp) ((NumberSpec.stod_iff _ _ _).mp hd) ⟨n, (GridHeader.stoull_iff _ _).mp hn, rfl⟩,
        (openGrids_iff _ _ _ _).mp hg, rfl⟩
    · cases h
  · rintro ⟨s, g, ⟨hp, hd, n, hn, rfl⟩, hg, rfl⟩
    rw [(splitSemi_iff _ _).mpr hp]
    simp only [bind_ok_iff, Outcome.pure_eq, Outcome.ok.injEq]
    exact ⟨_, (NumberSpec.stod_iff _ _ _).mpr hd, n, (GridHeader.stoull_iff _ _).mpr hn, g, (openGrids_iff _ _ _ _).mpr hg, rfl⟩

/-- **C96** A profile with the type `Native:homogeneous` gets a table exactly when its text has two parts that are numbers: the
velocities of P and S waves. -/
theorem homogeneous_table (rnd : ℚ → ℚ) (w : World) (text : Str) (t : Table) :
    table rnd w "Native:homogeneous".toList text = .ok t ↔
      ∃ a b p s, Parts text [a, b] ∧ NumberSpec.Number rnd a p ∧ NumberSpec.Number rnd b s ∧ t = .homogeneous p s := by
  unfold table
  rw [if_neg (by decide), if_pos rfl]
  constructor
  · intro h
    split at h
    · next a b hp =>
      simp only [bind_ok_iff, Outcome.pure_eq, Outcome.ok.injEq] at h
      obtain ⟨p, h1, s, h2, rfl⟩ := h
      exact ⟨a, b, p, s, (splitSemi_iff _ _).mp hp, (NumberSpec.stod_iff _ _ _).mp h1, (NumberSpec.stod_iff _ _ _).mp h2, rfl⟩
    · cases h
  · rintro ⟨a, b, p, s, hp, h1, h2, rfl⟩
    rw [(splitSemi_iff _ _).mpr hp]
    simp only [bind_ok_iff, Outcome.pure_eq, Outcome.ok.injEq]
    exact ⟨p, (NumberSpec.stod_iff _ _ _).mpr h1, s, (NumberSpec.stod_iff _ _ _).mpr h2, rfl⟩

/-- **C96** A profile with the type `NLLGrid` gets the table of SeisComP exactly when the model is configured with a path, the
method is known and the directory exists; the settings are those of the configuration, and the model is set. -/
theorem plugin_table (rnd : ℚ → ℚ) (w : World) (model : Str) (t : Table) :
    table rnd w "NLLGrid".toList model = .ok t ↔
      ∃ cfg s g p, w.cfg = some cfg ∧ Configured w.absolute cfg model s ∧ Opened rnd w.disk s g ∧ t = .plugin p ∧
        p.model = model ∧ p.grids = some g ∧ p.pPhases = pPhases cfg model ∧ p.sPhases = sPhases cfg model := by
  unfold table
  rw [if_neg (by decide), if_neg (by decide)]
  unfold adapter
  rw [if_pos rfl]
  unfold setModel
  cases hc : w.cfg with
  | none => simp
  | some cfg =>
    simp only [Option.some.injEq, exists_and_left, exists_eq_left', ← settings_iff, ← openGrids_iff]
    cases hs : settings w.absolute cfg model with
    | none => simp
    | some s =>
      cases hg : openGrids rnd w.disk s with
      | ok g =>
        simp only [Outcome.ok.injEq, Option.some.injEq, exists_eq_left', hg]
        constructor
        · rintro rfl
          exact ⟨_, rfl, rfl, rfl, rfl, rfl⟩
        · rintro ⟨p, rfl, h1, h2, h3, h4⟩
          cases p
          simp only at h1 h2 h3 h4
          rw [h1, h2, h3, h4]
      | throws => simp [hg]
      | ub => simp [hg]

/-- **C96** A profile with any other type gets a table exactly when SeisComP has a table of this type that accepts the model. -/
theorem other_table (rnd : ℚ → ℚ) (w : World) (type model : Str) (t : Table) (h1 : type ≠ "Native:NLLGrid".toList)
    (h2 : type ≠ "Native:homogeneous".toList) (h3 : type ≠ "NLLGrid".toList) :
    table rnd w type model = .ok t ↔ ∃ f, w.others type = some f ∧ f model = .ok true ∧ t = .other type model := by
  unfold table
  rw [if_neg h1, if_neg h2]
  unfold adapter
  rw [if_neg h3]
  cases w.others type with
  | none => simp
  | some f =>
    simp only [bind_ok_iff, Option.some.injEq, exists_eq_left']
    constructor
    · rintro ⟨b, hb, h⟩
      cases b with
      | true => exact ⟨hb, by simpa using h.symm⟩
      | false => simp at h
    · rintro ⟨hf, rfl⟩
      exact ⟨true, hf, by simp⟩

/-! ## the plugin -/

variable {V : Type}

/-- **C97** After a model was set, with whatever was set before, the name and the phases are those of this model, and a
phase is computed with the grids of this model: the P grids if it is a P phase, else the S grids if it is an S phase.  An error
of the grids is an exception: `std::out_of_range` if the event is outside the grid and `NoPhaseError` otherwise, also for a phase
that is neither. -/
theorem phase_times (rnd : ℚ → ℚ) (disk : Disk) (absolute : Str → Str) (cfg : Option Config) (s s' : Plugin) (model : Str)
    (h : setModel rnd disk absolute cfg s model = (s', .ok true)) :
    s'.model = model ∧ ∃ c set g, cfg = some c ∧ Configured absolute c model set ∧ Opened rnd disk set g ∧
      ∀ (a : Answers V) (phase : Str) (q : Query V),
        (∀ (w : Wave), (w = .P ∧ IsP c model phase) ∨ (w = .S ∧ ¬IsP c model phase ∧ IsS c model phase) →
          (∀ t, computeTime a s' phase q = .ok t ↔ a.time g w q = .ok t) ∧
          (computeTime a s' phase q = .error .outOfRange ↔ a.time g w q = .error .outOfGrid) ∧
          (computeTime a s' phase q = .error .noPhase ↔ a.time g w q = .error .other) ∧
          (∀ x, compute a s' phase q = .ok x ↔ ∃ t r, a.time g w q = .ok t ∧ a.ray g w q = .ok r ∧
            x = ⟨phase, t, r.dtdd, r.dtdh, r.dip, some r.azi⟩) ∧
          (compute a s' phase q = .error .outOfRange ↔
            a.time g w q = .error .outOfGrid ∨ (∃ t, a.time g w q = .ok t) ∧ a.ray g w q = .error .outOfGrid) ∧
          (compute a s' phase q = .error .noPhase ↔
            a.time g w q = .error .other ∨ (∃ t, a.time g w q = .ok t) ∧ a.ray g w q = .error .other)) ∧
        (¬IsP c model phase → ¬IsS c model phase →
          computeTime a s' phase q = .error .noPhase ∧ compute a s' phase q = .error .noPhase) := by
  unfold setModel at h
  cases cfg with
  | none => simp at h
  | some c =>
    simp only at h
    cases hs : settings absolute c model with
    | none => rw [hs] at h; simp at h
    | some set =>
      rw [hs] at h
      simp only at h
      cases hg : openGrids rnd disk set with
      | throws => rw [hg] at h; simp at h
      | ub => rw [hg] at h; simp at h
      | ok g =>
        rw [hg] at h
        simp only [Prod.mk.injEq, and_true] at h
        subst h
        refine ⟨rfl, c, set, g, rfl, (settings_iff _ _ _ _).mp hs, (openGrids_iff _ _ _ _).mp hg, ?_⟩
        intro a phase q
        refine ⟨?_, ?_⟩
        · intro w hw
          have hwave : waveOf { model := model, pPhases := pPhases c model, sPhases := sPhases c model, grids := some g } phase = .ok w := by
            unfold waveOf
            rcases hw with ⟨rfl, hp⟩ | ⟨rfl, hp, hs'⟩
            · rw [if_pos ((isP_iff _ _ _).mpr hp)]
            · rw [if_neg (fun hh => hp ((isP_iff _ _ _).mp hh)), if_pos ((isS_iff _ _ _).mpr hs')]
          unfold computeTime compute
          rw [hwave]
          simp only [bind, Except.bind, gridTime, gridFull, pure, Except.pure]
          cases a.time g w q with
          | error e => cases e <;> simp [translate]
          | ok t =>
            cases a.ray g w q with
            | error e => cases e <;> simp [translate]
            | ok r => simp [translate, eq_comm]
        · intro hp hs'
          have hwave : waveOf { model := model, pPhases := pPhases c model, sPhases := sPhases c model, grids := some g } phase =
              .error .noPhase := by
            unfold waveOf
            rw [if_neg (fun hh => hp ((isP_iff _ _ _).mp hh)), if_neg (fun hh => hs' ((isS_iff _ _ _).mp hh))]
          unfold computeTime compute
          rw [hwave]
          exact ⟨rfl, rfl⟩

/-- **C97** When setting a model fails, nothing is left of the model that was set before: the name is empty and there is no
travel time of any phase. -/
theorem failed_model_is_empty (rnd : ℚ → ℚ) (disk : Disk) (absolute : Str → Str) (cfg : Option Config) (s s' : Plugin) (model : Str)
    (r : Outcome Bool) (h : setModel rnd disk absolute cfg s model = (s', r)) (hr : r ≠ .ok true) (lt : V → V → Bool) (a : Answers V)
    (phase : Str) (q : Query V) :
    s'.model = [] ∧ computeTime a s' phase q = .error .noPhase ∧ compute a s' phase q = .error .noPhase ∧
      computeAll lt a s' q = .ok [] ∧ computeFirst lt a s' q = .error .noPhase := by
  have key : s'.model = [] ∧ s'.grids = none := by
    unfold setModel at h
    cases cfg with
    | none => simp only [Prod.mk.injEq] at h; rw [← h.1]; exact ⟨rfl, rfl⟩
    | some c =>
      simp only at h
      split at h
      · simp only [Prod.mk.injEq] at h; rw [← h.1]; exact ⟨rfl, rfl⟩
      · split at h
        · simp only [Prod.mk.injEq] at h; exact absurd h.2.symm hr
        · simp only [Prod.mk.injEq] at h; rw [← h.1]; exact ⟨rfl, rfl⟩
        · simp only [Prod.mk.injEq] at h; rw [← h.1]; exact ⟨rfl, rfl⟩
  have hw : ∀ p, (∃ w, waveOf s' p = .ok w) ∨ waveOf s' p = .error .noPhase := by
    intro p
    unfold waveOf
    split_ifs <;> simp
  have ht : ∀ p, computeTime a s' p q = .error .noPhase := by
    intro p
    unfold computeTime
    rcases hw p with ⟨w, e⟩ | e <;> rw [e]
    · rw [key.2]; rfl
    · rfl
  have hc : ∀ p, compute a s' p q = .error .noPhase := by
    intro p
    unfold compute
    rcases hw p with ⟨w, e⟩ | e <;> rw [e]
    · rw [key.2]; rfl
    · rfl
  have hall : computeAll lt a s' q = .ok [] := by
    unfold computeAll
    rw [hc, hc]
    rfl
  refine ⟨key.1, ht phase, hc phase, hall, ?_⟩
  unfold computeFirst
  rw [hall]
  rfl

/-- the travel time of a phase, if there is one -/
def available (a : Answers V) (s : Plugin) (phase : String) (q : Query V) : List (Arrival V) :=
  match compute a s phase.toList q with
  | .ok x => [x]
  | .error _ => []

theorem sortByTime_spec [LinearOrder V] (l : List (Arrival V)) (h : l.length ≤ 2) :
    (sortByTime (fun x y => decide (x < y)) l).Perm l ∧ (sortByTime (fun x y => decide (x < y)) l).Pairwise (fun x y => x.time ≤ y.time) := by
  match l, h with
  | [], _ => simp [sortByTime]
  | [x], _ => simp [sortByTime]
  | [x, y], _ =>
    unfold sortByTime
    simp only [decide_eq_true_eq]
    split_ifs with hlt
    · exact ⟨List.Perm.swap _ _ _, by simpa using hlt.le⟩
    · exact ⟨List.Perm.refl _, by simpa using hlt⟩

/-- **C97** The list of travel times has those of the phases named `P` and `S`, each if there is one, the earlier one first;
it cannot be computed exactly when the event is outside the grid of one of them. -/
theorem all_phases [LinearOrder V] (a : Answers V) (s : Plugin) (q : Query V) :
    (computeAll (fun x y => decide (x < y)) a s q = .error .outOfRange ↔
      compute a s "P".toList q = .error .outOfRange ∨ compute a s "S".toList q = .error .outOfRange) ∧
    computeAll (fun x y => decide (x < y)) a s q ≠ .error .noPhase ∧
    (∀ l, computeAll (fun x y => decide (x < y)) a s q = .ok l →
      l.Perm (available a s "P" q ++ available a s "S" q) ∧ l.Pairwise (fun x y => x.time ≤ y.time)) := by
  unfold computeAll available
  cases compute a s "P".toList q with
  | error e =>
    cases compute a s "S".toList q with
    | error e' =>
      cases e <;> cases e' <;> simp [attempt, bind, Except.bind, pure, Except.pure, sortByTime]
    | ok y => cases e <;> simp [attempt, bind, Except.bind, pure, Except.pure, sortByTime]
  | ok x =>
    cases compute a s "S".toList q with
    | error e' => cases e' <;> simp [attempt, bind, Except.bind, pure, Except.pure, sortByTime]
    | ok y =>
      simp only [attempt, bind, Except.bind, pure, Except.pure, reduceCtorEq, or_self, not_false_eq_true, ne_eq, true_and, iff_true,
        Except.ok.injEq]
      rintro l rfl
      exact sortByTime_spec [x, y] le_rfl

/-- **C97** The first arrival is the earliest of the two, and there is none exactly when there is neither. -/
theorem first_arrival [LinearOrder V] (a : Answers V) (s : Plugin) (q : Query V) :
    (∀ x, computeFirst (fun x y => decide (x < y)) a s q = .ok x →
      (compute a s "P".toList q = .ok x ∨ compute a s "S".toList q = .ok x) ∧
      ∀ y, compute a s "P".toList q = .ok y ∨ compute a s "S".toList q = .ok y → x.time ≤ y.time) ∧
    (computeFirst (fun x y => decide (x < y)) a s q = .error .noPhase ↔
      compute a s "P".toList q = .error .noPhase ∧ compute a s "S".toList q = .error .noPhase) ∧
    (computeFirst (fun x y => decide (x < y)) a s q = .error .outOfRange ↔
      compute a s "P".toList q = .error .outOfRange ∨ compute a s "S".toList q = .error .outOfRange) := by
  unfold computeFirst computeAll
  cases hp : compute a s "P".toList q with
  | error e =>
    cases hs : compute a s "S".toList q with
    | error e' =>
      cases e <;> cases e' <;> simp [attempt, bind, Except.bind, pure, Except.pure, sortByTime]
    | ok y => cases e <;> simp [attempt, bind, Except.bind, pure, Except.pure, sortByTime]
  | ok x =>
    cases hs : compute a s "S".toList q with
    | error e' => cases e' <;> simp [attempt, bind, Except.bind, pure, Except.pure, sortByTime]
    | ok y =>
      simp only [attempt, bind, Except.bind, pure, Except.pure, sortByTime, List.cons_append, List.nil_append, decide_eq_true_eq]
      split_ifs with hlt
      · simp only [Except.ok.injEq, forall_eq', reduceCtorEq, false_and, and_self, or_self, or_true, true_and, and_true]
        rintro z (rfl | rfl)
        · exact hlt.le
        · exact le_rfl
      · simp only [Except.ok.injEq, forall_eq', reduceCtorEq, false_and, and_self, or_self, true_or, true_and, and_true]
        rintro z (rfl | rfl)
        · exact le_rfl
        · exact not_lt.mp hlt

theorem gridText_unique {rnd : ℚ → ℚ} {text : Str} {s s' : Settings} (h : GridText rnd text s) (h' : GridText rnd text s') : s = s' := by
  obtain ⟨p1, d1, m, c1, rfl⟩ := h
  obtain ⟨p2, d2, m', c2, rfl⟩ := h'
  have e := (splitSemi_parts p1).symm.trans (splitSemi_parts p2)
  simp only [List.cons.injEq, and_true] at e
  obtain ⟨rfl, rfl, rfl, rfl, rfl, rfl⟩ := e
  have e1 := ((NumberSpec.stod_iff _ _ _).mpr d1).symm.trans ((NumberSpec.stod_iff _ _ _).mpr d2)
  have e2 := ((GridHeader.stoull_iff _ _).mpr c1).symm.trans ((GridHeader.stoull_iff _ _).mpr c2)
  simp only [Outcome.ok.injEq] at e1 e2
  rw [e1, e2]

theorem opened_unique {rnd : ℚ → ℚ} {disk : Disk} {s : Settings} {g g' : Grids} (h : Opened rnd disk s g) (h' : Opened rnd disk s g') :
    g = g' := by
  have := ((openGrids_iff _ _ _ _).mpr h).symm.trans ((openGrids_iff _ _ _ _).mpr h')
  simpa using this

/-- **C96** The same grids with the same settings give the relocation the same travel times, azimuths, dips and derivatives,
whether they are used directly or through SeisComP, provided that `P` is a P phase and `S` an S phase of the model. -/
theorem native_and_plugin_agree (rnd : ℚ → ℚ) (w : World) (text model : Str) (t₁ t₂ : Table) (cfg : Config) (s : Settings)
    (h₁ : table rnd w "Native:NLLGrid".toList text = .ok t₁) (h₂ : table rnd w "NLLGrid".toList model = .ok t₂)
    (hs₁ : GridText rnd text s) (hc : w.cfg = some cfg) (hs₂ : Configured w.absolute cfg model s)
    (hP : IsP cfg model "P".toList) (hS : IsS cfg model "S".toList) (hS' : ¬IsP cfg model "S".toList)
    (a : Answers V) (azimuth : Query V → V) (phase : Str) (hph : phase = "P".toList ∨ phase = "S".toList) (q : Query V) :
    tableTime a t₁ phase q = tableTime a t₂ phase q ∧ tableFull a azimuth t₁ phase q = tableFull a azimuth t₂ phase q := by
  obtain ⟨s', g, hs', hg, rfl⟩ := (native_grid_table _ _ _ _).mp h₁
  obtain ⟨cfg', s'', g', p, hc', hs'', hg', rfl, _, hgr, hpp, hps⟩ := (plugin_table _ _ _ _).mp h₂
  cases gridText_unique hs₁ hs'
  rw [hc] at hc'
  cases hc'
  have : s = s'' := by
    have := ((settings_iff _ _ _ _).mpr hs₂).symm.trans ((settings_iff _ _ _ _).mpr hs'')
    simpa using this
  subst this
  cases opened_unique hg hg'
  have key : ∀ ph wv, nativeWave ph = some wv → waveOf p ph = .ok wv →
      tableTime a (.native g) ph q = tableTime a (.plugin p) ph q ∧
        tableFull a azimuth (.native g) ph q = tableFull a azimuth (.plugin p) ph q := by
    intro ph wv h1 h2
    unfold tableTime tableFull computeTime compute
    simp only [h1, h2, hgr, Option.bind_some, bind, Except.bind, gridTime, gridFull, pure, Except.pure]
    cases a.time g wv q with
    | error e => cases e <;> simp [translate, Except.toOption]
    | ok t =>
      cases a.ray g wv q with
      | error e => cases e <;> simp [translate, Except.toOption]
      | ok r => simp [translate, Except.toOption]
  rcases hph with rfl | rfl
  · refine key _ .P (by decide) ?_
    unfold waveOf
    rw [hpp, if_pos ((isP_iff _ _ _).mpr hP)]
  · refine key _ .S (by decide) ?_
    unfold waveOf
    rw [hpp, hps, if_neg (fun hh => hS' ((isP_iff _ _ _).mp hh)), if_pos ((isS_iff _ _ _).mpr hS)]

/-- **C96** With grids used directly, the phase `P` is computed with the P grids and `S` with the S grids; there is no travel time
of any other phase. -/
theorem native_grid_phases (a : Answers V) (azimuth : Query V → V) (g : Grids) (phase : Str) (q : Query V) :
    (∀ w, (w = .P ∧ phase = "P".toList) ∨ (w = .S ∧ phase = "S".toList) →
      (∀ t, tableTime a (.native g) phase q = some t ↔ a.time g w q = .ok t) ∧
      ∀ x, tableFull a azimuth (.native g) phase q = some x ↔ a.time g w q = .ok x.1 ∧ a.ray g w q = .ok x.2) ∧
    (phase ≠ "P".toList → phase ≠ "S".toList → tableTime a (.native g) phase q = none ∧ tableFull a azimuth (.native g) phase q = none) := by
  have key : ∀ w, nativeWave phase = some w → (∀ t, tableTime a (.native g) phase q = some t ↔ a.time g w q = .ok t) ∧
      ∀ x, tableFull a azimuth (.native g) phase q = some x ↔ a.time g w q = .ok x.1 ∧ a.ray g w q = .ok x.2 := by
    intro w h
    unfold tableTime tableFull
    simp only [h, Option.bind_some, gridTime, gridFull, bind, Except.bind, pure, Except.pure]
    cases a.time g w q with
    | error e => simp [Except.toOption]
    | ok t =>
      cases a.ray g w q with
      | error e => simp [Except.toOption]
      | ok r => simp [Except.toOption, Prod.ext_iff]
  refine ⟨?_, ?_⟩
  · rintro w (⟨rfl, rfl⟩ | ⟨rfl, rfl⟩)
    · exact key _ (by decide)
    · exact key _ (by decide)
  · intro h1 h2
    unfold tableTime tableFull nativeWave
    simp only [if_neg h1, if_neg h2, Option.bind_none, and_self]

/-! ## a configuration -/

/-! ## profiles without a table -/

/-- no header of the directory has two transform lines, so that the search for grids ends (C86) -/
def Searchable (disk : Disk) : Prop :=
  ∀ path names, disk.files path = some names → ∀ f ∈ names, GridHeader.transLines ((Csv.lines (disk.text path f)).map GridHeader.words) ≤ 1

theorem openGrids_defined (rnd : ℚ → ℚ) (disk : Disk) (h : Searchable disk) (s : Settings) :
    openGrids rnd disk s ≠ .ub := by
  unfold openGrids
  cases hn : disk.files s.path with
  | none => simp
  | some names =>
    simp only
    by_cases hm : String.ofList s.accessMethod = "LoadIntoMemory" ∨ String.ofList s.accessMethod = "MemoryMapping" ∨
        String.ofList s.accessMethod = "KeepOpen"
    · obtain ⟨ix, hix⟩ := GridHeader.search_completes_partial (rnd := rnd) (swap := s.swapBytes) (model := s.model)
        (text := disk.text s.path) (ex := disk.present s.path) _ hm names (h _ _ hn)
      rw [hix]; simp [Outcome.map]
    · rw [GridHeader.access_method_checked _ _ hm]; simp [Outcome.map]

/-- **C96** A profile that gets no table is refused with an exception, provided that the search for grids ends and the tables of
SeisComP behave. -/
theorem refused_with_exception (rnd : ℚ → ℚ) (w : World) (hd : Searchable w.disk)
    (ho : ∀ type f model, w.others type = some f → f model ≠ .ub) (type model : Str) (h : ∀ t, table rnd w type model ≠ .ok t) :
    table rnd w type model = .throws := by
  have hg := openGrids_defined rnd w.disk hd
  have key : table rnd w type model ≠ .ub := by
    unfold table
    split
    · split
      · refine GridHeader.bind_ne_ub (GridHeader.stod_ne_ub _ _) (fun d => GridHeader.bind_ne_ub (GridHeader.stoull_ne_ub _) (fun n =>
          GridHeader.bind_ne_ub (hg _) (fun g => by simp)))
      · simp
    split
    · split
      · exact GridHeader.bind_ne_ub (GridHeader.stod_ne_ub _ _) (fun p => GridHeader.bind_ne_ub (GridHeader.stod_ne_ub _ _) (fun s => by simp))
      · simp
    unfold adapter
    split
    · have hs : (setModel rnd w.disk w.absolute w.cfg {} model).2 ≠ .ub := by
        unfold setModel
        split
        · simp
        · simp only
          split
          · simp
          · next s _ =>
            have := hg s
            split <;> simp_all
      revert hs
      generalize setModel rnd w.disk w.absolute w.cfg {} model = r
      obtain ⟨s, r⟩ := r
      cases r with
      | ok b => cases b <;> simp
      | throws => simp
      | ub => simp
    · split
      · simp
      · next f hf =>
        exact GridHeader.bind_ne_ub (ho _ _ _ hf) (fun b => by cases b <;> simp)
  cases ht : table rnd w type model with
  | ok t => exact absurd ht (h t)
  | throws => rfl
  | ub => exact absurd ht key

section Example

/-- the directory `/g` has no grid -/
def disk : Disk := ⟨fun d => if d = "/g".toList then some [] else none, fun _ _ => [], fun _ _ => false⟩

/-- the model `m` is configured, with `Pg` as the only P phase if `pg` -/
def config (pg : Bool) : Config :=
  { strings := fun k => if pg ∧ k = "ttt.NLLGrid.m.P-Phases".toList then some ["Pg".toList] else none
    string := fun k => if k = "ttt.NLLGrid.m.tablePath".toList then some "/g/v".toList else none
    double := fun _ => none
    bool := fun _ => none
    int := fun _ => none }

def world (pg : Bool) : World := ⟨disk, id, some (config pg), fun _ => none⟩

def gridsOfM : Grids := ⟨⟨"/g".toList, "v".toList, .num 10, false, 512, "KeepOpen".toList⟩, {}⟩

theorem throws_of {x : Outcome Table} (h : (match x with
    | .throws => true
    | _ => false) = true) : x = .throws := by
  cases x <;> simp at h ⊢

theorem native_of {x : Outcome Table} {p : Settings → Prop} [DecidablePred p] (h : (match x with
    | .ok (.native g) => decide (p g.settings)
    | _ => false) = true) : ∃ g, x = .ok (.native g) ∧ p g.settings := by
  split at h
  · exact ⟨_, rfl, of_decide_eq_true h⟩
  · cases h

/-- the grids of another directory than `/g` are refused: the hypotheses are met -/
example : table id (world false) "Native:NLLGrid".toList "/x;v;10;no;512;KeepOpen".toList = .throws := by
  refine refused_with_exception id (world false) ?_ (by simp [world]) _ _ ?_
  · intro path names h f hf
    simp only [world, disk] at h
    split at h
    · cases h; simp at hf
    · cases h
  · intro t ht
    have : table id (world false) "Native:NLLGrid".toList "/x;v;10;no;512;KeepOpen".toList = .throws :=
      throws_of (by decide +kernel)
    rw [this] at ht; cases ht

/-- the object with the model `m` set -/
def pluginM (pg : Bool) : Plugin := ⟨"m".toList, pPhases (config pg) "m".toList, sPhases (config pg) "m".toList, some gridsOfM⟩

/-- the hypothesis of `phase_times` -/
theorem set_m (pg : Bool) : setModel id disk id (some (config pg)) {} "m".toList = (pluginM pg, .ok true) := by
  cases pg <;> rfl

/-- grids that answer 1 for P and 2 for S, but P events below 10 are outside -/
def answers : Answers ℚ :=
  { time := fun _ w q => match w with
      | .P => if q.dep1 > 10 then .error .outOfGrid else .ok 1
      | .S => .ok 2
    ray := fun _ _ _ => .ok ⟨0, 90, 1, 0⟩ }

def query (depth : ℚ) : Query ℚ := ⟨0, 0, depth, 0, 1, 0⟩

/-- the table of the profile, directly and through SeisComP -/
theorem native_m : ∃ g, table id (world false) "Native:NLLGrid".toList "/g;v;10;no;512;KeepOpen".toList = .ok (.native g) ∧
    g.settings = gridsOfM.settings := native_of (p := fun s => s = gridsOfM.settings) (by decide +kernel)

example : table id (world false) "NLLGrid".toList "m".toList = .ok (.plugin (pluginM false)) := by rfl

/-- the hypotheses of `native_and_plugin_agree` -/
example : ∃ t₁ t₂ s, table id (world false) "Native:NLLGrid".toList "/g;v;10;no;512;KeepOpen".toList = .ok t₁ ∧
    table id (world false) "NLLGrid".toList "m".toList = .ok t₂ ∧ GridText id "/g;v;10;no;512;KeepOpen".toList s ∧
    Configured (world false).absolute (config false) "m".toList s ∧ IsP (config false) "m".toList "P".toList ∧
    IsS (config false) "m".toList "S".toList ∧ ¬IsP (config false) "m".toList "S".toList := by
  obtain ⟨g, hg, hset⟩ := native_m
  obtain ⟨s, g', ht, ho, e⟩ := (native_grid_table _ _ _ _).mp hg
  cases e
  have hs : s = gridsOfM.settings := ho.2.1.symm.trans hset
  subst hs
  refine ⟨_, _, _, hg, rfl, ht, (settings_iff _ _ _ _).mp rfl, (isP_iff _ _ _).mp (by decide +kernel),
    (isS_iff _ _ _).mp (by decide +kernel), fun h => absurd ((isP_iff _ _ _).mpr h) (by decide +kernel)⟩

example : computeTime answers (pluginM false) "Pn".toList (query 0) = .ok 1 := by rfl
example : computeTime answers (pluginM false) "S".toList (query 0) = .ok 2 := by rfl
example : computeTime answers (pluginM false) "PmP".toList (query 0) = .error .noPhase := by rfl

/-- the hypothesis of `failed_model_is_empty`: the model `x` is not configured -/
example : setModel id disk id (some (config false)) (pluginM false) "x".toList =
    ({ pluginM false with model := [], grids := none }, .ok false) := by rfl

/-- used directly, these grids give times of `P` and `S` and none of `Pg` -/
example : tableTime answers (.native gridsOfM) "P".toList (query 0) = some 1 ∧ tableTime answers (.native gridsOfM) "S".toList (query 0) = some 2 ∧
    tableTime answers (.native gridsOfM) "Pg".toList (query 0) = none := ⟨rfl, rfl, rfl⟩

/-- **C96** More than 2^32 - 1 open files are not asked for: the number is cut to 32 bits, and 0 means no maximum (C46). -/
theorem max_open_files_wraps : ∃ g, table id (world false) "Native:NLLGrid".toList "/g;v;10;no;4294967296;KeepOpen".toList = .ok (.native g) ∧
    g.settings.maxOpenFiles = 0 := native_of (p := fun s => s.maxOpenFiles = 0) (by decide +kernel)

/-- **C96** A part of the settings that is left empty is not seen: the other parts move up, and here there is no table. -/
theorem empty_part_lost : table id (world false) "Native:NLLGrid".toList "/g;v;10;;512;KeepOpen".toList = .throws := by rfl

/-- **C97** With `Pg` as the only P phase, the first arrival is the S phase although `Pg` is earlier, and the relocation, which asks
for `P`, has no travel time of P waves. -/
theorem first_arrival_misses_p :
    ∃ x y, computeFirst (fun x y => decide (x < y)) answers (pluginM true) (query 0) = .ok x ∧ x.phase = "S".toList ∧
      compute answers (pluginM true) "Pg".toList (query 0) = .ok y ∧ y.time < x.time ∧
      tableTime answers (.plugin (pluginM true)) "P".toList (query 0) = none :=
  ⟨_, _, rfl, rfl, rfl, by decide +kernel, rfl⟩

/-- **C97** When the event is outside the P grid, the list and the first arrival fail although there is an S travel time. -/
theorem outside_p_grid_hides_s :
    computeTime answers (pluginM false) "S".toList (query 20) = .ok 2 ∧
      computeAll (fun x y => decide (x < y)) answers (pluginM false) (query 20) = .error .outOfRange ∧
      computeFirst (fun x y => decide (x < y)) answers (pluginM false) (query 20) = .error .outOfRange := ⟨rfl, rfl, rfl⟩

end Example

end Verif.Tables
