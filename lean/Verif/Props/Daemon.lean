import Verif.Spec.Daemon

/-!
# C80 and C82: which origins are relocated, and the two steps of the relocation
-/

set_option linter.unusedSimpArgs false

namespace Verif.Daemon
open Verif.Catalog Spec

/-! ## decision -/

theorem fits_iff (cfg : Config) (o : Origin) (p : Profile) :
    (if cfg.forceProfile ≠ "" then decide (p.name = cfg.forceProfile) else p.inside o.org.latitude o.org.longitude) = true ↔ Fits cfg o p := by
  unfold Fits
  by_cases h : cfg.forceProfile = "" <;> simp [h]

theorem selectProfile_some {cfg : Config} {o : Origin} {profs : List (Profile × ProfileState)} {i : Nat} :
    selectProfile cfg o profs = some i ↔ Chosen cfg o profs i := by
  unfold selectProfile
  rw [List.findIdx?_eq_some_iff_getElem]
  constructor
  · rintro ⟨h, h1, h2⟩
    refine ⟨⟨profs[i], by simp [h], (fits_iff cfg o _).1 (by simpa using h1)⟩, ?_⟩
    intro j hj ps hps hf
    obtain ⟨hlt, rfl⟩ := List.getElem?_eq_some_iff.1 hps
    have := h2 j hj
    rw [← fits_iff] at hf
    simp only [ne_eq] at this hf
    exact this hf
  · rintro ⟨⟨ps, hps, hf⟩, h2⟩
    obtain ⟨hlt, rfl⟩ := List.getElem?_eq_some_iff.1 hps
    refine ⟨hlt, by simpa using (fits_iff cfg o _).2 hf, ?_⟩
    intro j hj hf
    have hj' : j < profs.length := lt_trans hj hlt
    exact h2 j hj profs[j] (by simp [hj']) ((fits_iff cfg o _).1 (by simpa using hf))

theorem chosen_unique {cfg : Config} {o : Origin} {profs : List (Profile × ProfileState)} {i j : Nat}
    (hi : Chosen cfg o profs i) (hj : Chosen cfg o profs j) : i = j := by
  rw [← selectProfile_some] at hi hj
  exact Option.some.inj (hi.symm.trans hj)

theorem accepted_iff (cfg : Config) (w : World) (o : Origin) :
    accepted cfg w o = true ↔ (cfg.forceProcessing = true ∨
      (o.manual = some true → cfg.allowManualOrigin = true) ∧ (o.manual ≠ some true → cfg.allowAutomaticOrigin = true) ∧
      (cfg.acceptedOriginAuthors = [] ∨ ∃ a ∈ cfg.acceptedOriginAuthors, o.author = some a) ∧ w.blocked o.agencyID = false) := by
  have hm : o.manual.getD false = true ↔ o.manual = some true := by
    cases o.manual with
    | none => simp
    | some b => cases b <;> simp
  unfold accepted
  by_cases hf : cfg.forceProcessing = true
  · simp [hf]
  · simp only [Bool.not_eq_true] at hf
    by_cases hm' : o.manual = some true
    · simp [hf, hm']
    · have : o.manual.getD false = false := by rw [← Bool.not_eq_true, hm]; exact hm'
      simp [hf, hm', this]

/-! ## relocation -/

theorem firstEvent_ok {c : Catalog Num} {e : Event Num} (h : firstEvent c = .ok e) : ∃ k, c.eventsSorted.head? = some (k, e) := by
  unfold firstEvent at h
  cases hs : c.eventsSorted with
  | nil => rw [hs] at h; cases h
  | cons kv l =>
    rw [hs] at h
    cases h
    exact ⟨kv.1, by simp⟩

theorem firstEvent_of_head {c : Catalog Num} {k : Nat} {e : Event Num} (h : c.eventsSorted.head? = some (k, e)) : firstEvent c = .ok e := by
  unfold firstEvent
  cases hs : c.eventsSorted with
  | nil => rw [hs] at h; cases h
  | cons kv l => rw [hs] at h; cases h; rfl

theorem relocateSingleEvent_ok {dd : DD} {cat r : Catalog Num} {m : Bool} {c : ClusteringOptions} {x : XcorrOptions}
    (h : dd.relocateSingleEvent cat m c x = .ok r) : dd.relocate cat m c x = .ok r ∧ cat.eventsSorted ≠ [] := by
  unfold DD.relocateSingleEvent at h
  cases hs : cat.eventsSorted with
  | nil => rw [hs] at h; cases h
  | cons _ _ => rw [hs] at h; exact ⟨h, by simp⟩

theorem relocateSingleEvent_eq {dd : DD} {cat : Catalog Num} {m : Bool} {c : ClusteringOptions} {x : XcorrOptions}
    (h : cat.eventsSorted ≠ []) : dd.relocateSingleEvent cat m c x = dd.relocate cat m c x := by
  unfold DD.relocateSingleEvent
  cases hs : cat.eventsSorted with
  | nil => exact absurd hs h
  | cons _ _ => rfl

theorem bind_eq_ok {α β : Type} {x : Outcome α} {f : α → Outcome β} {b : β} (h : (x >>= f) = .ok b) : ∃ a, x = .ok a ∧ f a = .ok b := by
  cases x with
  | ok a => exact ⟨a, rfl, h⟩
  | throws => cases h
  | ub => cases h

/-- **C82** The two steps of the relocation of one origin: the second starts from the result of the first, or from the
origin itself if the first gave nothing; the result is that of the second, except perhaps the initial rms of its event. -/
theorem two_steps {w : World} {p : Profile} {dd : DD} {isManual : Bool} {cat r : Catalog Num}
    (h : twoSteps w p dd isManual cat = .ok r) :
    ∃ r1 r2, TwoSteps p dd isManual cat r1 r2 ∧ SameExceptStartRms r r2 ∧ (isEmpty r2 = true → r = r2) ∧
      cat.eventsSorted ≠ [] ∧ (isEmpty r1 = false → r1.eventsSorted ≠ []) ∧ (isEmpty r2 = false → r2.eventsSorted ≠ []) := by
  unfold twoSteps at h
  obtain ⟨r1, h1, h'⟩ := bind_eq_ok h
  obtain ⟨⟨single, left⟩, h2, h''⟩ := bind_eq_ok h'
  clear h h'
  obtain ⟨r2, h3, h⟩ := bind_eq_ok h''
  clear h''
  obtain ⟨g1, hcat⟩ := relocateSingleEvent_ok h1
  obtain ⟨g2, hsingle⟩ := relocateSingleEvent_ok h3
  have hs : single = if isEmpty r1 then cat else r1 := by
    by_cases he : isEmpty r1 = true
    · rw [if_pos he] at h2; cases h2; rw [if_pos he]
    · rw [if_neg he] at h2
      obtain ⟨_, -, h2⟩ := bind_eq_ok h2
      cases h2; rw [if_neg he]
  subst hs
  refine ⟨r1, r2, ⟨g1, g2⟩, ?_⟩
  have hr1 : isEmpty r1 = false → r1.eventsSorted ≠ [] := by
    intro he
    rw [if_neg (by simp [he])] at hsingle
    exact hsingle
  by_cases he : isEmpty r2 = true
  · rw [if_pos he] at h
    cases h
    exact ⟨⟨rfl, rfl, .inl rfl⟩, fun _ => rfl, hcat, hr1, fun hn => by simp [he] at hn⟩
  · rw [if_neg he] at h
    obtain ⟨ev, h4, h⟩ := bind_eq_ok h
    obtain ⟨k, hk⟩ := firstEvent_ok h4
    have hr2 : r2.eventsSorted ≠ [] := by intro hn; rw [hn] at hk; cases hk
    have fin : ∀ r : Catalog Num, SameExceptStartRms r r2 →
        SameExceptStartRms r r2 ∧ (isEmpty r2 = true → r = r2) ∧ cat.eventsSorted ≠ [] ∧
          (isEmpty r1 = false → r1.eventsSorted ≠ []) ∧ (isEmpty r2 = false → r2.eventsSorted ≠ []) :=
      fun r hr => ⟨hr, fun hn => absurd hn he, hcat, hr1, fun _ => hr2⟩
    by_cases hl : isEmpty left = true
    · rw [if_pos hl] at h; cases h
      exact fin _ ⟨rfl, rfl, .inl rfl⟩
    · rw [if_neg hl] at h
      obtain ⟨prev, h5, h⟩ := bind_eq_ok h
      by_cases hp : prev.isRelocated = true
      · rw [if_pos hp] at h
        unfold Catalog.updateEvent at h
        apply fin
        cases hf : r2.events.find? ev.id with
        | none => simp [hf] at h; subst h; exact ⟨rfl, rfl, .inl rfl⟩
        | some e0 =>
          simp [hf] at h; subst h
          exact ⟨rfl, rfl, .inr ⟨k, ev, prev.startRms, hk, rfl⟩⟩
      · rw [if_neg hp] at h; cases h
        exact fin _ ⟨rfl, rfl, .inl rfl⟩

theorem renamePhases_spec (p : Profile) (isManual : Bool) (cat : Catalog Num) :
    (renamePhases p isManual cat).stations = cat.stations ∧ (renamePhases p isManual cat).events = cat.events ∧
    List.Forall₂ (fun a b => b.1 = a.1 ∧ Renamed p isManual a.2 b.2) cat.phases (renamePhases p isManual cat).phases := by
  unfold renamePhases
  split
  · rename_i h
    simp only [Bool.and_eq_true, Bool.not_eq_true', decide_eq_true_eq, Bool.or_eq_true] at h
    refine ⟨rfl, rfl, ?_⟩
    rw [List.forall₂_map_right_iff]
    refine List.forall₂_same.2 fun x _ => ⟨rfl, ?_⟩
    unfold Renamed renamePhase
    simp only [h.1, true_and]
    by_cases h1 : x.2.type = "P" ∧ p.autoPMap ≠ ""
    · simp only [if_pos h1]
    · by_cases h2 : x.2.type = "S" ∧ p.autoSMap ≠ ""
      · simp only [if_neg h1, if_pos h2]
      · simp only [if_neg h1, if_neg h2]
  · rename_i h
    refine ⟨rfl, rfl, List.forall₂_same.2 fun x _ => ⟨rfl, ?_⟩⟩
    unfold Renamed
    have h1 : ¬ (isManual = false ∧ x.2.type = "P" ∧ p.autoPMap ≠ "") := by
      rintro ⟨a, -, b⟩; simp [a, b] at h
    have h2 : ¬ (isManual = false ∧ x.2.type = "S" ∧ p.autoSMap ≠ "") := by
      rintro ⟨a, -, b⟩; simp [a, b] at h
    rw [if_neg h1, if_neg h2]

theorem forall₂_eq_of_functional {A B : Type} {f : A → B} {R : A → B → Prop} (hR : ∀ a b, R a b → b = f a) :
    ∀ {l : List A} {m : List B}, List.Forall₂ R l m → m = l.map f
  | _, _, .nil => rfl
  | _, _, .cons h t => by rw [List.map_cons, ← hR _ _ h, ← forall₂_eq_of_functional hR t]

/-- the renamed catalog is determined by the relation -/
theorem renamePhases_unique {p : Profile} {isManual : Bool} {cat cat' : Catalog Num} (h1 : cat'.stations = cat.stations)
    (h2 : cat'.events = cat.events)
    (h3 : List.Forall₂ (fun a b => b.1 = a.1 ∧ Renamed p isManual a.2 b.2) cat.phases cat'.phases) : cat' = renamePhases p isManual cat := by
  obtain ⟨g1, g2, g3⟩ := renamePhases_spec p isManual cat
  have key : ∀ {m : List (Nat × Phase Num)},
      List.Forall₂ (fun a b => b.1 = a.1 ∧ Renamed p isManual a.2 b.2) cat.phases m → m = cat.phases.map (fun a => (a.1, { a.2 with type :=
    if isManual = false ∧ a.2.type = "P" ∧ p.autoPMap ≠ "" then p.autoPMap
    else if isManual = false ∧ a.2.type = "S" ∧ p.autoSMap ≠ "" then p.autoSMap
    else a.2.type })) :=
    fun h => forall₂_eq_of_functional (by rintro ⟨a1, a2⟩ ⟨b1, b2⟩ ⟨h1, h2⟩; simp only at h1 h2; rw [h1]; unfold Renamed at h2; rw [h2]) h
  have hp := (key h3).trans (key g3).symm
  cases cat' with
  | mk a b c =>
    cases hr : renamePhases p isManual cat with
    | mk a' b' c' =>
      rw [hr] at g1 g2 hp
      simp only at h1 h2 hp g1 g2
      rw [h1, h2, hp, g1, g2]

theorem singleEvent_ok {w : World} {dd : DD} {o : Origin} {cat : Catalog Num} {m : Bool} (h : singleEvent w dd o = .ok (cat, m)) :
    o.manual = some m ∧ ∃ ids, SeisComP.addToCatalog w.source w.inventory w.rawEvent w.rawPhase [o.org] (⟨dd.stations, [], []⟩, []) =
      .ok (cat, ids) := by
  unfold singleEvent at h
  obtain ⟨r, h1, h⟩ := bind_eq_ok h
  obtain ⟨b, h2, h⟩ := bind_eq_ok h
  cases h
  refine ⟨?_, r.2, h1⟩
  cases ho : o.manual with
  | none => rw [ho] at h2; cases h2
  | some b' => rw [ho] at h2; cases h2; rfl

theorem isEmpty_same {a b : Catalog Num} (h : SameExceptStartRms a b) (hb : b.eventsSorted ≠ []) : isEmpty a = isEmpty b := by
  obtain ⟨h1, h2, h3⟩ := h
  rcases h3 with h3 | ⟨k, e, rms, -, h3⟩
  · unfold isEmpty; rw [h1, h2, h3]
  · have hne : b.events ≠ [] := by
      intro hn; apply hb; unfold Catalog.eventsSorted; rw [hn]; rfl
    have hs : (b.events.set e.id { e with startRms := rms }) ≠ [] := by simp [AMap.set]
    unfold isEmpty
    rw [h1, h2, h3, List.isEmpty_eq_false_iff.2 hne, List.isEmpty_eq_false_iff.2 hs]

theorem relocateOrigin_ok {w : World} {now : Int} {p : Profile} {s s' : ProfileState} {o : Origin} {r : Catalog Num} (hl : s.loaded = true)
    (h : relocateOrigin w now p s o = .ok (s', r)) : ∃ dd isManual cat, s.dd = some dd ∧ s' = ⟨true, some dd, now⟩ ∧
      Prepared w p dd o isManual cat ∧ twoSteps w p dd isManual cat = .ok r := by
  unfold relocateOrigin at h
  rw [if_neg (by simp [hl])] at h
  cases hd : s.dd with
  | none => rw [hd] at h; cases h
  | some dd =>
    rw [hd] at h
    obtain ⟨⟨cat, m⟩, h1, h'⟩ := bind_eq_ok h
    obtain ⟨r', h2, h3⟩ := bind_eq_ok h'
    simp only [Outcome.ok.injEq, Prod.mk.injEq] at h3
    obtain ⟨rfl, rfl⟩ := h3
    obtain ⟨k1, ids, k2⟩ := singleEvent_ok h1
    obtain ⟨g1, g2, g3⟩ := renamePhases_spec p m cat
    refine ⟨dd, m, _, rfl, ?_, ⟨k1, cat, ids, k2, g1, g2, g3⟩, h2⟩
    rw [hl]

/-- **C80** What a started job does.  Either there is nothing to do for its object, because it has no known origin, or the
origin does not pass the filters, or no profile fits: then nothing is published, no profile changes and the job is not run
again.  Or the origin is relocated with the first profile that fits, which is loaded if it was not: when it cannot be loaded
nothing is published, otherwise the result of the two steps of the relocation. -/
theorem job_result {cfg : Config} {w : World} {now : Int} {obj : Obj} {profs profs' : List (Profile × ProfileState)} {again : Bool}
    {new : Option Published} (h : startProcess cfg w now obj profs = .ok (again, profs', new)) :
    ((¬ ∃ o i, Job cfg w obj profs o i) ∧ again = false ∧ profs' = profs ∧ new = none) ∨
    ∃ o i p s, Job cfg w obj profs o i ∧ profs[i]? = some (p, s) ∧ again = true ∧
      ((s.loaded = false ∧ w.load p = none ∧ new = none ∧ profs' = profs.set i (p, ⟨false, none, now⟩)) ∨
       ∃ dd, (s.loaded = true ∧ s.dd = some dd ∨ s.loaded = false ∧ w.load p = some dd) ∧
        profs' = profs.set i (p, ⟨true, some dd, now⟩) ∧ Relocated cfg w p dd o new) := by
  unfold startProcess at h
  obtain ⟨⟨org, pref⟩, h1, h2⟩ := bind_eq_ok h
  clear h
  have htarget : (∀ o, Target w obj o ↔ org = some o) ∧ (pref = true ↔ Preferred w obj) := by
    cases obj with
    | event e =>
      cases h1
      exact ⟨fun o => Iff.rfl, by simp [Preferred]⟩
    | origin o' =>
      unfold originOf at h1
      cases hq : w.query with
      | none => rw [hq] at h1; cases h1
      | some q =>
        rw [hq] at h1
        cases h1
        exact ⟨fun o => by simp [Target, eq_comm], by simp [Preferred]⟩
  simp only at h2
  by_cases hp : (cfg.onlyPreferredOrigin && !cfg.forceProcessing && !pref) = true
  · rw [if_pos hp] at h2
    cases h2
    refine .inl ⟨?_, rfl, rfl, rfl⟩
    simp only [Bool.and_eq_true, Bool.not_eq_true'] at hp
    rintro ⟨o, i, -, hw, -⟩
    rcases hw with hw | ⟨hw, -⟩
    · rw [hw] at hp; simp at hp
    · have := htarget.2.2 (hw hp.1.1); rw [hp.2] at this; cases this
  · rw [if_neg hp] at h2
    cases org with
    | none =>
      cases h2
      refine .inl ⟨?_, rfl, rfl, rfl⟩
      rintro ⟨o, i, ht, -⟩
      rw [htarget.1] at ht; cases ht
    | some o =>
      have ho : Target w obj o := (htarget.1 o).2 rfl
      have huniq : ∀ o', Target w obj o' → o' = o := fun o' h' => by rw [htarget.1] at h'; exact (Option.some.inj h').symm
      simp only at h2
      cases hs : selectProfile cfg o profs with
      | none =>
        rw [hs] at h2
        cases h2
        refine .inl ⟨?_, rfl, rfl, rfl⟩
        rintro ⟨o', i, ht, -, hc⟩
        rw [huniq o' ht, ← selectProfile_some, hs] at hc; cases hc
      | some i =>
        rw [hs] at h2
        have hc := selectProfile_some.1 hs
        obtain ⟨⟨⟨p, s⟩, hi, hf⟩, -⟩ := id hc
        simp only [hi] at h2
        obtain ⟨⟨again', s', new'⟩, h3, h4⟩ := bind_eq_ok h2
        clear h2
        simp only [Outcome.ok.injEq, Prod.mk.injEq] at h4
        obtain ⟨rfl, rfl, rfl⟩ := h4
        unfold processOrigin at h3
        by_cases ha : accepted cfg w o = true
        · rw [if_neg (by simp [ha])] at h3
          have hw : Wanted cfg w obj o := by
            rcases (accepted_iff cfg w o).1 ha with h | h
            · exact .inl h
            · by_cases hforce : cfg.forceProcessing = true
              · exact .inl hforce
              · refine .inr ⟨fun honly => htarget.2.1 ?_, h⟩
                simp only [Bool.not_eq_true] at hforce
                simpa [honly, hforce] using hp
          obtain ⟨⟨s2, cat⟩, h5, h6⟩ := bind_eq_ok h3
          clear h3
          right
          have hready : (s.load w now p).loaded = false ∧ s.loaded = false ∧ w.load p = none ∧ s.load w now p = ⟨false, none, now⟩ ∨
              (s.load w now p).loaded = true ∧ ∀ dd, (s.load w now p).dd = some dd →
                (s.loaded = true ∧ s.dd = some dd ∨ s.loaded = false ∧ w.load p = some dd) := by
            unfold ProfileState.load
            by_cases hl : s.loaded = true
            · rw [if_pos hl]
              exact .inr ⟨hl, fun dd h => .inl ⟨hl, h⟩⟩
            · rw [if_neg hl]
              simp only [Bool.not_eq_true] at hl
              cases hwl : w.load p with
              | none => exact .inl ⟨rfl, hl, rfl, rfl⟩
              | some dd' => exact .inr ⟨rfl, fun dd h => .inr ⟨hl, h⟩⟩
          rcases hready with ⟨hr1, hr2, hr3, hr4⟩ | ⟨hr1, hr2⟩
          · unfold relocateOrigin at h5
            rw [if_pos (by simp [hr1])] at h5
            cases h5
            simp only at h6
            rw [if_pos (by rfl)] at h6
            cases h6
            exact ⟨o, i, p, s, ⟨ho, hw, hc⟩, hi, rfl, .inl ⟨hr2, hr3, rfl, by rw [hr4]⟩⟩
          · obtain ⟨dd, m, cat', k1, k2, k3, k4⟩ := relocateOrigin_ok hr1 h5
            obtain ⟨r1, r2, t1, t2, t3, t4, t5, t6⟩ := two_steps k4
            subst k2
            have hsame : isEmpty cat = isEmpty r2 := by
              by_cases he : isEmpty r2 = true
              · rw [t3 he]
              · exact isEmpty_same t2 (t6 (by simpa using he))
            simp only at h6
            have hfin : again' = true ∧ s' = ⟨true, some dd, now⟩ ∧ Relocated cfg w p dd o new' := by
              by_cases he : isEmpty cat = true
              · rw [if_pos he] at h6
                cases h6
                exact ⟨rfl, rfl, m, cat', r1, r2, cat, k3, t1, t2, fun _ => rfl, fun hn => by rw [hsame] at he; rw [he] at hn; cases hn⟩
              · rw [if_neg he] at h6
                obtain ⟨ev, h7, h8⟩ := bind_eq_ok h6
                obtain ⟨x, h9, h10⟩ := bind_eq_ok h8
                cases h10
                obtain ⟨k, hk⟩ := firstEvent_ok h7
                exact ⟨rfl, rfl, m, cat', r1, r2, cat, k3, t1, t2, fun hn => by rw [hsame] at he; exact absurd hn he,
                  fun _ => ⟨x, rfl, k, ev, hk, h9⟩⟩
            obtain ⟨rfl, rfl, hrel⟩ := hfin
            exact ⟨o, i, p, s, ⟨ho, hw, hc⟩, hi, rfl, .inr ⟨dd, hr2 dd k1, rfl, hrel⟩⟩
        · rw [if_pos (by simpa using ha)] at h3
          cases h3
          refine .inl ⟨?_, rfl, ?_, rfl⟩
          · rintro ⟨o', i', ht, hw, -⟩
            rw [huniq o' ht] at hw
            apply ha
            rw [accepted_iff]
            rcases hw with hw | hw
            · exact .inl hw
            · exact .inr hw.2
          · apply List.ext_getElem?
            intro j
            rw [List.getElem?_set]
            split
            · rename_i hij
              subst hij
              obtain ⟨hlt, he⟩ := List.getElem?_eq_some_iff.1 hi
              rw [if_pos hlt, hi]
            · rfl

/-- there is a database, or the object is an event -/
def Answerable (w : World) (obj : Obj) : Prop := w.query.isSome = true ∨ ∃ e, obj = .event e

theorem originOf_ok {w : World} {obj : Obj} (h : Answerable w obj) : ∃ org pref, originOf w obj = .ok (org, pref) ∧
    (∀ o, Target w obj o ↔ org = some o) ∧ (pref = true ↔ Preferred w obj) := by
  cases obj with
  | event e => exact ⟨_, _, rfl, fun o => Iff.rfl, by simp [Preferred]⟩
  | origin o' =>
    rcases h with h | ⟨e, he⟩
    · obtain ⟨q, hq⟩ := Option.isSome_iff_exists.1 h
      refine ⟨some o', decide (w.preferredOf o'.org.publicID = some o'.org.publicID), ?_, fun o => by simp [Target, eq_comm], by simp [Preferred]⟩
      unfold originOf
      rw [hq]
    · cases he

theorem set_same {A : Type} {l : List A} {i : Nat} {a : A} (h : l[i]? = some a) : l.set i a = l := by
  obtain ⟨hlt, rfl⟩ := List.getElem?_eq_some_iff.1 h
  exact List.set_getElem_self hlt

/-- **C80b** When there is nothing to do for the object of a job, starting it has no effect and it is not run again. -/
theorem nothing_to_do {cfg : Config} {w : World} {now : Int} {obj : Obj} {profs : List (Profile × ProfileState)} (hq : Answerable w obj)
    (h : ¬ ∃ o i, Job cfg w obj profs o i) : startProcess cfg w now obj profs = .ok (false, profs, none) := by
  obtain ⟨org, pref, h1, h2, h3⟩ := originOf_ok hq
  unfold startProcess
  rw [h1]
  simp only [Outcome.bind_ok]
  by_cases hp : (cfg.onlyPreferredOrigin && !cfg.forceProcessing && !pref) = true
  · rw [if_pos hp]
  · rw [if_neg hp]
    cases org with
    | none => rfl
    | some o =>
      simp only
      cases hs : selectProfile cfg o profs with
      | none => rfl
      | some i =>
        have hc := selectProfile_some.1 hs
        obtain ⟨⟨⟨p, s⟩, hi, hf⟩, -⟩ := id hc
        simp only [hi]
        have ha : accepted cfg w o = false := by
          rw [← Bool.not_eq_true]
          intro ha
          apply h
          refine ⟨o, i, (h2 o).2 rfl, ?_, hc⟩
          rcases (accepted_iff cfg w o).1 ha with h | h
          · exact .inl h
          · by_cases hforce : cfg.forceProcessing = true
            · exact .inl hforce
            · refine .inr ⟨fun honly => h3.1 ?_, h⟩
              simp only [Bool.not_eq_true] at hforce
              simpa [honly, hforce] using hp
        unfold processOrigin
        rw [if_pos (by simp [ha])]
        simp only [Outcome.bind_ok, set_same hi]

/-- the catalog has an event unless it is empty, as the results of a relocation -/
def Proper (c : Catalog Num) : Prop := isEmpty c = false → c.events ≠ []

theorem eventsSorted_ne_nil {c : Catalog Num} (h : c.events ≠ []) : c.eventsSorted ≠ [] := by
  intro hn
  apply h
  have := congrArg List.length hn
  unfold Catalog.eventsSorted at this
  rw [List.length_insertionSort] at this
  exact List.eq_nil_of_length_eq_zero this

theorem eventsSorted_head {c : Catalog Num} (h : c.events ≠ []) : ∃ k e, c.eventsSorted.head? = some (k, e) := by
  cases hs : c.eventsSorted with
  | nil => exact absurd hs (eventsSorted_ne_nil h)
  | cons kv l => exact ⟨kv.1, kv.2, by simp⟩

/-- **C82b** If moving from a catalog leaves it empty, as in the common libraries, the result is exactly that of the second
step: the initial rms is that of the second step, not that of the first. -/
theorem two_steps_result {w : World} {p : Profile} {dd : DD} {isManual : Bool} {cat r1 r2 : Catalog Num}
    (hmove : ∀ c, isEmpty (w.afterMove c) = true) (hcat : cat.events ≠ []) (h : TwoSteps p dd isManual cat r1 r2) (h1 : Proper r1)
    (h2 : Proper r2) : twoSteps w p dd isManual cat = .ok r2 := by
  have e1 : dd.relocateSingleEvent cat isManual { p.clustering with minEvStaToInterEvRatio := .num 1 } { p.xcorr with enable := false } =
      .ok r1 := (relocateSingleEvent_eq (eventsSorted_ne_nil hcat)).trans h.first
  have hs : (if isEmpty r1 then cat else r1).eventsSorted ≠ [] := by
    split
    · exact eventsSorted_ne_nil hcat
    · rename_i hn
      exact eventsSorted_ne_nil (h1 (by simpa using hn))
  have e2 := (relocateSingleEvent_eq (dd := dd) (m := isManual) (c := { p.clustering with numEllipsoids := 1 }) (x := p.xcorr) hs).trans h.second
  have e3 : (if isEmpty r1 then (.ok (cat, r1) : Outcome (Catalog Num × Catalog Num)) else do
      let _ ← firstEvent r1
      .ok (r1, w.afterMove r1)) = .ok (if isEmpty r1 then cat else r1, if isEmpty r1 then r1 else w.afterMove r1) := by
    by_cases he : isEmpty r1 = true
    · rw [if_pos he, if_pos he, if_pos he]
    · rw [if_neg he, if_neg he, if_neg he]
      obtain ⟨k, e, hk⟩ := eventsSorted_head (h1 (by simpa using he))
      rw [firstEvent_of_head hk]
      rfl
  have e4 : isEmpty (if isEmpty r1 then r1 else w.afterMove r1) = true := by
    split
    · assumption
    · exact hmove _
  unfold twoSteps
  rw [e1]
  simp only [Outcome.bind_ok]
  rw [e3]
  simp only [Outcome.bind_ok]
  rw [e2]
  simp only [Outcome.bind_ok]
  by_cases he : isEmpty r2 = true
  · rw [if_pos he]
  · rw [if_neg he]
    obtain ⟨k, e, hk⟩ := eventsSorted_head (h2 (by simpa using he))
    rw [firstEvent_of_head hk]
    simp only [Outcome.bind_ok]
    rw [if_pos e4]

/-- **C80c** When there is something to do, the profile is loaded or can be, the origin has an evaluation mode and can be
added to a catalog, and both steps of the relocation succeed, the job publishes the result and may run again. -/
theorem job_succeeds {cfg : Config} {w : World} {now : Int} {obj : Obj} {profs : List (Profile × ProfileState)} (hq : Answerable w obj)
    {o : Origin} {i : Nat} (hjob : Job cfg w obj profs o i) {p : Profile} {s : ProfileState} (hi : profs[i]? = some (p, s)) {dd : DD}
    (hdd : s.loaded = true ∧ s.dd = some dd ∨ s.loaded = false ∧ w.load p = some dd) {isManual : Bool} {cat r1 r2 : Catalog Num}
    (hprep : Prepared w p dd o isManual cat) (hcat : cat.events ≠ []) (hmove : ∀ c, isEmpty (w.afterMove c) = true)
    (hsteps : TwoSteps p dd isManual cat r1 r2) (h1 : Proper r1) (h2 : Proper r2) {new : Option Published}
    (hnew : (isEmpty r2 = true ∧ new = none) ∨ ∃ x, isEmpty r2 = false ∧ MadeFrom cfg w p o r2 x ∧ new = some x) :
    startProcess cfg w now obj profs = .ok (true, profs.set i (p, ⟨true, some dd, now⟩), new) := by
  obtain ⟨ht, hw, hc⟩ := hjob
  obtain ⟨org, pref, g1, g2, g3⟩ := originOf_ok hq
  have horg := (g2 o).1 ht
  subst horg
  have hp : ¬ (cfg.onlyPreferredOrigin && !cfg.forceProcessing && !pref) = true := by
    rcases hw with hw | ⟨hw, -⟩
    · simp [hw]
    · intro hn
      simp only [Bool.and_eq_true, Bool.not_eq_true'] at hn
      have := g3.2 (hw hn.1.1)
      rw [hn.2] at this; cases this
  have ha : accepted cfg w o = true := by
    rw [accepted_iff]
    rcases hw with hw | hw
    · exact .inl hw
    · exact .inr hw.2
  have hload : ∃ lu, s.load w now p = ⟨true, some dd, lu⟩ := by
    unfold ProfileState.load
    rcases hdd with ⟨k1, k2⟩ | ⟨k1, k2⟩
    · rw [if_pos k1]
      exact ⟨s.lastUsage, by rw [← k1, ← k2]⟩
    · rw [if_neg (by simp [k1]), k2]
      exact ⟨now, rfl⟩
  obtain ⟨lu, hload⟩ := hload
  obtain ⟨hm, cat₀, ids, k1, k2, k3, k4⟩ := hprep
  have hcat' := renamePhases_unique k2 k3 k4
  have hrel : relocateOrigin w now p ⟨true, some dd, lu⟩ o = .ok (⟨true, some dd, now⟩, r2) := by
    unfold relocateOrigin
    rw [if_neg (by simp)]
    simp only
    have : singleEvent w dd o = .ok (cat₀, isManual) := by
      unfold singleEvent
      rw [k1]
      simp only [Outcome.bind_ok, hm, Outcome.ofOption]
    rw [this]
    simp only [Outcome.bind_ok]
    rw [← hcat', two_steps_result hmove hcat hsteps h1 h2]
    rfl
  have hproc : processOrigin cfg w now p s o = .ok (true, ⟨true, some dd, now⟩, new) := by
    unfold processOrigin
    rw [if_neg (by simp [ha])]
    simp only [hload, hrel, Outcome.bind_ok]
    rcases hnew with ⟨he, rfl⟩ | ⟨x, he, ⟨k, e, hk, hx⟩, rfl⟩
    · rw [if_pos he]
    · rw [if_neg (by simp [he]), firstEvent_of_head hk]
      simp only [Outcome.bind_ok, hx]
  unfold startProcess
  rw [g1]
  simp only [Outcome.bind_ok]
  rw [if_neg hp]
  simp only [selectProfile_some.2 hc, hi, hproc, Outcome.bind_ok]

end Verif.Daemon
