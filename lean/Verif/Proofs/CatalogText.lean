import Verif.Proofs.CatalogFile
import Verif.Proofs.Number
import Verif.Spec.CatalogText

/-!
# Catalog files: what is read
-/

set_option linter.unusedSimpArgs false

namespace Verif.CatalogFile
open Verif.Csv Verif.Catalog Verif.PairFile Verif.Decimal Verif.XCorrFile Verif.NumberSpec

/-! ## cells -/

theorem bind_iff {A B : Type} {x : Outcome A} {f : A → Outcome B} {b : B} :
    (x >>= f) = .ok b ↔ ∃ a, x = .ok a ∧ f a = .ok b := by
  cases x <;> simp

theorem bind_iff' {A B : Type} {x : Outcome A} {f : A → Outcome B} {b : B} :
    x.bind f = .ok b ↔ ∃ a, x = .ok a ∧ f a = .ok b := by
  cases x <;> simp [Outcome.bind]

theorem column_iff {row : AMap Str Str} {name : String} {s : Str} : column row name = .ok s ↔ Spec.Cell row name s := by
  unfold column Spec.Cell
  cases row.find? name.toList <;> simp [Outcome.ofOption]

theorem column_text {row : AMap Str Str} {name : String} {s : Str} :
    column row name = .ok s ↔ Spec.TextCell row name (String.ofList s) := by
  rw [column_iff]; unfold Spec.TextCell; rw [String.toList_ofList]

theorem text_of {row : AMap Str Str} {name : String} {s : Str} (h : Spec.Cell row name s) :
    Spec.TextCell row name (String.ofList s) := column_text.1 (column_iff.2 h)

theorem numberAt_iff {rnd : ℚ → ℚ} {row : AMap Str Str} {name : String} {v : Fl ℚ} :
    numberAt rnd row name = .ok v ↔ Spec.NumberCell rnd row name v := by
  unfold numberAt Spec.NumberCell
  rw [bind_iff']
  simp only [column_iff, stod_iff]

theorem idAt_iff {row : AMap Str Str} {name : String} {n : Nat} :
    (column row name).bind stoul = .ok n ↔ Spec.IdCell row name n := by
  unfold Spec.IdCell
  rw [bind_iff']
  simp only [column_iff, stoul_iff]

theorem timeAt_iff {row : AMap Str Str} {name : String} {t : Int} :
    (column row name).bind Utc.fromString = .ok t ↔ Spec.TimeCell row name t := by
  unfold Spec.TimeCell
  rw [bind_iff']
  simp only [column_iff]

theorem marked_iff {load : Bool} {row : AMap Str Str} {name : String} :
    marked load row name = true ↔ load = true ∧ Spec.YesCell row name := by
  unfold marked Spec.YesCell Spec.Cell
  cases row.find? name.toList <;> simp [strToBool_iff]

theorem column_ne_ub (row : AMap Str Str) (name : String) : column row name ≠ .ub := by
  unfold column
  cases row.find? name.toList <;> simp [Outcome.ofOption]

theorem numberAt_ne_ub (rnd : ℚ → ℚ) (row : AMap Str Str) (name : String) : numberAt rnd row name ≠ .ub := by
  unfold numberAt
  cases h : column row name with
  | ok s => exact stod_ne_ub rnd s
  | throws => simp [Outcome.bind]
  | ub => exact absurd h (column_ne_ub _ _)

theorem orElse_iff {A : Type} {x : Outcome A} {d v : A} (hx : x ≠ .ub) :
    orElse x d = .ok v ↔ x = .ok v ∨ ((¬ ∃ w, x = .ok w) ∧ v = d) := by
  cases x with
  | ok a => simp [orElse]
  | throws => simp [orElse, eq_comm]
  | ub => exact absurd rfl hx

/-! ## rows -/

theorem stationOf_iff {rnd : ℚ → ℚ} {row : AMap Str Str} {s : Station (Fl ℚ)} :
    stationOf rnd row = .ok s ↔ Spec.StationRow rnd row s := by
  unfold stationOf
  simp only [bind_iff, numberAt_iff, column_iff, Outcome.ok.injEq]
  constructor
  · rintro ⟨la, h1, lo, h2, el, h3, n, h4, st, h5, l, h6, rfl⟩
    exact ⟨h1, h2, h3, text_of h4, text_of h5, text_of h6, rfl⟩
  · rintro ⟨h1, h2, h3, h4, h5, h6, h7⟩
    refine ⟨_, h1, _, h2, _, h3, _, h4, _, h5, _, h6, ?_⟩
    simp only [String.ofList_toList, Catalog.stationIdOf]
    rw [← h7]

theorem eventOf_iff {rnd : ℚ → ℚ} {load : Bool} {u : Event (Fl ℚ)} {row : AMap Str Str} {e : Event (Fl ℚ)} :
    eventOf rnd load u row = .ok e ↔ Spec.EventRow rnd load u row e := by
  unfold eventOf
  simp only [bind_iff, numberAt_iff, idAt_iff, timeAt_iff, orElse_iff (numberAt_ne_ub rnd row "magnitude")]
  constructor
  · rintro ⟨id, h1, t, h2, la, h3, lo, h4, de, h5, ma, h6, h⟩
    by_cases hm : marked load row "relocated" = true
    · rw [if_pos hm] at h
      simp only [bind_iff, numberAt_iff, Outcome.ok.injEq] at h
      obtain ⟨s, h7, f, h8, rfl⟩ := h
      exact ⟨h1, h2, h3, h4, h5, h6, by simpa using marked_iff.1 hm, fun _ => ⟨h7, h8⟩, by simp⟩
    · rw [if_neg hm] at h
      cases h
      refine ⟨h1, h2, h3, h4, h5, h6, ?_, by simp, fun _ => ⟨rfl, rfl⟩⟩
      rw [marked_iff] at hm
      simpa using hm
  · rintro ⟨h1, h2, h3, h4, h5, h6, h7, h8, h9⟩
    refine ⟨_, h1, _, h2, _, h3, _, h4, _, h5, _, h6, ?_⟩
    by_cases hm : marked load row "relocated" = true
    · rw [if_pos hm]
      simp only [bind_iff, numberAt_iff, Outcome.ok.injEq]
      have hr := h7.2 (marked_iff.1 hm)
      obtain ⟨h8, h8'⟩ := h8 hr
      refine ⟨_, h8, _, h8', ?_⟩
      rw [← hr]
    · rw [if_neg hm]
      have hr : e.isRelocated = false := by
        rw [marked_iff] at hm
        by_contra hc
        exact hm (h7.1 (by simpa using hc))
      obtain ⟨h9, h9'⟩ := h9 hr
      rw [← hr, ← h9, ← h9']

theorem uncertainties_iff {rnd : ℚ → ℚ} {row : AMap Str Str} {x : Fl ℚ × Fl ℚ} : uncertainties rnd row = .ok x ↔
    Spec.NumberCell rnd row "lowerUncertainty" x.1 ∧ Spec.NumberCell rnd row "upperUncertainty" x.2 := by
  unfold uncertainties
  simp only [bind_iff, numberAt_iff, Outcome.ok.injEq]
  constructor
  · rintro ⟨l, h1, u, h2, rfl⟩; exact ⟨h1, h2⟩
  · rintro ⟨h1, h2⟩; exact ⟨_, h1, _, h2, rfl⟩

theorem uncertainties_ne_ub (rnd : ℚ → ℚ) (row : AMap Str Str) : uncertainties rnd row ≠ .ub := by
  unfold uncertainties
  cases h1 : numberAt rnd row "lowerUncertainty" with
  | ub => exact absurd h1 (numberAt_ne_ub _ _ _)
  | throws => simp
  | ok a =>
    cases h2 : numberAt rnd row "upperUncertainty" with
    | ub => exact absurd h2 (numberAt_ne_ub _ _ _)
    | throws => simp
    | ok a => simp

theorem phaseOf_iff {rnd : ℚ → ℚ} {load : Bool} {u : Phase (Fl ℚ)} {known : String → Bool} {row : AMap Str Str} {p : Phase (Fl ℚ)} :
    phaseOf rnd load u known row = .ok p ↔ Spec.PhaseRow rnd load u (fun id => known id = true) row p := by
  unfold phaseOf
  simp only [bind_iff, numberAt_iff, idAt_iff, timeAt_iff, orElse_iff (uncertainties_ne_ub rnd row), uncertainties_iff, column_iff]
  constructor
  · rintro ⟨id, h1, t, h2, unc, h3, ty, h4, ne, h5, st, h6, lo, h7, ch, h8, q, hq, h⟩
    have h3' : (Spec.NumberCell rnd row "lowerUncertainty" unc.1 ∧ Spec.NumberCell rnd row "upperUncertainty" unc.2) ∨
        ((¬ ∃ v w, Spec.NumberCell rnd row "lowerUncertainty" v ∧ Spec.NumberCell rnd row "upperUncertainty" w) ∧
        unc.1 = .nan ∧ unc.2 = .nan) := by
      rcases h3 with h3 | ⟨h3, rfl⟩
      · exact .inl h3
      · exact .inr ⟨fun ⟨v, w, hv⟩ => h3 ⟨(v, w), hv⟩, rfl, rfl⟩
    split_ifs at h with hk
    cases h
    by_cases hm : marked load row "usedInReloc" = true
    · rw [if_pos hm] at hq
      simp only [bind_iff, numberAt_iff, Outcome.ok.injEq] at hq
      obtain ⟨s, h9, f, h10, w, h11, rfl⟩ := hq
      exact ⟨h1, h2, h3', text_of h4, text_of h5, text_of h6, text_of h7, text_of h8, rfl, hk,
        by simpa using marked_iff.1 hm, fun _ => ⟨h11, h9, h10⟩, by simp, rfl, rfl, rfl⟩
    · rw [if_neg hm] at hq
      cases hq
      refine ⟨h1, h2, h3', text_of h4, text_of h5, text_of h6, text_of h7, text_of h8, rfl, hk, ?_, by simp,
        fun _ => ⟨rfl, rfl, rfl⟩, rfl, rfl, rfl⟩
      rw [marked_iff] at hm
      simpa using hm
  · rintro ⟨h1, h2, h3, h4, h5, h6, h7, h8, h9, h10, h11, h12, h13, h14, h15, h16⟩
    refine ⟨_, h1, _, h2, (p.lowerUncertainty, p.upperUncertainty), ?_, _, h4, _, h5, _, h6, _, h7, _, h8, p, ?_, ?_⟩
    · rcases h3 with h3 | ⟨h3, ha, hb⟩
      · exact .inl h3
      · exact .inr ⟨fun ⟨v, hv⟩ => h3 ⟨_, _, hv⟩, by rw [ha, hb]⟩
    · simp only [String.ofList_toList, Catalog.stationIdOf]
      by_cases hm : marked load row "usedInReloc" = true
      · rw [if_pos hm]
        simp only [bind_iff, numberAt_iff, Outcome.ok.injEq]
        have hr := h11.2 (marked_iff.1 hm)
        obtain ⟨h12, h12', h12''⟩ := h12 hr
        refine ⟨_, h12', _, h12'', _, h12, ?_⟩
        rw [← hr, ← h9, ← h14, ← h15, ← h16]
      · rw [if_neg hm]
        have hr : p.isRelocated = false := by
          rw [marked_iff] at hm
          by_contra hc
          exact hm (h11.1 (by simpa using hc))
        obtain ⟨h13, h13', h13''⟩ := h13 hr
        rw [← hr, ← h9, ← h14, ← h15, ← h16, ← h13, ← h13', ← h13'']
    · rw [if_pos h10]

/-! ## tables -/

theorem mapRows_iff {A B : Type} {f : A → Outcome B} {R : A → B → Prop} (h : ∀ a b, f a = .ok b ↔ R a b) (l : List A) (r : List B) :
    mapRows f l = .ok r ↔ List.Forall₂ R l r := by
  induction l generalizing r with
  | nil =>
    constructor
    · intro h; cases h; exact .nil
    · intro h; cases h; rfl
  | cons a l ih =>
    rw [mapRows]
    cases hf : f a with
    | ok b =>
      cases hm : mapRows f l with
      | ok bs =>
        constructor
        · intro h'; cases h'
          exact .cons ((h a b).1 hf) ((ih bs).1 hm)
        · intro h'
          cases h' with
          | @cons _ b' _ bs' h1 h2 =>
            have e1 := (h a b').2 h1
            have e2 := (ih bs').2 h2
            rw [hf] at e1; cases e1
            rw [hm] at e2; cases e2
            rfl
      | throws =>
        constructor
        · intro h'; cases h'
        · intro h'
          cases h' with
          | cons h1 h2 => rw [(ih _).2 h2] at hm; cases hm
      | ub =>
        constructor
        · intro h'; cases h'
        · intro h'
          cases h' with
          | cons h1 h2 => rw [(ih _).2 h2] at hm; cases hm
    | throws =>
      constructor
      · intro h'; cases h'
      · intro h'
        cases h' with
        | cons h1 h2 => rw [(h _ _).2 h1] at hf; cases hf
    | ub =>
      constructor
      · intro h'; cases h'
      · intro h'
        cases h' with
        | cons h1 h2 => rw [(h _ _).2 h1] at hf; cases hf

theorem mapRows_ne_ub {A B : Type} {f : A → Outcome B} {l : List A} (h : ∀ a ∈ l, f a ≠ .ub) : mapRows f l ≠ .ub := by
  induction l with
  | nil => simp [mapRows]
  | cons a l ih =>
    rw [mapRows]
    have ih := ih (fun b hb => h b (by simp [hb]))
    cases hf : f a with
    | ok b => cases hm : mapRows f l with
      | ok bs => simp [Outcome.map]
      | throws => simp [Outcome.map]
      | ub => exact absurd hm ih
    | throws => simp
    | ub => exact absurd hf (h a (by simp))

/-- the last value assigned to a key stays -/
theorem find?_last_set {K A : Type} [DecidableEq K] (key : A → K) (l : List A) (m : AMap K A) (k : K) :
    (l.foldl (fun m a => m.set (key a) a) m).find? k = (Spec.lastWith key l k).or (m.find? k) := by
  induction l generalizing m with
  | nil => simp [Spec.lastWith]
  | cons a l ih =>
    rw [List.foldl_cons, ih]
    unfold Spec.lastWith
    rw [List.filter_cons]
    by_cases h : key a = k
    · rw [if_pos (by simpa using h), List.getLast?_cons]
      cases (l.filter (fun a => key a = k)).getLast? with
      | none => simp [AMap.find?_set, h]
      | some b => simp
    · rw [if_neg (by simpa using h), AMap.find?_set_ne _ _ (Ne.symm h)]

end Verif.CatalogFile
