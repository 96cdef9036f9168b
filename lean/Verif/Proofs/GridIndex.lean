import Verif.Proofs.GridHeader

/-! Lemmas on the search for grid files. -/

set_option linter.unusedSectionVars false
set_option linter.unusedSimpArgs false

namespace Verif.GridHeader
open Verif.Csv Verif.Decimal

/-! ## File names -/

theorem between_iff {pre suf name : Str} : between pre suf name = true ↔
    ∃ mid : Str, mid ≠ [] ∧ (∀ c ∈ mid, c ≠ '\n' ∧ c ≠ '\r') ∧ name = pre ++ mid ++ suf := by
  unfold between
  simp only [Bool.and_eq_true, List.isPrefixOf_iff_prefix, List.isSuffixOf_iff_suffix, decide_eq_true_eq, List.all_eq_true,
    bne_iff_ne, ne_eq]
  constructor
  · rintro ⟨⟨⟨⟨m, rfl⟩, hs⟩, hl⟩, hc⟩
    simp only [List.length_append] at hl
    have hs' : suf <:+ m := by
      rcases List.suffix_or_suffix_of_suffix hs (List.suffix_append pre m) with h | h
      · exact h
      · have := h.length_le; omega
    obtain ⟨mid, rfl⟩ := hs'
    simp only [List.length_append] at hl
    refine ⟨mid, ?_, ?_, by simp⟩
    · rintro rfl; simp at hl
    · have e : ((pre ++ (mid ++ suf)).drop pre.length).take ((pre ++ (mid ++ suf)).length - pre.length - suf.length) = mid := by
        rw [List.drop_left]
        have : (pre ++ (mid ++ suf)).length - pre.length - suf.length = mid.length := by simp
        rw [this, List.take_left]
      rw [e] at hc
      exact hc
  · rintro ⟨mid, hm, hc, rfl⟩
    refine ⟨⟨⟨⟨mid ++ suf, by simp⟩, ⟨pre ++ mid, rfl⟩⟩, ?_⟩, ?_⟩
    · have : 0 < mid.length := List.length_pos_iff.2 hm
      simp only [List.length_append]; omega
    · have e : ((pre ++ mid ++ suf).drop pre.length).take ((pre ++ mid ++ suf).length - pre.length - suf.length) = mid := by
        rw [List.append_assoc, List.drop_left]
        have : (pre ++ (mid ++ suf)).length - pre.length - suf.length = mid.length := by simp
        rw [this, List.take_left]
      rw [e]
      exact hc

/-- names with the end `x` are not names with the end `y` -/
theorem ends_apart {x y : Str} (h1 : ¬x <:+ y) (h2 : ¬y <:+ x) {a b : Str} : a ++ x ≠ b ++ y := by
  intro e
  have hx : x <:+ b ++ y := e ▸ List.suffix_append a x
  rcases List.suffix_or_suffix_of_suffix hx (List.suffix_append b y) with h | h
  · exact h1 h
  · exact h2 h

theorem phases_apart {model a b : Str} : model ++ ".P.".toList ++ a ≠ model ++ ".S.".toList ++ b := by
  intro e
  rw [List.append_assoc, List.append_assoc] at e
  have e := List.append_cancel_left e
  simp at e

theorem between_time_angle {model name : Str} {p q : Bool} (h1 : FileName model p ".time.hdr" name)
    (h2 : FileName model q ".angle.hdr" name) : False := by
  obtain ⟨m, -, -, rfl⟩ := h1
  obtain ⟨n, -, -, e⟩ := h2
  exact ends_apart (by decide) (by decide) e

theorem between_phase {model name : Str} {ext : String} (h1 : FileName model true ext name)
    (h2 : FileName model false ext name) : False := by
  obtain ⟨m, -, -, rfl⟩ := h1
  obtain ⟨n, -, -, e⟩ := h2
  simp only [if_true, Bool.false_eq_true, if_false] at e
  rw [List.append_assoc, List.append_assoc (_ ++ _)] at e
  exact phases_apart e

theorem fileName_iff {model name : Str} {p : Bool} {ext : String} :
    FileName model p ext name ↔ between (model ++ (if p then ".P." else ".S.").toList) ext.toList name = true := by
  rw [between_iff]; rfl

/-- the name of the file of a velocity model -/
def ModelName (model : Str) (p : Bool) (name : Str) : Prop :=
  name = model ++ (if p then ".P.mod.hdr" else ".S.mod.hdr").toList

theorem model_time {model name : Str} {p q : Bool} (h1 : ModelName model p name) (h2 : FileName model q ".time.hdr" name) : False := by
  obtain ⟨n, -, -, e⟩ := h2
  rw [h1] at e
  cases p <;> exact ends_apart (by decide) (by decide) e

theorem model_angle {model name : Str} {p q : Bool} (h1 : ModelName model p name) (h2 : FileName model q ".angle.hdr" name) : False := by
  obtain ⟨n, -, -, e⟩ := h2
  rw [h1] at e
  cases p <;> exact ends_apart (by decide) (by decide) e

theorem model_phase {model name : Str} (h1 : ModelName model true name) (h2 : ModelName model false name) : False := by
  rw [h1] at h2
  have e := List.append_cancel_left h2
  simp at e

theorem role_cases (model name : Str) :
    (∃ p, FileName model p ".time.hdr" name ∧ role model name = some (.time p)) ∨
    (∃ p, FileName model p ".angle.hdr" name ∧ role model name = some (.angle p)) ∨
    (∃ p, ModelName model p name ∧ role model name = some (.model p)) ∨
    ((∀ p, ¬FileName model p ".time.hdr" name) ∧ (∀ p, ¬FileName model p ".angle.hdr" name) ∧ (∀ p, ¬ModelName model p name) ∧
      role model name = none) := by
  unfold role
  by_cases h1 : between (model ++ ".P.".toList) ".time.hdr".toList name = true
  · exact .inl ⟨true, fileName_iff.2 h1, by rw [if_pos h1]⟩
  rw [if_neg h1]
  by_cases h2 : between (model ++ ".S.".toList) ".time.hdr".toList name = true
  · exact .inl ⟨false, fileName_iff.2 h2, by rw [if_pos h2]⟩
  rw [if_neg h2]
  by_cases h3 : between (model ++ ".P.".toList) ".angle.hdr".toList name = true
  · exact .inr (.inl ⟨true, fileName_iff.2 h3, by rw [if_pos h3]⟩)
  rw [if_neg h3]
  by_cases h4 : between (model ++ ".S.".toList) ".angle.hdr".toList name = true
  · exact .inr (.inl ⟨false, fileName_iff.2 h4, by rw [if_pos h4]⟩)
  rw [if_neg h4]
  by_cases h5 : name = model ++ ".P.mod.hdr".toList
  · exact .inr (.inr (.inl ⟨true, h5, by rw [if_pos h5]⟩))
  rw [if_neg h5]
  by_cases h6 : name = model ++ ".S.mod.hdr".toList
  · exact .inr (.inr (.inl ⟨false, h6, by rw [if_pos h6]⟩))
  rw [if_neg h6]
  refine .inr (.inr (.inr ⟨?_, ?_, ?_, rfl⟩))
  · intro p h; have := fileName_iff.1 h; cases p
    · exact h2 this
    · exact h1 this
  · intro p h; have := fileName_iff.1 h; cases p
    · exact h4 this
    · exact h3 this
  · intro p h; cases p
    · exact h6 h
    · exact h5 h

theorem role_time {model name : Str} {p : Bool} : role model name = some (.time p) ↔ FileName model p ".time.hdr" name := by
  rcases role_cases model name with ⟨q, h, e⟩ | ⟨q, h, e⟩ | ⟨q, h, e⟩ | ⟨h1, h2, h3, e⟩ <;> rw [e]
  · constructor
    · intro hh; cases hh; exact h
    · intro hp
      cases p <;> cases q
      · rfl
      · exact (between_phase h hp).elim
      · exact (between_phase hp h).elim
      · rfl
  · simp only [Option.some.injEq, reduceCtorEq, false_iff]
    intro hp; exact between_time_angle hp h
  · simp only [Option.some.injEq, reduceCtorEq, false_iff]
    intro hp; exact model_time h hp
  · simp only [reduceCtorEq, false_iff]
    exact h1 p

theorem role_angle {model name : Str} {p : Bool} : role model name = some (.angle p) ↔ FileName model p ".angle.hdr" name := by
  rcases role_cases model name with ⟨q, h, e⟩ | ⟨q, h, e⟩ | ⟨q, h, e⟩ | ⟨h1, h2, h3, e⟩ <;> rw [e]
  · simp only [Option.some.injEq, reduceCtorEq, false_iff]
    intro hp; exact between_time_angle h hp
  · constructor
    · intro hh; cases hh; exact h
    · intro hp
      cases p <;> cases q
      · rfl
      · exact (between_phase h hp).elim
      · exact (between_phase hp h).elim
      · rfl
  · simp only [Option.some.injEq, reduceCtorEq, false_iff]
    intro hp; exact model_angle h hp
  · simp only [reduceCtorEq, false_iff]
    exact h2 p

theorem role_model {model name : Str} {p : Bool} : role model name = some (.model p) ↔ ModelName model p name := by
  rcases role_cases model name with ⟨q, h, e⟩ | ⟨q, h, e⟩ | ⟨q, h, e⟩ | ⟨h1, h2, h3, e⟩ <;> rw [e]
  · simp only [Option.some.injEq, reduceCtorEq, false_iff]
    intro hp; exact model_time hp h
  · simp only [Option.some.injEq, reduceCtorEq, false_iff]
    intro hp; exact model_angle hp h
  · constructor
    · intro hh; cases hh; exact h
    · intro hp
      cases p <;> cases q
      · rfl
      · exact (model_phase h hp).elim
      · exact (model_phase hp h).elim
      · rfl
  · simp only [reduceCtorEq, false_iff]
    exact h3 p

/-! ## The search -/

variable {rnd : ℚ → ℚ} {swap : Bool} {model : Str} {text : Str → Str} {ex : Str → Bool}

/-- the data file of a header file -/
def bufOf (name : Str) : Str := name.take (name.length - 4) ++ ".buf".toList

/-- the point of a time file -/
def timePoint (rnd : ℚ → ℚ) (swap : Bool) (text : Str → Str) (ex : Str → Bool) (name : Str) : Outcome Point :=
  point name (timeGrid rnd swap (text name) (ex (bufOf name)))

/-- the point of an angle file -/
def anglePoint (rnd : ℚ → ℚ) (swap : Bool) (text : Str → Str) (ex : Str → Bool) (name : Str) : Outcome Point :=
  point name (angleGrid rnd swap (text name) (ex (bufOf name)))

/-- the grid of a velocity file -/
def velOf (rnd : ℚ → ℚ) (swap : Bool) (text : Str → Str) (ex : Str → Bool) (name : Str) : Outcome Header :=
  velGrid rnd swap (text name) (ex (bufOf name))

/-- what a file contributes to a list -/
def listed (sel : Str → Bool) (f : Str → Outcome Point) (name : Str) : Option Point :=
  if sel name then (match f name with | .ok p => some p | _ => none) else none

theorem attempt_ok {A : Type} {g : Outcome A} {use : A → Index} {skip ix : Index} : attempt g use skip = .ok ix ↔
    (∃ a, g = .ok a ∧ ix = use a) ∨ (g = .throws ∧ ix = skip) := by
  cases g <;> simp [attempt, eq_comm]

theorem visit_ok {ix ix' : Index} {name : Str} (h : visit rnd swap model text ex ix name = .ok ix') :
    (∀ p, ix'.time p = ix.time p ++ (listed (fun n => decide (role model n = some (.time p))) (timePoint rnd swap text ex) name).toList) ∧
    (∀ p, ix'.angle p = ix.angle p ++ (listed (fun n => decide (role model n = some (.angle p))) (anglePoint rnd swap text ex) name).toList) ∧
    (∀ p, ix'.vel p = if role model name = some (.model p) then
        (match velOf rnd swap text ex name with | .ok g => some (name, g) | _ => ix.vel p) else ix.vel p) := by
  unfold visit at h
  simp only at h
  have hb : name.take (name.length - 4) ++ ".buf".toList = bufOf name := rfl
  rw [hb] at h
  cases hr : role model name with
  | none =>
    rw [hr] at h
    cases h
    simp [listed, hr]
  | some x =>
    rw [hr] at h
    cases x with
    | time q =>
      simp only at h
      rcases attempt_ok.1 h with ⟨pt, hp, rfl⟩ | ⟨hp, rfl⟩
      · refine ⟨fun p => ?_, fun p => by simp [listed, hr], fun p => by simp⟩
        by_cases e : p = q
        · subst e
          simp [listed, hr, setAt, timePoint, hp]
        · simp [listed, hr, setAt, e, Ne.symm e]
      · refine ⟨fun p => ?_, fun p => by simp [listed, hr], fun p => by simp⟩
        by_cases e : p = q
        · subst e
          simp [listed, hr, timePoint, hp]
        · simp [listed, hr, Ne.symm e]
    | angle q =>
      simp only at h
      rcases attempt_ok.1 h with ⟨pt, hp, rfl⟩ | ⟨hp, rfl⟩
      · refine ⟨fun p => by simp [listed, hr], fun p => ?_, fun p => by simp⟩
        by_cases e : p = q
        · subst e
          simp [listed, hr, setAt, anglePoint, hp]
        · simp [listed, hr, setAt, e, Ne.symm e]
      · refine ⟨fun p => by simp [listed, hr], fun p => ?_, fun p => by simp⟩
        by_cases e : p = q
        · subst e
          simp [listed, hr, anglePoint, hp]
        · simp [listed, hr, Ne.symm e]
    | model q =>
      simp only at h
      rcases attempt_ok.1 h with ⟨pt, hp, rfl⟩ | ⟨hp, rfl⟩
      · refine ⟨fun p => by simp [listed, hr], fun p => by simp [listed, hr], fun p => ?_⟩
        by_cases e : p = q
        · subst e
          simp [setAt, velOf, hp]
        · simp [setAt, e, Ne.symm e]
      · refine ⟨fun p => by simp [listed, hr], fun p => by simp [listed, hr], fun p => ?_⟩
        by_cases e : p = q
        · subst e
          simp [velOf, hp]
        · simp [Ne.symm e]

theorem search_lists {files : List Str} : ∀ {ix ix' : Index}, search rnd swap model text ex ix files = .ok ix' →
    (∀ p, ix'.time p = ix.time p ++ files.filterMap (listed (fun n => decide (role model n = some (.time p))) (timePoint rnd swap text ex))) ∧
    (∀ p, ix'.angle p = ix.angle p ++ files.filterMap (listed (fun n => decide (role model n = some (.angle p))) (anglePoint rnd swap text ex))) := by
  induction files with
  | nil => intro ix ix' h; cases h; simp
  | cons f fs ih =>
    intro ix ix' h
    rw [search, bind_ok_iff'] at h
    obtain ⟨m, h1, h2⟩ := h
    obtain ⟨a1, a2, -⟩ := visit_ok h1
    obtain ⟨b1, b2⟩ := ih h2
    constructor <;> intro p
    · rw [b1, a1, List.filterMap_cons]
      cases listed (fun n => decide (role model n = some (.time p))) (timePoint rnd swap text ex) f <;> simp
    · rw [b2, a2, List.filterMap_cons]
      cases listed (fun n => decide (role model n = some (.angle p))) (anglePoint rnd swap text ex) f <;> simp

theorem search_vel {files : List Str} {p : Bool} : ∀ {ix ix' : Index}, search rnd swap model text ex ix files = .ok ix' →
    ∀ x, ix'.vel p = some x ↔
      (∃ n g, n ∈ files ∧ ModelName model p n ∧ velOf rnd swap text ex n = .ok g ∧ x = (n, g)) ∨
      (ix.vel p = some x ∧ ¬∃ n g, n ∈ files ∧ ModelName model p n ∧ velOf rnd swap text ex n = .ok g) := by
  induction files with
  | nil => intro ix ix' h x; cases h; simp
  | cons f fs ih =>
    intro ix ix' h x
    rw [search, bind_ok_iff'] at h
    obtain ⟨m, h1, h2⟩ := h
    obtain ⟨-, -, a3⟩ := visit_ok h1
    rw [ih h2, a3]
    by_cases hm : role model f = some (.model p)
    · rw [if_pos hm]
      have hm' := role_model.1 hm
      cases hv : velOf rnd swap text ex f with
      | ok g =>
        simp only [Option.some.injEq]
        constructor
        · rintro (⟨n, g', hn, hmn, hg, rfl⟩ | ⟨rfl, _⟩)
          · exact .inl ⟨n, g', by simp [hn], hmn, hg, rfl⟩
          · exact .inl ⟨f, g, by simp, hm', hv, rfl⟩
        · rintro (⟨n, g', hn, hmn, hg, rfl⟩ | ⟨_, hno⟩)
          · by_cases hex : ∃ n g, n ∈ fs ∧ ModelName model p n ∧ velOf rnd swap text ex n = .ok g
            · obtain ⟨n2, g2, q1, q2, q3⟩ := hex
              have e : n2 = n := by rw [q2, hmn]
              subst e
              rw [q3] at hg; cases hg
              exact .inl ⟨n2, _, q1, q2, q3, rfl⟩
            · have e : f = n := by rw [hm', hmn]
              subst e
              rw [hv] at hg; cases hg
              exact .inr ⟨rfl, hex⟩
          · exact absurd ⟨f, g, by simp, hm', hv⟩ hno
      | throws =>
        simp only
        constructor
        · rintro (⟨n, g', hn, hmn, hg, rfl⟩ | ⟨h, hno⟩)
          · exact .inl ⟨n, g', by simp [hn], hmn, hg, rfl⟩
          · refine .inr ⟨h, ?_⟩
            rintro ⟨n, g, hn, hmn, hg⟩
            rcases List.mem_cons.1 hn with rfl | hn
            · rw [hv] at hg; cases hg
            · exact hno ⟨n, g, hn, hmn, hg⟩
        · rintro (⟨n, g', hn, hmn, hg, rfl⟩ | ⟨h, hno⟩)
          · rcases List.mem_cons.1 hn with rfl | hn
            · rw [hv] at hg; cases hg
            · exact .inl ⟨n, g', hn, hmn, hg, rfl⟩
          · refine .inr ⟨h, ?_⟩
            rintro ⟨n, g, hn, hmn, hg⟩
            exact hno ⟨n, g, by simp [hn], hmn, hg⟩
      | ub =>
        unfold visit at h1
        simp only [hm] at h1
        have : velGrid rnd swap (text f) (ex (f.take (f.length - 4) ++ ".buf".toList)) = .ub := hv
        rw [this] at h1
        cases h1
    · rw [if_neg hm]
      have hm' := fun h => hm (role_model.2 h)
      constructor
      · rintro (⟨n, g', hn, hmn, hg, rfl⟩ | ⟨h, hno⟩)
        · exact .inl ⟨n, g', by simp [hn], hmn, hg, rfl⟩
        · refine .inr ⟨h, ?_⟩
          rintro ⟨n, g, hn, hmn, hg⟩
          rcases List.mem_cons.1 hn with rfl | hn
          · exact hm' hmn
          · exact hno ⟨n, g, hn, hmn, hg⟩
      · rintro (⟨n, g', hn, hmn, hg, rfl⟩ | ⟨h, hno⟩)
        · rcases List.mem_cons.1 hn with rfl | hn
          · exact absurd hmn hm'
          · exact .inl ⟨n, g', hn, hmn, hg, rfl⟩
        · refine .inr ⟨h, ?_⟩
          rintro ⟨n, g, hn, hmn, hg⟩
          exact hno ⟨n, g, by simp [hn], hmn, hg⟩

/-! ## Headers with one transform line -/

theorem transLines_cons (t : List Str) (ts : List (List Str)) :
    transLines (t :: ts) = transLines ts + (if t.head? = some "TRANSFORM".toList ∨ t.head? = some "TRANS".toList then 1 else 0) := by
  unfold transLines
  rw [List.countP_cons]
  simp only [Bool.or_eq_true, decide_eq_true_eq]

theorem Run.counted {rnd : ℚ → ℚ} {kind : Kind} {r r' : Raw} {ts : List (List Str)} (h : Run rnd kind r ts r') :
    ∀ k, r.parsedLines ≤ (if r.dims = none then 0 else 1) + (if r.src = none then 0 else 1) + k →
      (r.parsedLines = 0 → r.dims = none) → (r.parsedLines ≤ 1 → r.src = none) →
      r'.parsedLines ≤ (if r'.dims = none then 0 else 1) + (if r'.src = none then 0 else 1) + (k + transLines ts) := by
  induction h with
  | nil => intro k h _ _; simpa [transLines] using h
  | @cons r m r' t ts h hs ih =>
    intro k h1 h2 h3
    rw [transLines_cons]
    cases h with
    | skip =>
      have := ih k h1 h2 h3
      omega
    | @dims d a b =>
      have := ih k (by simp only [a]; simp; have := h3 (by omega); simp [this]) (by simp) (fun _ => h3 (by omega))
      omega
    | src a b c =>
      have hn := h3 (by omega)
      have := ih k (by simp only [a]; rw [a, hn] at h1; simp at h1 ⊢; omega) (by simp) (by simp [a])
      omega
    | trans a b c =>
      obtain ⟨w, rest, rfl, hw⟩ := c.isTrans
      have hw' : (w :: rest).head? = some "TRANSFORM".toList ∨ (w :: rest).head? = some "TRANS".toList := by
        rcases hw with rfl | rfl
        · exact .inl rfl
        · exact .inr rfl
      rw [if_pos hw']
      by_cases h0 : r.parsedLines = 0
      · have hd := h2 h0
        have hsr := h3 (by omega)
        have := ih (k + 1) (by simp only [h0]; omega) (by simp) (fun _ => hsr)
        omega
      · have := ih (k + 1) (by simp only; omega) (by simp) (by simp only; intro h; omega)
        omega

theorem parse_defined {rnd : ℚ → ℚ} {kind : Kind} {swap : Bool} {text : Str} (h1 : transLines ((lines text).map words) ≤ 1) :
    parse rnd kind swap text ≠ .ub ∧ ∀ h, parse rnd kind swap text = .ok h → kind ≠ .velocity → h.src ≠ none := by
  have hc : ∀ r : Raw, (((kind = .time ∨ kind = .angle) ∧ r.parsedLines ≠ 3) ∨ (kind = .velocity ∧ r.parsedLines ≠ 2)) ↔
      ¬r.parsedLines = (if kind = .velocity then 2 else 3) := by
    intro r; cases kind <;> simp
  unfold parse
  simp only [hc]
  cases hr : readLines rnd kind {} (lines text) with
  | throws => simp
  | ub => exact absurd hr (readLines_ne_ub _ _ _ _)
  | ok r =>
    have hrun := readLines_iff.1 hr
    have hcount := hrun.counted 0 (by simp) (by simp) (by simp)
    have hv : kind = .velocity → r.src = none := by
      rintro rfl
      have key : ∀ {a b : Raw} {ts : List (List Str)}, Run rnd .velocity a ts b → a.src = none → b.src = none := by
        intro a b ts h
        induction h with
        | nil => exact id
        | cons he _ ih =>
          intro ha
          apply ih
          cases he with
          | skip => exact ha
          | dims => exact ha
          | src _ _ h => simp [Station] at h
          | trans => exact ha
      exact key hrun rfl
    simp only [Outcome.bind_ok]
    by_cases hp : ¬r.parsedLines = (if kind = .velocity then 2 else 3)
    · rw [if_pos hp]; simp
    rw [if_neg hp]
    have hp := not_not.1 hp
    cases hd : r.dims with
    | none =>
      rw [hd] at hcount
      simp only [if_true] at hcount
      by_cases hk : kind = .velocity
      · rw [hv hk, if_pos rfl, hp, if_pos hk] at hcount; omega
      · rw [hp, if_neg hk] at hcount; split at hcount <;> omega
    | some d =>
      simp only
      by_cases hs : (d.useDouble && swap) = true
      · rw [if_pos hs]; simp
      rw [if_neg hs]
      refine ⟨by simp, fun h e hk => ?_⟩
      cases e
      intro hn
      simp only at hn
      rw [hp, if_neg hk, hd, hn] at hcount
      simp at hcount
      omega

theorem timeGrid_ok {b : Bool} {t : Str} {h : Header} : timeGrid rnd swap t b = .ok h ↔
    parse rnd .time swap t = .ok h ∧ b = true ∧ (h.dims.type = "TIME".toList ∨ h.dims.type = "TIME2D".toList) := by
  unfold timeGrid grid
  simp only [bind_ok_iff]
  constructor
  · rintro ⟨x, ⟨y, h1, h2⟩, h3⟩
    cases b
    · cases h2
    · cases h2
      by_cases hc : x.dims.type ≠ "TIME".toList ∧ x.dims.type ≠ "TIME2D".toList
      · rw [if_pos hc] at h3; cases h3
      · rw [if_neg hc] at h3; cases h3
        exact ⟨h1, rfl, by by_contra hh; rw [not_or] at hh; exact hc hh⟩
  · rintro ⟨h1, rfl, h2⟩
    refine ⟨h, ⟨h, h1, rfl⟩, ?_⟩
    rw [if_neg (by rw [not_and_or, not_not, not_not]; exact h2)]

theorem angleGrid_ok {b : Bool} {t : Str} {h : Header} : angleGrid rnd swap t b = .ok h ↔
    parse rnd .angle swap t = .ok h ∧ b = true ∧ (h.dims.type = "ANGLE".toList ∨ h.dims.type = "ANGLE2D".toList) ∧
      h.dims.useDouble = false := by
  unfold angleGrid grid
  simp only [bind_ok_iff]
  constructor
  · rintro ⟨x, ⟨y, h1, h2⟩, h3⟩
    cases b
    · cases h2
    · cases h2
      by_cases hc : x.dims.type ≠ "ANGLE".toList ∧ x.dims.type ≠ "ANGLE2D".toList
      · rw [if_pos hc] at h3; cases h3
      · rw [if_neg hc] at h3
        by_cases hu : x.dims.useDouble = true
        · rw [if_pos hu] at h3; cases h3
        rw [if_neg hu] at h3; cases h3
        exact ⟨h1, rfl, by by_contra hh; rw [not_or] at hh; exact hc hh, by simpa using hu⟩
  · rintro ⟨h1, rfl, h2, h3⟩
    refine ⟨h, ⟨h, h1, rfl⟩, ?_⟩
    rw [if_neg (by rw [not_and_or, not_not, not_not]; exact h2), if_neg (by rw [h3]; simp)]

theorem velGrid_ok {b : Bool} {t : Str} {h : Header} : velGrid rnd swap t b = .ok h ↔
    parse rnd .velocity swap t = .ok h ∧ b = true ∧ 2 ≤ h.dims.numx ∧ ∃ v ∈ velTypes, h.dims.type = v.toList := by
  unfold velGrid grid
  simp only [bind_ok_iff]
  constructor
  · rintro ⟨x, ⟨y, h1, h2⟩, h3⟩
    cases b
    · cases h2
    · cases h2
      by_cases hc : x.dims.numx < 2
      · rw [if_pos hc] at h3; cases h3
      · rw [if_neg hc] at h3
        by_cases hu : x.dims.type ∈ velTypes.map String.toList
        · rw [if_pos hu] at h3; cases h3
          obtain ⟨v, hv, e⟩ := List.mem_map.1 hu
          exact ⟨h1, rfl, by omega, v, hv, e.symm⟩
        rw [if_neg hu] at h3; cases h3
  · rintro ⟨h1, rfl, h2, v, hv, e⟩
    refine ⟨h, ⟨h, h1, rfl⟩, ?_⟩
    rw [if_neg (by omega), if_pos (List.mem_map.2 ⟨v, hv, e.symm⟩)]

theorem grid_ne_ub {b : Bool} {t : Str} (kind : Kind) (h1 : transLines ((lines t).map words) ≤ 1) :
    grid rnd kind swap t b ≠ .ub :=
  bind_ne_ub (parse_defined h1).1 (fun h => by cases b <;> simp)

theorem point_ok {f : Str} {g : Outcome Header} {pt : Point} : point f g = .ok pt ↔
    g = .ok pt.header ∧ pt.file = f ∧ pt.header.transform = some pt.transform ∧ pt.transform ≠ .global ∧
      pt.header.src = some pt.src := by
  unfold point isGlobal
  simp only [bind_ok_iff]
  constructor
  · rintro ⟨h, hg, b, hb, hp⟩
    cases ht : h.transform with
    | none => rw [ht] at hb; cases hb
    | some p =>
      rw [ht] at hb hp
      cases hb
      by_cases hgl : p = .global
      · rw [hgl] at hp; simp at hp
      · simp only [hgl, decide_false, Bool.false_eq_true, if_false] at hp
        cases hs : h.src with
        | none => rw [hs] at hp; cases hp
        | some s =>
          rw [hs] at hp
          cases hp
          exact ⟨hg, rfl, ht, hgl, hs⟩
  · rintro ⟨hg, rfl, ht, hgl, hs⟩
    refine ⟨pt.header, hg, false, by rw [ht]; simp [hgl], ?_⟩
    rw [ht, hs]
    simp

theorem point_ne_ub {f : Str} {g : Outcome Header} (hg : g ≠ .ub)
    (h : ∀ x, g = .ok x → x.transform ≠ none ∧ x.src ≠ none) : point f g ≠ .ub := by
  cases g with
  | ub => exact absurd rfl hg
  | throws => simp [point]
  | ok x =>
    obtain ⟨ht, hs⟩ := h x rfl
    unfold point isGlobal
    cases hx : x.transform with
    | none => exact absurd hx ht
    | some p =>
      cases hy : x.src with
      | none => exact absurd hy hs
      | some s =>
        simp only [Outcome.bind_ok, hx, hy]
        split <;> simp

end Verif.GridHeader
