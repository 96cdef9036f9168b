import Verif.Spec.GridHeader
import Verif.Proofs.Number

/-! Lemmas on the grid headers. -/

set_option linter.unusedSectionVars false
set_option linter.unusedSimpArgs false

namespace Verif.GridHeader
open Verif.Csv Verif.Decimal

theorem bind_ok_iff {A B : Type} {x : Outcome A} {f : A → Outcome B} {b : B} :
    (x >>= f) = .ok b ↔ ∃ a, x = .ok a ∧ f a = .ok b := by
  cases x <;> simp

theorem bind_ok_iff' {A B : Type} {x : Outcome A} {f : A → Outcome B} {b : B} :
    x.bind f = .ok b ↔ ∃ a, x = .ok a ∧ f a = .ok b := by
  cases x <;> simp [Outcome.bind]

theorem map_ok_iff {A B : Type} {x : Outcome A} {f : A → B} {b : B} :
    x.map f = .ok b ↔ ∃ a, x = .ok a ∧ f a = b := by
  cases x <;> simp [Outcome.map]

/-! ## Words -/

theorem modifyHead_nil (l : List Str) : l.modifyHead ([] ++ ·) = l := by
  cases l <;> simp

theorem splitBlanks_filter (s : Str) : ∀ (cur : Str) (gap : Bool), (gap = true → cur = []) →
    (splitBlanks cur gap s).filter (· ≠ []) = ((s.splitOnP PairFile.isSpace).modifyHead (cur ++ ·)).filter (· ≠ []) := by
  induction s with
  | nil =>
    intro cur gap h
    cases gap
    · simp [splitBlanks]
    · simp [splitBlanks, h]
  | cons c s ih =>
    intro cur gap h
    rw [List.splitOnP_cons]
    by_cases hc : PairFile.isSpace c = true
    · rw [if_pos hc]
      cases gap
      · simp only [splitBlanks, hc, if_true, Bool.false_eq_true, if_false, List.modifyHead_cons, List.append_nil]
        rw [List.filter_cons, List.filter_cons, ih [] true (fun _ => rfl), modifyHead_nil]
      · simp only [splitBlanks, hc, if_true, List.modifyHead_cons, List.append_nil]
        rw [ih [] true (fun _ => rfl), h rfl, List.filter_cons, modifyHead_nil]
        simp
    · rw [if_neg hc]
      simp only [splitBlanks, hc, Bool.false_eq_true, if_false]
      rw [ih _ false (by simp)]
      cases List.splitOnP PairFile.isSpace s <;> simp

theorem splitBlanks_nonempty (s : Str) : ∀ (cur : Str) (gap : Bool), (cur ≠ [] ∨ gap = true) → (gap = true → cur = []) →
    ∀ w ∈ splitBlanks cur gap s, w ≠ [] := by
  induction s with
  | nil =>
    intro cur gap h h' w hw
    cases gap
    · simp only [splitBlanks, Bool.false_eq_true, if_false, List.mem_singleton] at hw
      subst hw
      simpa using h
    · simp [splitBlanks] at hw
  | cons c s ih =>
    intro cur gap h h' w hw
    by_cases hc : PairFile.isSpace c = true
    · cases gap
      · simp only [splitBlanks, hc, if_true, Bool.false_eq_true, if_false, List.mem_cons] at hw
        rcases hw with rfl | hw
        · simpa using h
        · exact ih [] true (.inr rfl) (fun _ => rfl) w hw
      · simp only [splitBlanks, hc, if_true] at hw
        exact ih [] true (.inr rfl) (fun _ => rfl) w hw
    · simp only [splitBlanks, hc, Bool.false_eq_true, if_false] at hw
      exact ih _ false (.inl (by simp)) (by simp) w hw

/-- the words of a line are the parts between white space -/
theorem tokens_eq_words (line : Str) : tokens line = words line := by
  have h := splitBlanks_filter line [] false (by simp)
  have e : ((line.splitOnP PairFile.isSpace).modifyHead ([] ++ ·)) = line.splitOnP PairFile.isSpace := by
    cases List.splitOnP PairFile.isSpace line <;> simp
  rw [e] at h
  unfold words
  rw [← h]
  unfold tokens
  cases line with
  | nil => simp [splitBlanks]
  | cons c s =>
    by_cases hc : PairFile.isSpace c = true
    · have hn := splitBlanks_nonempty s [] true (.inr rfl) (fun _ => rfl)
      simp only [splitBlanks, hc, if_true, Bool.false_eq_true, if_false]
      rw [List.filter_cons]
      simp only [ne_eq, not_true_eq_false, decide_false, Bool.false_eq_true, if_false]
      rw [List.filter_eq_self.2 (by simpa using hn)]
    · have hn := splitBlanks_nonempty s ([] ++ [c]) false (.inl (by simp)) (by simp)
      simp only [splitBlanks, hc, Bool.false_eq_true, if_false]
      rw [List.filter_eq_self.2 (by simpa using hn)]
      split
      · rename_i ts heq
        exact absurd rfl (hn [] (by rw [heq]; simp))
      · rfl

/-! ## Reading words -/

theorem word_ok {t : List Str} {i : Nat} {w : Str} : word t i = .ok w ↔ t[i]? = some w := by
  unfold word
  cases t[i]? <;> simp [Outcome.ofOption]

theorem expect_ok {t : List Str} {i : Nat} {k : String} {u : Unit} : expect t i k = .ok u ↔ t[i]? = some k.toList := by
  unfold expect
  rw [bind_ok_iff]
  constructor
  · rintro ⟨w, h1, h2⟩
    by_cases h : w = k.toList
    · rw [← h]; exact word_ok.1 h1
    · rw [if_neg h] at h2; cases h2
  · intro h
    exact ⟨_, word_ok.2 h, by simp⟩

/-- the whole number a text begins with -/
theorem whole_iff (s : Str) (neg : Bool) (n : Nat) : NumberSpec.Whole s neg n ↔
    (NumberSpec.unsign (s.dropWhile PairFile.isSpace)).takeWhile Char.isDigit ≠ [] ∧
      neg = decide ((s.dropWhile PairFile.isSpace).head? = some '-') ∧
      n = NumberSpec.value ((NumberSpec.unsign (s.dropWhile PairFile.isSpace)).takeWhile Char.isDigit) := by
  constructor
  · rintro ⟨b, sg, d, r, rfl, hb, hsg, hd, hne, hr, rfl⟩
    obtain ⟨c, d', rfl⟩ : ∃ c d', d = c :: d' := by cases d with
      | nil => exact absurd rfl hne
      | cons c d' => exact ⟨c, d', rfl⟩
    have hc := isDigit_facts (hd c (by simp))
    have h1 : (b ++ sg ++ (c :: d') ++ r).dropWhile PairFile.isSpace = sg ++ ((c :: d') ++ r) := by
      rw [List.append_assoc, List.append_assoc]
      apply NumberSpec.dropWhile_blank hb
      apply NumberSpec.sign_unblank hsg
      rintro x t h
      simp at h; rw [← h.1]; exact hc.2.2.2.2.2.1
    rw [h1]
    obtain ⟨h2, h3⟩ := NumberSpec.unsign_sign (body := (c :: d') ++ r) hsg (by simp [hc.2.2.2.1, hc.2.2.2.2.1])
    rw [h2, NumberSpec.takeWhile_digits hd hr, h3]
    exact ⟨by simp, rfl, rfl⟩
  · rintro ⟨h1, rfl, rfl⟩
    obtain ⟨b, hb, hbb⟩ := NumberSpec.blanks_split s
    obtain ⟨sg, hs, hsg⟩ := NumberSpec.unsign_split (s.dropWhile PairFile.isSpace)
    refine ⟨b, sg, _, _, ?_, hbb, hsg, NumberSpec.digits_takeWhile _, h1,
      NumberSpec.noDigit_dropWhile (NumberSpec.unsign (s.dropWhile PairFile.isSpace)), rfl⟩
    rw [List.append_assoc, List.takeWhile_append_dropWhile, List.append_assoc, ← hs, ← hb]

theorem stoull_iff (s : Str) (n : Nat) : stoull s = .ok n ↔ Count s n := by
  unfold Count
  simp only [whole_iff]
  have key : stoull s =
      (if (NumberSpec.unsign (s.dropWhile PairFile.isSpace)).takeWhile Char.isDigit = [] then .throws
       else if 2 ^ 64 ≤ NumberSpec.value ((NumberSpec.unsign (s.dropWhile PairFile.isSpace)).takeWhile Char.isDigit) then .throws
       else .ok (if (s.dropWhile PairFile.isSpace).head? = some '-' then
          (2 ^ 64 - NumberSpec.value ((NumberSpec.unsign (s.dropWhile PairFile.isSpace)).takeWhile Char.isDigit)) % 2 ^ 64
          else NumberSpec.value ((NumberSpec.unsign (s.dropWhile PairFile.isSpace)).takeWhile Char.isDigit))) := by
    unfold stoull NumberSpec.unsign NumberSpec.value PairFile.ulongMod
    simp only [decide_eq_true_eq]
    norm_num
  rw [key]
  constructor
  · intro h
    split_ifs at h with h1 h2 h3
    · injection h with h
      exact ⟨_, _, ⟨h1, rfl, rfl⟩, by omega, by simp only [decide_eq_true_eq]; rw [if_pos h3]; exact h.symm⟩
    · injection h with h
      exact ⟨_, _, ⟨h1, rfl, rfl⟩, by omega, by simp only [decide_eq_true_eq]; rw [if_neg h3]; exact h.symm⟩
  · rintro ⟨neg, m, ⟨h1, rfl, rfl⟩, h2, rfl⟩
    rw [if_neg h1, if_neg (by omega)]
    simp only [decide_eq_true_eq]

theorem stol_iff (s : Str) (n : Int) : stol s = .ok n ↔ Long s n := by
  unfold Long
  simp only [whole_iff]
  have key : stol s =
      (if (NumberSpec.unsign (s.dropWhile PairFile.isSpace)).takeWhile Char.isDigit = [] then .throws
       else if (if (s.dropWhile PairFile.isSpace).head? = some '-' then
          -(NumberSpec.value ((NumberSpec.unsign (s.dropWhile PairFile.isSpace)).takeWhile Char.isDigit) : Int)
          else NumberSpec.value ((NumberSpec.unsign (s.dropWhile PairFile.isSpace)).takeWhile Char.isDigit)) < -9223372036854775808 ∨
          9223372036854775807 < (if (s.dropWhile PairFile.isSpace).head? = some '-' then
          -(NumberSpec.value ((NumberSpec.unsign (s.dropWhile PairFile.isSpace)).takeWhile Char.isDigit) : Int)
          else NumberSpec.value ((NumberSpec.unsign (s.dropWhile PairFile.isSpace)).takeWhile Char.isDigit)) then .throws
       else .ok (if (s.dropWhile PairFile.isSpace).head? = some '-' then
          -(NumberSpec.value ((NumberSpec.unsign (s.dropWhile PairFile.isSpace)).takeWhile Char.isDigit) : Int)
          else NumberSpec.value ((NumberSpec.unsign (s.dropWhile PairFile.isSpace)).takeWhile Char.isDigit))) := by
    unfold stol NumberSpec.unsign NumberSpec.value
    simp only [decide_eq_true_eq]
  rw [key]
  generalize hv : (if (s.dropWhile PairFile.isSpace).head? = some '-' then
          -(NumberSpec.value ((NumberSpec.unsign (s.dropWhile PairFile.isSpace)).takeWhile Char.isDigit) : Int)
          else NumberSpec.value ((NumberSpec.unsign (s.dropWhile PairFile.isSpace)).takeWhile Char.isDigit)) = v
  constructor
  · intro h
    by_cases h1 : (NumberSpec.unsign (s.dropWhile PairFile.isSpace)).takeWhile Char.isDigit = []
    · rw [if_pos h1] at h; cases h
    rw [if_neg h1] at h
    by_cases h2 : v < -9223372036854775808 ∨ 9223372036854775807 < v
    · rw [if_pos h2] at h; cases h
    rw [if_neg h2] at h
    injection h with h
    subst h
    exact ⟨_, _, ⟨h1, rfl, rfl⟩, by simp only [decide_eq_true_eq]; exact hv.symm, by omega, by omega⟩
  · rintro ⟨neg, m, ⟨h1, rfl, rfl⟩, h2, h3, h4⟩
    simp only [decide_eq_true_eq] at h2
    rw [hv] at h2
    rw [if_neg h1, if_neg (by omega), h2]

theorem number_ok {rnd : ℚ → ℚ} {t : List Str} {i : Nat} {v : Num} :
    number rnd t i = .ok v ↔ ∃ w, t[i]? = some w ∧ NumberSpec.Number rnd w v := by
  unfold number
  rw [bind_ok_iff']
  simp only [word_ok, NumberSpec.stod_iff]

theorem count_ok {t : List Str} {i : Nat} {v : Nat} : count t i = .ok v ↔ ∃ w, t[i]? = some w ∧ Count w v := by
  unfold count
  rw [bind_ok_iff']
  simp only [word_ok, stoull_iff]

theorem drop_cons {t : List Str} {i : Nat} {w : Str} (h : t[i]? = some w) : t.drop i = w :: t.drop (i + 1) := by
  obtain ⟨hi, rfl⟩ := List.getElem?_eq_some_iff.1 h
  exact List.drop_eq_getElem_cons hi

theorem outside_iff {k : ℚ} (hk : 0 ≤ k) {x : Num} : outside k x = false ↔ Within k x := by
  unfold outside Within
  cases x with
  | num q => simp [Fl.lt, abs_le, and_comm]
  | inf s => cases s <;> simp [Fl.lt]
  | nan => simp [Fl.lt]

theorem frame_ok {lat lon rot : Num} {u : Unit} :
    frame lat lon rot = .ok u ↔ Within 90 lat ∧ Within 180 lon ∧ Within 360 rot := by
  unfold frame
  rw [← outside_iff (by norm_num), ← outside_iff (by norm_num), ← outside_iff (by norm_num)]
  cases outside 90 lat <;> cases outside 180 lon <;> cases outside 360 rot <;> simp

theorem ellipsoid_ok {e : Str} {u : Unit} : ellipsoid e = .ok u ↔ KnownEllipsoid e := by
  unfold ellipsoid KnownEllipsoid
  split
  · rename_i h
    simp only [true_iff]
    obtain ⟨n, hn, rfl⟩ := List.mem_map.1 h
    exact ⟨n, hn, rfl⟩
  · rename_i h
    simp only [reduceCtorEq, false_iff]
    rintro ⟨n, hn, rfl⟩
    exact h (List.mem_map.2 ⟨n, hn, rfl⟩)

theorem isTransWord_iff {w : Str} : isTransWord w = true ↔ TransWord w := by
  unfold isTransWord TransWord
  rw [Bool.or_eq_true, decide_eq_true_iff, decide_eq_true_iff]

theorem construct_simple {lat lon rot : Num} {p : Proj} : construct (.simple lat lon rot) = .ok p ↔
    Within 90 lat ∧ Within 180 lon ∧ Within 360 rot ∧ p = .simple lat lon rot := by
  simp only [construct, bind_ok_iff, frame_ok]
  constructor
  · rintro ⟨_, ⟨a, b, c⟩, h⟩; cases h; exact ⟨a, b, c, rfl⟩
  · rintro ⟨a, b, c, rfl⟩; exact ⟨(), ⟨a, b, c⟩, rfl⟩

theorem construct_sdc {lat lon rot : Num} {p : Proj} : construct (.sdc lat lon rot) = .ok p ↔
    Within 90 lat ∧ Within 180 lon ∧ Within 360 rot ∧ p = .sdc lat lon rot := by
  simp only [construct, bind_ok_iff, frame_ok]
  constructor
  · rintro ⟨_, ⟨a, b, c⟩, h⟩; cases h; exact ⟨a, b, c, rfl⟩
  · rintro ⟨a, b, c, rfl⟩; exact ⟨(), ⟨a, b, c⟩, rfl⟩

theorem construct_lambert {e : Str} {lat lon rot pha phb : Num} {p : Proj} : construct (.lambert e lat lon rot pha phb) = .ok p ↔
    Within 90 lat ∧ Within 180 lon ∧ Within 360 rot ∧ Within 90 pha ∧ Within 90 phb ∧ KnownEllipsoid e ∧
      p = .lambert e lat lon rot pha phb := by
  simp only [construct, bind_ok_iff, frame_ok]
  rw [← outside_iff (x := pha) (by norm_num), ← outside_iff (x := phb) (by norm_num), ← ellipsoid_ok (u := ())]
  constructor
  · rintro ⟨_, ⟨a, b, c⟩, h⟩
    cases ha : outside 90 pha <;> cases hb : outside 90 phb <;> rw [ha, hb] at h <;> simp at h
    obtain ⟨_, h1, h2⟩ := bind_ok_iff.1 h
    cases h2
    exact ⟨a, b, c, rfl, rfl, h1, rfl⟩
  · rintro ⟨a, b, c, ha, hb, he, rfl⟩
    refine ⟨(), ⟨a, b, c⟩, ?_⟩
    rw [ha, hb, he]
    simp

theorem construct_transMerc {e : Str} {lat lon rot k : Num} {u : Bool} {fe : Int} {p : Proj} :
    construct (.transMerc e lat lon rot u fe k) = .ok p ↔
    Within 90 lat ∧ Within 180 lon ∧ Within 360 rot ∧ KnownEllipsoid e ∧ p = .transMerc e lat lon rot u fe k := by
  simp only [construct, bind_ok_iff, frame_ok, ellipsoid_ok]
  constructor
  · rintro ⟨_, ⟨a, b, c⟩, _, he, h⟩; cases h; exact ⟨a, b, c, he, rfl⟩
  · rintro ⟨a, b, c, he, rfl⟩; exact ⟨(), ⟨a, b, c⟩, (), he, rfl⟩

theorem construct_aziEqdist {e : Str} {lat lon rot : Num} {p : Proj} : construct (.aziEqdist e lat lon rot) = .ok p ↔
    Within 90 lat ∧ Within 180 lon ∧ Within 360 rot ∧ KnownEllipsoid e ∧ p = .aziEqdist e lat lon rot := by
  simp only [construct, bind_ok_iff, frame_ok, ellipsoid_ok]
  constructor
  · rintro ⟨_, ⟨a, b, c⟩, _, he, h⟩; cases h; exact ⟨a, b, c, he, rfl⟩
  · rintro ⟨a, b, c, he, rfl⟩; exact ⟨(), ⟨a, b, c⟩, (), he, rfl⟩

/-! ## The transform line -/

theorem optional_ok {A : Type} {t : List Str} {i : Nat} {k : String} {read : Str → Outcome A} {d v : A} :
    optional t i k read d = .ok v ↔
      (t.length ≤ i ∧ v = d) ∨ ∃ w, t[i]? = some k.toList ∧ t[i + 1]? = some w ∧ read w = .ok v := by
  unfold optional
  by_cases h : t.length > i
  · rw [if_pos h, bind_ok_iff]
    simp only [expect_ok, bind_ok_iff', word_ok]
    constructor
    · rintro ⟨_, h1, w, h2, h3⟩; exact .inr ⟨w, h1, h2, h3⟩
    · rintro (⟨h1, _⟩ | ⟨w, h1, h2, h3⟩)
      · omega
      · exact ⟨(), h1, w, h2, h3⟩
  · rw [if_neg h]
    constructor
    · intro h1; cases h1; exact .inl ⟨by omega, rfl⟩
    · rintro (⟨_, rfl⟩ | ⟨w, h1, _⟩)
      · rfl
      · have := (List.getElem?_eq_some_iff.1 h1).1; omega

theorem mercTail_iff {rnd : ℚ → ℚ} {t : List Str} {use : Bool} {fe : Int} {k : Num} (h10 : 10 ≤ t.length) :
    (optional t 10 "UseFalseEasting" (fun w => (stod rnd w).map (fun v => decide (v ≠ .num 0))) false = .ok use ∧
      optional t 12 "FalseEasting" stol 500000 = .ok fe ∧ optional t 14 "ScaleFactor" (stod rnd) (.num 1) = .ok k) ↔
      MercTail rnd (t.drop 10) use fe k := by
  simp only [optional_ok, map_ok_iff, NumberSpec.stod_iff, stol_iff]
  constructor
  · rintro ⟨h1, h2, h3⟩
    rcases h1 with ⟨h1, rfl⟩ | ⟨u, a1, a2, v, a3, rfl⟩
    · have e2 : fe = 500000 := by
        rcases h2 with ⟨_, h⟩ | ⟨w, h, _⟩
        · exact h
        · have := (List.getElem?_eq_some_iff.1 h).1; omega
      have e3 : k = .num 1 := by
        rcases h3 with ⟨_, h⟩ | ⟨w, h, _⟩
        · exact h
        · have := (List.getElem?_eq_some_iff.1 h).1; omega
      rw [e2, e3, List.drop_eq_nil_of_le h1]
      exact .none
    · rw [drop_cons a1, drop_cons a2]
      rcases h2 with ⟨h2, rfl⟩ | ⟨f, b1, b2, b3⟩
      · have e3 : k = .num 1 := by
          rcases h3 with ⟨_, h⟩ | ⟨w, h, _⟩
          · exact h
          · have := (List.getElem?_eq_some_iff.1 h).1; omega
        rw [e3, List.drop_eq_nil_of_le h2]
        exact .use a3
      · rw [drop_cons b1, drop_cons b2]
        rcases h3 with ⟨h3, rfl⟩ | ⟨x, c1, c2, c3⟩
        · rw [List.drop_eq_nil_of_le h3]
          exact .easting a3 b3
        · rw [drop_cons c1, drop_cons c2]
          exact .scale a3 b3 c3
  · intro h
    have hl : t.length = 10 + (t.drop 10).length := by rw [List.length_drop]; omega
    have hg : ∀ i, t[10 + i]? = (t.drop 10)[i]? := fun i => by rw [List.getElem?_drop]
    have g0 := hg 0
    have g1 := hg 1
    have g2 := hg 2
    have g3 := hg 3
    have g4 := hg 4
    have g5 := hg 5
    simp only [Nat.reduceAdd] at g0 g1 g2 g3 g4 g5
    generalize t.drop 10 = r at *
    cases h with
    | none => exact ⟨.inl ⟨by simp at hl; omega, rfl⟩, .inl ⟨by simp at hl; omega, rfl⟩, .inl ⟨by simp at hl; omega, rfl⟩⟩
    | use h => exact ⟨.inr ⟨_, g0, g1, _, h, rfl⟩, .inl ⟨by simp at hl; omega, rfl⟩, .inl ⟨by simp at hl; omega, rfl⟩⟩
    | easting h hf => exact ⟨.inr ⟨_, g0, g1, _, h, rfl⟩, .inr ⟨_, g2, g3, hf⟩, .inl ⟨by simp at hl; omega, rfl⟩⟩
    | scale h hf hk => exact ⟨.inr ⟨_, g0, g1, _, h, rfl⟩, .inr ⟨_, g2, g3, hf⟩, .inr ⟨_, g4, g5, hk⟩⟩

/-- a transform line is accepted exactly if it has the form of the specification -/
theorem parseTransform_iff {rnd : ℚ → ℚ} {t : List Str} {p : Proj} : parseTransform rnd t = .ok p ↔ TransformLine rnd t p := by
  constructor
  · intro h
    unfold parseTransform at h
    obtain ⟨w, h0, h⟩ := bind_ok_iff.1 h
    have h0 := word_ok.1 h0
    cases hw : isTransWord w
    · rw [hw] at h; simp at h
    rw [hw] at h
    have hw := isTransWord_iff.1 hw
    simp only [Bool.not_true, Bool.false_eq_true, if_false] at h
    obtain ⟨type, h1, h⟩ := bind_ok_iff.1 h
    have h1 := word_ok.1 h1
    have et : t = w :: type :: t.drop 2 := by rw [← drop_cons h1, ← drop_cons h0]; rfl
    split at h
    · rename_i ht
      cases h
      rw [et, ht]
      exact .global hw
    split at h
    · rename_i ht
      simp only [bind_ok_iff, expect_ok, number_ok] at h
      obtain ⟨_, e2, _, e4, _, e6, lat, ⟨a, ea, ha⟩, lon, ⟨b, eb, hb⟩, rot, ⟨c, ec, hc⟩, h⟩ := h
      rw [et, drop_cons e2, drop_cons ea, drop_cons e4, drop_cons eb, drop_cons e6, drop_cons ec]
      split at h
      · rename_i ht
        obtain ⟨w1, w2, w3, rfl⟩ := construct_simple.1 h
        rw [ht]
        exact .simple hw ha hb hc w1 w2 w3
      · rename_i ht'
        obtain ⟨w1, w2, w3, rfl⟩ := construct_sdc.1 h
        rw [ht.resolve_right ht']
        exact .sdc hw ha hb hc w1 w2 w3
    split at h
    · rename_i ht
      simp only [bind_ok_iff, expect_ok, number_ok, word_ok] at h
      obtain ⟨_, e2, _, e4, _, e6, _, e8, _, e10, _, e12, e, ee, lat, ⟨a, ea, ha⟩, lon, ⟨b, eb, hb⟩, pha, ⟨c, ec, hc⟩,
        phb, ⟨d, ed, hd⟩, rot, ⟨f, ef, hf⟩, h⟩ := h
      rw [et, drop_cons e2, drop_cons ee, drop_cons e4, drop_cons ea, drop_cons e6, drop_cons eb, drop_cons e8, drop_cons ec,
        drop_cons e10, drop_cons ed, drop_cons e12, drop_cons ef, ht]
      obtain ⟨w1, w2, w3, w4, w5, w6, rfl⟩ := construct_lambert.1 h
      exact .lambert hw w6 ha hb hc hd hf w1 w2 w3 w4 w5
    split at h
    · rename_i ht
      simp only [bind_ok_iff, expect_ok, number_ok, word_ok] at h
      obtain ⟨_, e2, _, e4, _, e6, _, e8, e, ee, lat, ⟨a, ea, ha⟩, lon, ⟨b, eb, hb⟩, rot, ⟨c, ec, hc⟩,
        use, hu, fe, hfe, k, hk, h⟩ := h
      have h10 : 10 ≤ t.length := by have := (List.getElem?_eq_some_iff.1 ec).1; omega
      rw [et, drop_cons e2, drop_cons ee, drop_cons e4, drop_cons ea, drop_cons e6, drop_cons eb, drop_cons e8, drop_cons ec, ht]
      obtain ⟨w1, w2, w3, w6, rfl⟩ := construct_transMerc.1 h
      exact .transMerc hw w6 ha hb hc ((mercTail_iff h10).1 ⟨hu, hfe, hk⟩) w1 w2 w3
    split at h
    · rename_i ht
      simp only [bind_ok_iff, expect_ok, number_ok, word_ok] at h
      obtain ⟨_, e2, _, e4, _, e6, _, e8, e, ee, lat, ⟨a, ea, ha⟩, lon, ⟨b, eb, hb⟩, rot, ⟨c, ec, hc⟩, h⟩ := h
      rw [et, drop_cons e2, drop_cons ee, drop_cons e4, drop_cons ea, drop_cons e6, drop_cons eb, drop_cons e8, drop_cons ec, ht]
      obtain ⟨w1, w2, w3, w6, rfl⟩ := construct_aziEqdist.1 h
      exact .aziEqdist hw w6 ha hb hc w1 w2 w3
    · cases h
  · intro h
    cases h with
    | global hw =>
      refine bind_ok_iff.2 ⟨_, word_ok.2 rfl, ?_⟩
      rw [isTransWord_iff.2 hw]
      refine bind_ok_iff.2 ⟨_, word_ok.2 rfl, ?_⟩
      rw [if_pos rfl]
      rfl
    | simple hw ha hb hc h1 h2 h3 =>
      refine bind_ok_iff.2 ⟨_, word_ok.2 rfl, ?_⟩
      rw [isTransWord_iff.2 hw]
      refine bind_ok_iff.2 ⟨_, word_ok.2 rfl, ?_⟩
      rw [if_neg (by decide), if_pos (.inr rfl)]
      simp only [bind_ok_iff, expect_ok, number_ok]
      refine ⟨(), rfl, (), rfl, (), rfl, _, ⟨_, rfl, ha⟩, _, ⟨_, rfl, hb⟩, _, ⟨_, rfl, hc⟩, ?_⟩
      rw [if_pos trivial]
      exact construct_simple.2 ⟨h1, h2, h3, rfl⟩
    | sdc hw ha hb hc h1 h2 h3 =>
      refine bind_ok_iff.2 ⟨_, word_ok.2 rfl, ?_⟩
      rw [isTransWord_iff.2 hw]
      refine bind_ok_iff.2 ⟨_, word_ok.2 rfl, ?_⟩
      rw [if_neg (by decide), if_pos (.inl rfl)]
      simp only [bind_ok_iff, expect_ok, number_ok]
      refine ⟨(), rfl, (), rfl, (), rfl, _, ⟨_, rfl, ha⟩, _, ⟨_, rfl, hb⟩, _, ⟨_, rfl, hc⟩, ?_⟩
      rw [if_neg (by decide)]
      exact construct_sdc.2 ⟨h1, h2, h3, rfl⟩
    | lambert hw he ha hb hd hf hc h1 h2 h3 h4 h5 =>
      refine bind_ok_iff.2 ⟨_, word_ok.2 rfl, ?_⟩
      rw [isTransWord_iff.2 hw]
      refine bind_ok_iff.2 ⟨_, word_ok.2 rfl, ?_⟩
      rw [if_neg (by decide), if_neg (by decide), if_pos rfl]
      simp only [bind_ok_iff, expect_ok, number_ok, word_ok]
      exact ⟨(), rfl, (), rfl, (), rfl, (), rfl, (), rfl, (), rfl, _, rfl, _, ⟨_, rfl, ha⟩, _, ⟨_, rfl, hb⟩, _, ⟨_, rfl, hd⟩,
        _, ⟨_, rfl, hf⟩, _, ⟨_, rfl, hc⟩, construct_lambert.2 ⟨h1, h2, h3, h4, h5, he, rfl⟩⟩
    | @transMerc w e a b c rest _ _ _ _ _ _ hw he ha hb hc ht h1 h2 h3 =>
      refine bind_ok_iff.2 ⟨_, word_ok.2 rfl, ?_⟩
      rw [isTransWord_iff.2 hw]
      refine bind_ok_iff.2 ⟨_, word_ok.2 rfl, ?_⟩
      rw [if_neg (by decide), if_neg (by decide), if_neg (by decide), if_pos rfl]
      simp only [bind_ok_iff, expect_ok, number_ok, word_ok]
      obtain ⟨t1, t2, t3⟩ := (mercTail_iff (t := w :: "TRANS_MERC".toList :: "RefEllipsoid".toList :: e :: "LatOrig".toList :: a ::
        "LongOrig".toList :: b :: "RotCW".toList :: c :: rest) (Nat.le_add_left 10 _)).2 ht
      exact ⟨(), rfl, (), rfl, (), rfl, (), rfl, _, rfl, _, ⟨_, rfl, ha⟩, _, ⟨_, rfl, hb⟩, _, ⟨_, rfl, hc⟩,
        _, t1, _, t2, _, t3, construct_transMerc.2 ⟨h1, h2, h3, he, rfl⟩⟩
    | aziEqdist hw he ha hb hc h1 h2 h3 =>
      refine bind_ok_iff.2 ⟨_, word_ok.2 rfl, ?_⟩
      rw [isTransWord_iff.2 hw]
      refine bind_ok_iff.2 ⟨_, word_ok.2 rfl, ?_⟩
      rw [if_neg (by decide), if_neg (by decide), if_neg (by decide), if_neg (by decide), if_pos rfl]
      simp only [bind_ok_iff, expect_ok, number_ok, word_ok]
      exact ⟨(), rfl, (), rfl, (), rfl, (), rfl, _, rfl, _, ⟨_, rfl, ha⟩, _, ⟨_, rfl, hb⟩, _, ⟨_, rfl, hc⟩,
        construct_aziEqdist.2 ⟨h1, h2, h3, he, rfl⟩⟩

/-! ## The header -/

theorem readDims_iff {rnd : ℚ → ℚ} {t : List Str} {d : Dims} (hl : t.length = 10 ∨ t.length = 11) :
    readDims rnd t = .ok d ↔ DimsLine rnd t d := by
  constructor
  · intro h
    unfold readDims at h
    simp only [bind_ok_iff, number_ok, count_ok, word_ok] at h
    obtain ⟨nx, ⟨a, ea, ha⟩, ny, ⟨b, eb, hb⟩, nz, ⟨c, ec, hc⟩, ox, ⟨x, ex, hx⟩, oy, ⟨y, ey, hy⟩, oz, ⟨z, ez, hz⟩,
      dx, ⟨f, ef, hf⟩, dy, ⟨g, eg, hg⟩, dz, ⟨i, ei, hi⟩, type, et, dbl, hdbl, h⟩ := h
    cases h
    have e : t = a :: b :: c :: x :: y :: z :: f :: g :: i :: type :: t.drop 10 := by
      rw [← drop_cons et, ← drop_cons ei, ← drop_cons eg, ← drop_cons ef, ← drop_cons ez, ← drop_cons ey, ← drop_cons ex,
        ← drop_cons ec, ← drop_cons eb, ← drop_cons ea]
      rfl
    rcases hl with hl | hl
    · rw [hl] at hdbl
      simp only [Nat.reduceEqDiff, if_false] at hdbl
      cases hdbl
      rw [e, List.drop_eq_nil_of_le (by omega)]
      exact .ten ha hb hc hx hy hz hf hg hi
    · rw [if_pos hl, map_ok_iff] at hdbl
      obtain ⟨w, ew, rfl⟩ := hdbl
      have ew := word_ok.1 ew
      rw [e, drop_cons ew, List.drop_eq_nil_of_le (by omega)]
      exact .eleven ha hb hc hx hy hz hf hg hi
  · intro h
    unfold readDims
    simp only [bind_ok_iff, number_ok, count_ok, word_ok]
    cases h with
    | ten ha hb hc hd he hf hg hh hi =>
      exact ⟨_, ⟨_, rfl, ha⟩, _, ⟨_, rfl, hb⟩, _, ⟨_, rfl, hc⟩, _, ⟨_, rfl, hd⟩, _, ⟨_, rfl, he⟩, _, ⟨_, rfl, hf⟩,
        _, ⟨_, rfl, hg⟩, _, ⟨_, rfl, hh⟩, _, ⟨_, rfl, hi⟩, _, rfl, _, rfl, rfl⟩
    | eleven ha hb hc hd he hf hg hh hi =>
      exact ⟨_, ⟨_, rfl, ha⟩, _, ⟨_, rfl, hb⟩, _, ⟨_, rfl, hc⟩, _, ⟨_, rfl, hd⟩, _, ⟨_, rfl, he⟩, _, ⟨_, rfl, hf⟩,
        _, ⟨_, rfl, hg⟩, _, ⟨_, rfl, hh⟩, _, ⟨_, rfl, hi⟩, _, rfl, _, rfl, rfl⟩

theorem readSource_iff {rnd : ℚ → ℚ} {t : List Str} {s : Source} (hl : t.length = 4) :
    readSource rnd t = .ok s ↔ SourceLine rnd t s := by
  constructor
  · intro h
    unfold readSource at h
    simp only [bind_ok_iff, number_ok, word_ok] at h
    obtain ⟨l, el, x, ⟨a, ea, ha⟩, y, ⟨b, eb, hb⟩, z, ⟨c, ec, hc⟩, h⟩ := h
    cases h
    have e : t = l :: a :: b :: c :: t.drop 4 := by
      rw [← drop_cons ec, ← drop_cons eb, ← drop_cons ea, ← drop_cons el]
      rfl
    rw [e, List.drop_eq_nil_of_le (by omega)]
    exact .mk ha hb hc
  · intro h
    unfold readSource
    simp only [bind_ok_iff, number_ok, word_ok]
    cases h with
    | mk ha hb hc => exact ⟨_, rfl, _, ⟨_, rfl, ha⟩, _, ⟨_, rfl, hb⟩, _, ⟨_, rfl, hc⟩, rfl⟩

theorem DimsLine.isDims {rnd : ℚ → ℚ} {t : List Str} {d : Dims} (h : DimsLine rnd t d) : IsDims t := by
  cases h with
  | ten => exact .inl rfl
  | eleven => exact .inr rfl

theorem SourceLine.length {rnd : ℚ → ℚ} {t : List Str} {s : Source} (h : SourceLine rnd t s) : t.length = 4 := by
  cases h; rfl

theorem TransformLine.isTrans {rnd : ℚ → ℚ} {t : List Str} {p : Proj} (h : TransformLine rnd t p) : IsTrans t := by
  cases h <;> exact ⟨_, _, rfl, by assumption⟩

/-- time and angle grids -/
def Station (kind : Kind) : Prop := kind = .time ∨ kind = .angle

/-- what one line does -/
inductive Effect (rnd : ℚ → ℚ) (kind : Kind) (r : Raw) (t : List Str) : Raw → Prop
  | skip (h1 : ¬(r.parsedLines = 0 ∧ IsDims t)) (h2 : ¬(r.parsedLines = 1 ∧ t.length = 4 ∧ Station kind)) (h3 : ¬IsTrans t) :
      Effect rnd kind r t r
  | dims {d : Dims} (h1 : r.parsedLines = 0) (h2 : DimsLine rnd t d) :
      Effect rnd kind r t { r with dims := some d, parsedLines := r.parsedLines + 1 }
  | src {s : Source} (h1 : r.parsedLines = 1) (h2 : SourceLine rnd t s) (h3 : Station kind) :
      Effect rnd kind r t { r with src := some s, parsedLines := r.parsedLines + 1 }
  | trans {p : Proj} (h1 : ¬(r.parsedLines = 0 ∧ IsDims t)) (h2 : ¬(r.parsedLines = 1 ∧ t.length = 4 ∧ Station kind))
      (h3 : TransformLine rnd t p) :
      Effect rnd kind r t { r with transform := some p, parsedLines := r.parsedLines + 1 }

theorem lineStep_iff {rnd : ℚ → ℚ} {kind : Kind} {r r' : Raw} {l : Str} :
    lineStep rnd kind r l = .ok r' ↔ Effect rnd kind r (words l) r' := by
  rw [← tokens_eq_words]
  unfold lineStep
  simp only
  generalize tokens l = t
  by_cases h0 : t = []
  · rw [if_pos h0]
    subst h0
    constructor
    · intro h; cases h
      exact .skip (by simp [IsDims]) (by simp) (by rintro ⟨w, rest, h, _⟩; cases h)
    · intro h
      cases h with
      | skip => rfl
      | dims _ h2 => exact absurd h2.isDims (by simp [IsDims])
      | src _ h2 => exact absurd h2.length (by simp)
      | trans _ _ h3 => obtain ⟨w, rest, h, _⟩ := h3.isTrans; cases h
  rw [if_neg h0]
  by_cases h1 : r.parsedLines = 0 ∧ (t.length = 10 ∨ t.length = 11)
  · rw [if_pos h1, bind_ok_iff]
    simp only [readDims_iff h1.2]
    constructor
    · rintro ⟨d, hd, h⟩; cases h
      exact .dims h1.1 hd
    · intro h
      cases h with
      | skip a => exact absurd h1 a
      | dims _ h2 => exact ⟨_, h2, rfl⟩
      | src a => omega
      | trans a => exact absurd h1 a
  rw [if_neg h1]
  by_cases h2 : r.parsedLines = 1 ∧ t.length = 4 ∧ (kind = .time ∨ kind = .angle)
  · rw [if_pos h2, bind_ok_iff]
    simp only [readSource_iff h2.2.1]
    constructor
    · rintro ⟨d, hd, h⟩; cases h
      exact .src h2.1 hd h2.2.2
    · intro h
      cases h with
      | skip _ a => exact absurd h2 a
      | dims a => omega
      | src _ a => exact ⟨_, a, rfl⟩
      | trans _ a => exact absurd h2 a
  rw [if_neg h2, bind_ok_iff]
  constructor
  · rintro ⟨w, hw, h⟩
    have hw := word_ok.1 hw
    split at h
    · obtain ⟨p, hp, h⟩ := bind_ok_iff.1 h
      cases h
      exact .trans h1 h2 (parseTransform_iff.1 hp)
    · rename_i hn
      cases h
      refine .skip h1 h2 ?_
      rintro ⟨w', rest, rfl, h⟩
      simp only [List.getElem?_cons_zero, Option.some.injEq] at hw
      exact hn (isTransWord_iff.2 (hw ▸ h))
  · intro h
    cases t with
    | nil => exact absurd rfl h0
    | cons w rest =>
      refine ⟨w, rfl, ?_⟩
      cases h with
      | skip _ _ h3 =>
        rw [if_neg]
        intro hw
        exact h3 ⟨w, rest, rfl, isTransWord_iff.1 hw⟩
      | dims a b => exact absurd ⟨a, b.isDims⟩ h1
      | src a b c => exact absurd ⟨a, b.length, c⟩ h2
      | trans _ _ h3 =>
        obtain ⟨w', rest', e, hw⟩ := h3.isTrans
        cases e
        rw [if_pos (isTransWord_iff.2 hw), bind_ok_iff]
        exact ⟨_, parseTransform_iff.2 h3, rfl⟩

theorem readLines_cons {rnd : ℚ → ℚ} {kind : Kind} {r r' : Raw} {l : Str} {ls : List Str} :
    readLines rnd kind r (l :: ls) = .ok r' ↔ ∃ m, Effect rnd kind r (words l) m ∧ readLines rnd kind m ls = .ok r' := by
  rw [readLines, bind_ok_iff']
  simp only [lineStep_iff]

/-- what several lines do -/
inductive Run (rnd : ℚ → ℚ) (kind : Kind) : Raw → List (List Str) → Raw → Prop
  | nil (r : Raw) : Run rnd kind r [] r
  | cons {r m r' : Raw} {t : List Str} {ts : List (List Str)} (h : Effect rnd kind r t m) (hs : Run rnd kind m ts r') :
      Run rnd kind r (t :: ts) r'

theorem readLines_iff {rnd : ℚ → ℚ} {kind : Kind} {r' : Raw} {ls : List Str} : ∀ {r : Raw},
    readLines rnd kind r ls = .ok r' ↔ Run rnd kind r (ls.map words) r' := by
  induction ls with
  | nil =>
    intro r
    constructor
    · intro h; cases h; exact .nil _
    · intro h; cases h; rfl
  | cons l ls ih =>
    intro r
    rw [readLines_cons, List.map_cons]
    constructor
    · rintro ⟨m, h1, h2⟩; exact .cons h1 (ih.1 h2)
    · intro h; cases h with
      | cons h1 h2 => exact ⟨_, h1, ih.2 h2⟩

variable {rnd : ℚ → ℚ} {kind : Kind}

theorem Run.append {r m r' : Raw} {a b : List (List Str)} (h1 : Run rnd kind r a m) (h2 : Run rnd kind m b r') :
    Run rnd kind r (a ++ b) r' := by
  induction h1 with
  | nil => exact h2
  | cons h _ ih => exact .cons h (ih h2)

theorem Effect.le {r m : Raw} {t : List Str} (h : Effect rnd kind r t m) : r.parsedLines ≤ m.parsedLines := by
  cases h <;> simp

theorem Run.le {r r' : Raw} {ts : List (List Str)} (h : Run rnd kind r ts r') : r.parsedLines ≤ r'.parsedLines := by
  induction h with
  | nil => exact Nat.le_refl _
  | cons h _ ih => exact h.le.trans ih

/-- only transform lines count from now on -/
def Late (kind : Kind) (r : Raw) : Prop := 2 ≤ r.parsedLines ∨ (1 ≤ r.parsedLines ∧ ¬Station kind)

theorem Late.effect {r m : Raw} {t : List Str} (hl : Late kind r) (h : Effect rnd kind r t m) :
    (m = r ∧ ¬IsTrans t) ∨ ∃ p, TransformLine rnd t p ∧ m = { r with transform := some p, parsedLines := r.parsedLines + 1 } := by
  cases h with
  | skip _ _ h3 => exact .inl ⟨rfl, h3⟩
  | dims h1 => rcases hl with h | ⟨h, _⟩ <;> omega
  | src h1 _ h3 => rcases hl with h | ⟨_, h⟩; omega; exact absurd h3 h
  | trans _ _ h3 => exact .inr ⟨_, h3, rfl⟩

theorem Late.step {r : Raw} {x : Option Proj} (h : Late kind r) :
    Late kind { r with transform := x, parsedLines := r.parsedLines + 1 } := by
  rcases h with h | ⟨h, h'⟩
  · exact .inl (by simp; omega)
  · exact .inr ⟨by simp, h'⟩

theorem Run.late {r r' : Raw} {ts : List (List Str)} (hl : Late kind r) (h : Run rnd kind r ts r') :
    r'.dims = r.dims ∧ r'.src = r.src := by
  induction h with
  | nil => exact ⟨rfl, rfl⟩
  | cons h _ ih =>
    rcases hl.effect h with ⟨rfl, _⟩ | ⟨p, _, rfl⟩
    · exact ih hl
    · exact ih hl.step

theorem Run.late_none {r r' : Raw} {ts : List (List Str)} (hl : Late kind r) (h : Run rnd kind r ts r')
    (hp : r'.parsedLines = r.parsedLines) : r' = r ∧ ∀ t ∈ ts, ¬IsTrans t := by
  induction h with
  | nil => exact ⟨rfl, by simp⟩
  | cons h hs ih =>
    rcases hl.effect h with ⟨rfl, hn⟩ | ⟨p, _, rfl⟩
    · obtain ⟨e, ht⟩ := ih hl hp
      exact ⟨e, by simpa using ⟨hn, ht⟩⟩
    · have := hs.le; simp at this; omega

theorem Run.late_one {r r' : Raw} {ts : List (List Str)} (hl : Late kind r) (h : Run rnd kind r ts r')
    (hp : r'.parsedLines = r.parsedLines + 1) :
    ∃ B lt C p, ts = B ++ lt :: C ∧ (∀ t ∈ B, ¬IsTrans t) ∧ (∀ t ∈ C, ¬IsTrans t) ∧ TransformLine rnd lt p ∧
      r' = { r with transform := some p, parsedLines := r.parsedLines + 1 } := by
  induction h with
  | nil => simp at hp
  | @cons _ _ _ t ts h hs ih =>
    rcases hl.effect h with ⟨rfl, hn⟩ | ⟨p, ht, rfl⟩
    · obtain ⟨B, lt, C, p, rfl, hB, hC, ht, e⟩ := ih hl hp
      exact ⟨t :: B, lt, C, p, rfl, by simpa using ⟨hn, hB⟩, hC, ht, e⟩
    · obtain ⟨e, hC⟩ := hs.late_none hl.step hp
      exact ⟨[], t, ts, p, rfl, by simp, hC, ht, e⟩

theorem Run.skip_late {r : Raw} {ts : List (List Str)} (hl : Late kind r) (h : ∀ t ∈ ts, ¬IsTrans t) : Run rnd kind r ts r := by
  induction ts with
  | nil => exact .nil r
  | cons t ts ih =>
    refine .cons (.skip ?_ ?_ (h t (by simp))) (ih (fun t ht => h t (by simp [ht])))
    · rintro ⟨h0, _⟩; rcases hl with h | ⟨h, _⟩ <;> omega
    · rintro ⟨h0, _, hs⟩; rcases hl with h | ⟨_, h⟩; omega; exact h hs

theorem Run.trans_late {r : Raw} {t : List Str} {p : Proj} (hl : Late kind r) (h : TransformLine rnd t p) :
    Run rnd kind r [t] { r with transform := some p, parsedLines := r.parsedLines + 1 } := by
  refine .cons (.trans ?_ ?_ h) (.nil _)
  · rintro ⟨h0, _⟩; rcases hl with h | ⟨h, _⟩ <;> omega
  · rintro ⟨h0, _, hs⟩; rcases hl with h | ⟨_, h⟩; omega; exact h hs

theorem Run.station {r r' : Raw} {ts : List (List Str)} (hk : Station kind) (h : Run rnd kind r ts r') (h1 : r.parsedLines = 1)
    (h3 : r'.parsedLines = 3) (hn : r.src = none) (hs : r'.src ≠ none) :
    ∃ B ls C lt D s p, ts = B ++ ls :: (C ++ lt :: D) ∧ (∀ t ∈ B, t.length ≠ 4 ∧ ¬IsTrans t) ∧ SourceLine rnd ls s ∧
      (∀ t ∈ C, ¬IsTrans t) ∧ TransformLine rnd lt p ∧ (∀ t ∈ D, ¬IsTrans t) ∧
      r' = { r with src := some s, transform := some p, parsedLines := 3 } := by
  induction h with
  | nil => omega
  | @cons r m r' t ts h hr ih =>
    cases h with
    | skip a b c =>
      obtain ⟨B, ls, C, lt, D, s, p, rfl, hB, hls, hC, hlt, hD, e⟩ := ih h1 h3 hn hs
      refine ⟨t :: B, ls, C, lt, D, s, p, rfl, ?_, hls, hC, hlt, hD, e⟩
      intro t' ht'
      rcases List.mem_cons.1 ht' with rfl | ht'
      · exact ⟨fun h4 => b ⟨h1, h4, hk⟩, c⟩
      · exact hB t' ht'
    | dims a => omega
    | @src s a b c =>
      obtain ⟨C, lt, D, p, rfl, hC, hD, hlt, e⟩ := hr.late_one (.inl (by simp [h1])) (by simp; omega)
      refine ⟨[], t, C, lt, D, s, p, rfl, by simp, b, hC, hlt, hD, ?_⟩
      rw [e]
      simp [h1]
    | trans =>
      have := (hr.late (.inl (by simp [h1]))).2
      exact absurd (this.trans hn) hs

theorem Run.dims_kept {r r' : Raw} {ts : List (List Str)} (h : Run rnd kind r ts r') (h1 : r.parsedLines ≠ 0) :
    r'.dims = r.dims := by
  induction h with
  | nil => rfl
  | cons h _ ih =>
    cases h with
    | skip => exact ih h1
    | dims h0 => exact absurd h0 h1
    | src => exact ih (by simp)
    | trans => exact ih (by simp)

/-- up to the line of the dimensions -/
theorem Run.first {r' : Raw} {ts : List (List Str)} (h : Run rnd kind {} ts r') (hd : r'.dims ≠ none) :
    ∃ A ld B d, ts = A ++ ld :: B ∧ (∀ t ∈ A, ¬IsDims t ∧ ¬IsTrans t) ∧ DimsLine rnd ld d ∧
      Run rnd kind { dims := some d, parsedLines := 1 } B r' := by
  generalize hr : ({} : Raw) = r at h
  induction h with
  | nil => subst hr; exact absurd rfl hd
  | @cons r m r' t ts h hrun ih =>
    subst hr
    cases h with
    | skip a b c =>
      obtain ⟨A, ld, B, d, rfl, hA, hld, e⟩ := ih hd rfl
      refine ⟨t :: A, ld, B, d, rfl, ?_, hld, e⟩
      intro t' ht'
      rcases List.mem_cons.1 ht' with rfl | ht'
      · exact ⟨fun h => a ⟨rfl, h⟩, c⟩
      · exact hA t' ht'
    | dims a b => exact ⟨[], t, ts, _, rfl, by simp, b, hrun⟩
    | src a => simp at a
    | trans => exact absurd (hrun.dims_kept (by simp)) hd

theorem Run.before {r : Raw} {ts : List (List Str)} (h0 : r.parsedLines = 0) (h : ∀ t ∈ ts, ¬IsDims t ∧ ¬IsTrans t) :
    Run rnd kind r ts r := by
  induction ts with
  | nil => exact .nil r
  | cons t ts ih =>
    refine .cons (.skip (fun a => (h t (by simp)).1 a.2) (fun a => by omega) (h t (by simp)).2)
      (ih (fun t ht => h t (by simp [ht])))

theorem Run.between {r : Raw} {ts : List (List Str)} (h1 : r.parsedLines = 1) (h : ∀ t ∈ ts, t.length ≠ 4 ∧ ¬IsTrans t) :
    Run rnd kind r ts r := by
  induction ts with
  | nil => exact .nil r
  | cons t ts ih =>
    refine .cons (.skip (fun a => by omega) (fun a => (h t (by simp)).1 a.2.1) (h t (by simp)).2)
      (ih (fun t ht => h t (by simp [ht])))

theorem describes_run {ts : List (List Str)} {d : Dims} {s : Option Source} {p : Proj} (h : Describes rnd kind ts d s p) :
    Run rnd kind {} ts { dims := some d, src := s, transform := some p, parsedLines := if kind = .velocity then 2 else 3 } := by
  cases h with
  | velocity hA hd hB ht hC =>
    have l : ∀ x y, Late .velocity ⟨1, x, none, y⟩ := fun _ _ => .inr ⟨Nat.le_refl _, by simp [Station]⟩
    refine (Run.before rfl hA).append (.cons (.dims rfl hd) ?_)
    refine (Run.skip_late (l _ _) hB).append (Run.append (a := [_]) (Run.trans_late (l _ _) ht) ?_)
    exact Run.skip_late (.inl (by simp)) hC
  | station hk hA hd hB hs hC ht hD =>
    have e : (if kind = .velocity then 2 else 3) = 3 := by rcases hk with rfl | rfl <;> rfl
    rw [e]
    refine (Run.before rfl hA).append (.cons (.dims rfl hd) ?_)
    refine (Run.between rfl hB).append (.cons (.src rfl hs hk) ?_)
    refine (Run.skip_late (.inl (by simp)) hC).append (Run.append (a := [_]) (Run.trans_late (.inl (by simp)) ht) ?_)
    exact Run.skip_late (.inl (by simp)) hD

/-- The header read, in terms of the specification: the number of lines found and the dimensions are both there exactly
if the lines describe a grid, or if the line of the station was replaced by a second transform line. -/
theorem run_describes {ts : List (List Str)} {r : Raw} {d : Dims} (h : Run rnd kind {} ts r) (hd : r.dims = some d)
    (hp : r.parsedLines = if kind = .velocity then 2 else 3) (hs : kind = .velocity ∨ r.src ≠ none) :
    ∃ p, r.transform = some p ∧ Describes rnd kind ts d r.src p := by
  obtain ⟨A, ld, B, d', rfl, hA, hld, hr⟩ := h.first (by rw [hd]; simp)
  have e := hr.dims_kept (by simp)
  rw [hd] at e
  cases e
  by_cases hk : kind = .velocity
  · subst hk
    obtain ⟨B, lt, C, p, rfl, hB, hC, hlt, e⟩ := hr.late_one (.inr ⟨Nat.le_refl _, by simp [Station]⟩) hp
    subst e
    exact ⟨p, rfl, .velocity hA hld hB hlt hC⟩
  · have hk' : Station kind := by cases kind <;> simp [Station] at *
    rw [if_neg hk] at hp
    obtain ⟨B, ls, C, lt, D, s, p, rfl, hB, hls, hC, hlt, hD, e⟩ := hr.station hk' rfl hp rfl (hs.resolve_left hk)
    subst e
    exact ⟨p, rfl, .station hk' hA hld hB hls hC hlt hD⟩

/-- an accepted header has a transform -/
theorem Run.transform {r r' : Raw} {ts : List (List Str)} (h : Run rnd kind r ts r')
    (h0 : r.transform = none → r.parsedLines ≤ 1 ∧ r.src = none ∨ r.parsedLines = 2 ∧ kind ≠ .velocity) :
    r'.transform = none → r'.parsedLines ≤ 1 ∧ r'.src = none ∨ r'.parsedLines = 2 ∧ kind ≠ .velocity := by
  induction h with
  | nil => exact h0
  | cons h _ ih =>
    apply ih
    cases h with
    | skip => exact h0
    | dims h1 =>
      intro hn
      rcases h0 hn with ⟨_, h⟩ | ⟨h, _⟩
      · exact .inl ⟨by simp [h1], h⟩
      · omega
    | src h1 _ h3 =>
      intro hn
      refine .inr ⟨by simp [h1], ?_⟩
      rintro rfl
      simp [Station] at h3
    | trans => intro hn; cases hn

/-! ## Parsing does not misbehave on its own -/

theorem bind_ne_ub {A B : Type} {x : Outcome A} {f : A → Outcome B} (h : x ≠ .ub) (hf : ∀ a, f a ≠ .ub) : (x >>= f) ≠ .ub := by
  cases x with
  | ok a => exact hf a
  | throws => simp
  | ub => exact absurd rfl h

theorem ite_ne_ub {A : Type} {c : Prop} [Decidable c] {x y : Outcome A} (hx : x ≠ .ub) (hy : y ≠ .ub) : (if c then x else y) ≠ .ub := by
  split <;> assumption

theorem word_ne_ub (t : List Str) (i : Nat) : word t i ≠ .ub := by
  unfold word; cases t[i]? <;> simp [Outcome.ofOption]

theorem expect_ne_ub (t : List Str) (i : Nat) (k : String) : expect t i k ≠ .ub :=
  bind_ne_ub (word_ne_ub t i) (fun w => by split <;> simp)

theorem stod_ne_ub (rnd : ℚ → ℚ) (s : Str) : stod rnd s ≠ .ub := NumberSpec.stod_ne_ub rnd s

theorem stoull_ne_ub (s : Str) : stoull s ≠ .ub := by
  unfold stoull
  exact ite_ne_ub (by simp) (ite_ne_ub (by simp) (by simp))

theorem stol_ne_ub (s : Str) : stol s ≠ .ub := by
  unfold stol
  exact ite_ne_ub (by simp) (ite_ne_ub (by simp) (by simp))

theorem number_ne_ub (rnd : ℚ → ℚ) (t : List Str) (i : Nat) : number rnd t i ≠ .ub :=
  bind_ne_ub (word_ne_ub t i) (fun w => stod_ne_ub rnd w)

theorem count_ne_ub (t : List Str) (i : Nat) : count t i ≠ .ub :=
  bind_ne_ub (word_ne_ub t i) (fun w => stoull_ne_ub w)

theorem frame_ne_ub (lat lon rot : Num) : frame lat lon rot ≠ .ub := by
  unfold frame; split; simp; split; simp; split <;> simp

theorem ellipsoid_ne_ub (e : Str) : ellipsoid e ≠ .ub := by
  unfold ellipsoid; split <;> simp

theorem construct_ne_ub (p : Proj) : construct p ≠ .ub := by
  cases p with
  | global => simp [construct]
  | simple => exact bind_ne_ub (frame_ne_ub _ _ _) (fun _ => by simp)
  | sdc => exact bind_ne_ub (frame_ne_ub _ _ _) (fun _ => by simp)
  | lambert =>
    refine bind_ne_ub (frame_ne_ub _ _ _) (fun _ => ?_)
    split
    · simp
    split
    · simp
    exact bind_ne_ub (ellipsoid_ne_ub _) (fun _ => by simp)
  | transMerc => exact bind_ne_ub (frame_ne_ub _ _ _) (fun _ => bind_ne_ub (ellipsoid_ne_ub _) (fun _ => by simp))
  | aziEqdist => exact bind_ne_ub (frame_ne_ub _ _ _) (fun _ => bind_ne_ub (ellipsoid_ne_ub _) (fun _ => by simp))

theorem optional_ne_ub {A : Type} (t : List Str) (i : Nat) (k : String) (read : Str → Outcome A) (d : A) (h : ∀ w, read w ≠ .ub) :
    optional t i k read d ≠ .ub := by
  unfold optional
  split
  · exact bind_ne_ub (expect_ne_ub _ _ _) (fun _ => bind_ne_ub (word_ne_ub _ _) h)
  · simp

theorem parseTransform_ne_ub (rnd : ℚ → ℚ) (t : List Str) : parseTransform rnd t ≠ .ub := by
  refine bind_ne_ub (word_ne_ub _ _) (fun w => ?_)
  split
  · simp
  refine bind_ne_ub (word_ne_ub _ _) (fun type => ?_)
  split
  · exact construct_ne_ub _
  split
  · refine bind_ne_ub (expect_ne_ub _ _ _) (fun _ => bind_ne_ub (expect_ne_ub _ _ _) (fun _ => bind_ne_ub (expect_ne_ub _ _ _) (fun _ =>
      bind_ne_ub (number_ne_ub _ _ _) (fun _ => bind_ne_ub (number_ne_ub _ _ _) (fun _ => bind_ne_ub (number_ne_ub _ _ _) (fun _ => ?_))))))
    split <;> exact construct_ne_ub _
  split
  · exact bind_ne_ub (expect_ne_ub _ _ _) (fun _ => bind_ne_ub (expect_ne_ub _ _ _) (fun _ => bind_ne_ub (expect_ne_ub _ _ _) (fun _ =>
      bind_ne_ub (expect_ne_ub _ _ _) (fun _ => bind_ne_ub (expect_ne_ub _ _ _) (fun _ => bind_ne_ub (expect_ne_ub _ _ _) (fun _ =>
      bind_ne_ub (word_ne_ub _ _) (fun _ => bind_ne_ub (number_ne_ub _ _ _) (fun _ => bind_ne_ub (number_ne_ub _ _ _) (fun _ =>
      bind_ne_ub (number_ne_ub _ _ _) (fun _ => bind_ne_ub (number_ne_ub _ _ _) (fun _ => bind_ne_ub (number_ne_ub _ _ _) (fun _ =>
      construct_ne_ub _))))))))))))
  split
  · exact bind_ne_ub (expect_ne_ub _ _ _) (fun _ => bind_ne_ub (expect_ne_ub _ _ _) (fun _ => bind_ne_ub (expect_ne_ub _ _ _) (fun _ =>
      bind_ne_ub (expect_ne_ub _ _ _) (fun _ =>
      bind_ne_ub (word_ne_ub _ _) (fun _ => bind_ne_ub (number_ne_ub _ _ _) (fun _ => bind_ne_ub (number_ne_ub _ _ _) (fun _ =>
      bind_ne_ub (number_ne_ub _ _ _) (fun _ =>
      bind_ne_ub (optional_ne_ub _ _ _ _ _ (fun w => by
        have := stod_ne_ub rnd w; cases h : stod rnd w <;> simp_all [Outcome.map])) (fun _ =>
      bind_ne_ub (optional_ne_ub _ _ _ _ _ stol_ne_ub) (fun _ =>
      bind_ne_ub (optional_ne_ub _ _ _ _ _ (stod_ne_ub rnd)) (fun _ =>
      construct_ne_ub _)))))))))))
  split
  · exact bind_ne_ub (expect_ne_ub _ _ _) (fun _ => bind_ne_ub (expect_ne_ub _ _ _) (fun _ => bind_ne_ub (expect_ne_ub _ _ _) (fun _ =>
      bind_ne_ub (expect_ne_ub _ _ _) (fun _ =>
      bind_ne_ub (word_ne_ub _ _) (fun _ => bind_ne_ub (number_ne_ub _ _ _) (fun _ => bind_ne_ub (number_ne_ub _ _ _) (fun _ =>
      bind_ne_ub (number_ne_ub _ _ _) (fun _ => construct_ne_ub _))))))))
  · simp

theorem readDims_ne_ub (rnd : ℚ → ℚ) (t : List Str) : readDims rnd t ≠ .ub := by
  unfold readDims
  iterate 3 refine bind_ne_ub (count_ne_ub _ _) (fun _ => ?_)
  iterate 6 refine bind_ne_ub (number_ne_ub _ _ _) (fun _ => ?_)
  refine bind_ne_ub (word_ne_ub _ _) (fun _ => bind_ne_ub ?_ (fun _ => by simp))
  split
  · have := word_ne_ub t 10; cases h : word t 10 <;> simp_all [Outcome.map]
  · simp

theorem readSource_ne_ub (rnd : ℚ → ℚ) (t : List Str) : readSource rnd t ≠ .ub := by
  unfold readSource
  refine bind_ne_ub (word_ne_ub _ _) (fun _ => ?_)
  iterate 3 refine bind_ne_ub (number_ne_ub _ _ _) (fun _ => ?_)
  simp

theorem lineStep_ne_ub (rnd : ℚ → ℚ) (kind : Kind) (r : Raw) (l : Str) : lineStep rnd kind r l ≠ .ub := by
  unfold lineStep
  simp only
  split
  · simp
  split
  · exact bind_ne_ub (readDims_ne_ub _ _) (fun _ => by simp)
  split
  · exact bind_ne_ub (readSource_ne_ub _ _) (fun _ => by simp)
  refine bind_ne_ub (word_ne_ub _ _) (fun _ => ?_)
  split
  · exact bind_ne_ub (parseTransform_ne_ub _ _) (fun _ => by simp)
  · simp

theorem readLines_ne_ub (rnd : ℚ → ℚ) (kind : Kind) (ls : List Str) : ∀ r : Raw, readLines rnd kind r ls ≠ .ub := by
  induction ls with
  | nil => intro r; simp [readLines]
  | cons l ls ih => intro r; exact bind_ne_ub (lineStep_ne_ub _ _ _ _) ih

end Verif.GridHeader
