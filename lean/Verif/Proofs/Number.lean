import Verif.Spec.Number
import Verif.Proofs.Decimal
import Verif.Model.XCorrFile

/-!
# Numbers as text: what is read
-/

set_option linter.unusedSimpArgs false

namespace Verif.NumberSpec
open Verif.Csv Verif.Decimal

theorem blank_iff (c : Char) : Blank c ↔ PairFile.isSpace c = true := by
  unfold Blank PairFile.isSpace
  simp [or_assoc]

theorem noDigit_dropWhile (s : Str) : NoDigit (s.dropWhile Char.isDigit) := by
  intro c t h
  have := List.head?_dropWhile_not Char.isDigit s
  rw [h] at this
  simpa using this

theorem digits_takeWhile (s : Str) : NumberSpec.Digits (s.takeWhile Char.isDigit) := by
  intro c hc
  exact List.all_eq_true.1 List.all_takeWhile c hc

theorem takeWhile_digits {a r : Str} (ha : NumberSpec.Digits a) (hr : NoDigit r) : (a ++ r).takeWhile Char.isDigit = a := by
  rw [List.takeWhile_append_of_pos ha]
  cases r with
  | nil => simp
  | cons c t => rw [List.takeWhile_cons, hr c t rfl]; simp

theorem dropWhile_digits {a r : Str} (ha : NumberSpec.Digits a) (hr : NoDigit r) : (a ++ r).dropWhile Char.isDigit = r := by
  rw [List.dropWhile_append_of_pos ha]
  cases r with
  | nil => simp
  | cons c t => rw [List.dropWhile_cons, hr c t rfl]; simp

theorem dropWhile_blank {b r : Str} (hb : ∀ c ∈ b, Blank c) (hr : ∀ c t, r = c :: t → PairFile.isSpace c = false) :
    (b ++ r).dropWhile PairFile.isSpace = r := by
  rw [List.dropWhile_append_of_pos (fun c hc => (blank_iff c).1 (hb c hc))]
  cases r with
  | nil => simp
  | cons c t => rw [List.dropWhile_cons, hr c t rfl]; simp

theorem blanks_split (s : Str) : ∃ b, s = b ++ s.dropWhile PairFile.isSpace ∧ ∀ c ∈ b, Blank c :=
  ⟨s.takeWhile PairFile.isSpace, List.takeWhile_append_dropWhile.symm,
    fun c hc => (blank_iff c).2 (List.all_eq_true.1 List.all_takeWhile c hc)⟩

/-- the sign is taken off -/
def unsign (s : Str) : Str := if s.head? = some '-' ∨ s.head? = some '+' then s.tail else s

theorem unsign_split (s : Str) : ∃ sign, s = sign ++ unsign s ∧ Sign sign (decide (s.head? = some '-')) := by
  unfold unsign Sign
  cases s with
  | nil => exact ⟨[], by simp⟩
  | cons c t =>
    by_cases h1 : c = '-'
    · exact ⟨['-'], by simp [h1]⟩
    · by_cases h2 : c = '+'
      · exact ⟨['+'], by simp [h2]⟩
      · exact ⟨[], by simp [h1, h2]⟩

theorem unsign_sign {sign body : Str} {neg : Bool} (h : Sign sign neg) (hb : body.head? ≠ some '-' ∧ body.head? ≠ some '+') :
    unsign (sign ++ body) = body ∧ decide ((sign ++ body).head? = some '-') = neg := by
  unfold unsign
  rcases h with ⟨rfl, rfl⟩ | ⟨rfl, rfl⟩ | ⟨rfl, rfl⟩
  · simp
  · simp
  · simp [hb.1, hb.2]

theorem sign_unblank {sign body : Str} {neg : Bool} (h : Sign sign neg)
    (hb : ∀ c t, body = c :: t → PairFile.isSpace c = false) : ∀ c t, sign ++ body = c :: t → PairFile.isSpace c = false := by
  intro c t
  rcases h with ⟨rfl, rfl⟩ | ⟨rfl, rfl⟩ | ⟨rfl, rfl⟩
  · intro h; simp at h; rw [← h.1]; decide
  · intro h; simp at h; rw [← h.1]; decide
  · intro h; exact hb c t h

/-! ## whole numbers -/

theorem stoul_iff (s : Str) (n : Nat) : PairFile.stoul s = .ok n ↔ Id s n := by
  have key : PairFile.stoul s =
      (if (unsign (s.dropWhile PairFile.isSpace)).takeWhile Char.isDigit = [] then .throws
       else if 2 ^ 64 ≤ value ((unsign (s.dropWhile PairFile.isSpace)).takeWhile Char.isDigit) then .throws
       else .ok ((if (s.dropWhile PairFile.isSpace).head? = some '-' then
          (2 ^ 64 - value ((unsign (s.dropWhile PairFile.isSpace)).takeWhile Char.isDigit)) % 2 ^ 64
          else value ((unsign (s.dropWhile PairFile.isSpace)).takeWhile Char.isDigit)) % 2 ^ 32)) := by
    unfold PairFile.stoul unsign value PairFile.ulongMod PairFile.uintMod
    simp only [decide_eq_true_eq]
    norm_num
  rw [key]
  constructor
  · intro h
    split_ifs at h with h1 h2 h3
    · injection h with h
      obtain ⟨b, hb, hbb⟩ := blanks_split s
      obtain ⟨sg, hs, hsg⟩ := unsign_split (s.dropWhile PairFile.isSpace)
      refine ⟨true, _, ⟨b, sg, _, _, ?_, hbb, by simpa [h3] using hsg, digits_takeWhile _, h1, noDigit_dropWhile (unsign (s.dropWhile PairFile.isSpace)), rfl⟩, by omega, ?_⟩
      · rw [List.append_assoc, List.takeWhile_append_dropWhile, List.append_assoc, ← hs, ← hb]
      · rw [if_pos rfl]; exact h.symm
    · injection h with h
      obtain ⟨b, hb, hbb⟩ := blanks_split s
      obtain ⟨sg, hs, hsg⟩ := unsign_split (s.dropWhile PairFile.isSpace)
      refine ⟨false, _, ⟨b, sg, _, _, ?_, hbb, by simpa [h3] using hsg, digits_takeWhile _, h1, noDigit_dropWhile (unsign (s.dropWhile PairFile.isSpace)), rfl⟩, by omega, ?_⟩
      · rw [List.append_assoc, List.takeWhile_append_dropWhile, List.append_assoc, ← hs, ← hb]
      · rw [if_neg (by simp)]; exact h.symm
  · rintro ⟨neg, v, ⟨b, sg, d, r, rfl, hb, hsg, hd, hne, hr, rfl⟩, hv, rfl⟩
    obtain ⟨c, d', rfl⟩ : ∃ c d', d = c :: d' := by cases d with
      | nil => exact absurd rfl hne
      | cons c d' => exact ⟨c, d', rfl⟩
    have hc := isDigit_facts (hd c (by simp))
    have h1 : (b ++ sg ++ (c :: d') ++ r).dropWhile PairFile.isSpace = sg ++ ((c :: d') ++ r) := by
      rw [List.append_assoc, List.append_assoc]
      apply dropWhile_blank hb
      apply sign_unblank hsg
      rintro x t h
      simp at h; rw [← h.1]; exact hc.2.2.2.2.2.1
    rw [h1]
    obtain ⟨h2, h3⟩ := unsign_sign (body := (c :: d') ++ r) hsg (by simp [hc.2.2.2.1, hc.2.2.2.2.1])
    rw [h2, takeWhile_digits hd hr, if_neg (by simp), if_neg (by omega)]
    rw [← h3]
    simp only [decide_eq_true_eq]

theorem stoul_ne_ub (s : Str) : PairFile.stoul s ≠ .ub := by
  unfold PairFile.stoul
  simp only
  split_ifs <;> simp

/-! ## decimal numbers -/

theorem exponent_iff (l u : Char) (s : Str) (e : Int) : Exponent l u s e ↔ Decimal.exponent l u s = e := by
  have hgiven : ∀ {c : Char} {sign digits rest : List Char} {neg : Bool}, c = l ∨ c = u → Sign sign neg →
      NumberSpec.Digits digits → digits ≠ [] → NoDigit rest →
      Decimal.exponent l u (c :: (sign ++ digits ++ rest)) = (if neg then -(value digits : Int) else value digits) := by
    intro c sign digits rest neg hc hs hd hne hr
    obtain ⟨x, d', rfl⟩ : ∃ c d', digits = c :: d' := by cases digits with
      | nil => exact absurd rfl hne
      | cons c d' => exact ⟨c, d', rfl⟩
    have hx := isDigit_facts (hd x (by simp))
    obtain ⟨h2, h3⟩ := unsign_sign (body := (x :: d') ++ rest) hs (by simp [hx.2.2.2.1, hx.2.2.2.2.1])
    unfold Decimal.exponent
    simp only [if_pos hc, decide_eq_true_eq]
    rw [List.append_assoc]
    unfold unsign at h2
    rw [h2, takeWhile_digits hd hr, ← h3]
    simp only [decide_eq_true_eq]
    rfl
  constructor
  · rintro (⟨hc, hs, hd, hne, hr⟩ | h)
    · exact hgiven hc hs hd hne hr
    · cases s with
      | nil => rfl
      | cons c t =>
        unfold Decimal.exponent
        by_cases hc : c = l ∨ c = u
        · simp only [if_pos hc]
          obtain ⟨sg, hs, hsg⟩ := unsign_split t
          have : (unsign t).takeWhile Char.isDigit = [] := by
            cases hu : unsign t with
            | nil => rfl
            | cons d r =>
              rw [List.takeWhile_cons]
              by_cases hd : d.isDigit = true
              · exact absurd ⟨c, sg, _, d, r, by rw [← hu, ← hs], hc, hsg, hd⟩ h
              · simp [hd]
          unfold unsign at this
          rw [this]
          simp
        · simp only [if_neg hc]
  · rintro rfl
    by_cases h : ∃ c sign neg d rest, s = c :: (sign ++ d :: rest) ∧ (c = l ∨ c = u) ∧ Sign sign neg ∧ d.isDigit = true
    · obtain ⟨c, sg, neg, d, r, rfl, hc, hsg, hd⟩ := h
      have hsplit : sg ++ d :: r = sg ++ (d :: r).takeWhile Char.isDigit ++ (d :: r).dropWhile Char.isDigit := by
        rw [List.append_assoc, List.takeWhile_append_dropWhile]
      have hne : (d :: r).takeWhile Char.isDigit ≠ [] := by rw [List.takeWhile_cons, hd]; simp
      rw [hsplit, hgiven hc hsg (digits_takeWhile _) hne (noDigit_dropWhile _)]
      exact .given hc hsg (digits_takeWhile _) hne (noDigit_dropWhile _)
    · have h0 : Decimal.exponent l u s = 0 := by
        cases s with
        | nil => rfl
        | cons c t =>
          unfold Decimal.exponent
          by_cases hc : c = l ∨ c = u
          · simp only [if_pos hc]
            obtain ⟨sg, hs, hsg⟩ := unsign_split t
            have : (unsign t).takeWhile Char.isDigit = [] := by
              cases hu : unsign t with
              | nil => rfl
              | cons d r =>
                rw [List.takeWhile_cons]
                by_cases hd : d.isDigit = true
                · exact absurd ⟨c, sg, _, d, r, by rw [← hu, ← hs], hc, hsg, hd⟩ h
                · simp [hd]
            unfold unsign at this
            rw [this]
            simp
          · simp only [if_neg hc]
      rw [h0]
      exact .missing h

theorem lower_iff {c l u : Char} (hl : l.toNat = u.toNat + 32) (hu : 65 ≤ u.toNat ∧ u.toNat ≤ 90) :
    c.toLower = l ↔ (c = l ∨ c = u) := by
  have hv : ∀ x y : Char, x = y ↔ x.toNat = y.toNat := fun x y => ⟨fun h => h ▸ rfl, fun h => Char.ext (UInt32.toNat.inj h)⟩
  unfold Char.toLower
  simp only [ge_iff_le, UInt32.le_iff_toNat_le]
  split
  · rename_i h
    have h1 : 65 ≤ c.toNat := h.1
    have h2 : c.toNat ≤ 90 := h.2
    rw [hv, hv, hv]
    simp only [Char.toNat] at *
    rw [UInt32.toNat_add]
    have : ('a'.val - 'A'.val).toNat = 32 := by decide
    rw [this]
    omega
  · rename_i h
    have h1 : ¬ (65 ≤ c.toNat ∧ c.toNat ≤ 90) := h
    rw [hv, hv]
    omega

theorem three_iff {s : Str} {x y z X Y Z : Char} (hx : ∀ c : Char, c.toLower = x ↔ (c = x ∨ c = X))
    (hy : ∀ c : Char, c.toLower = y ↔ (c = y ∨ c = Y)) (hz : ∀ c : Char, c.toLower = z ↔ (c = z ∨ c = Z)) :
    (s.take 3).map Char.toLower = [x, y, z] ↔
      ∃ a b c r, s = a :: b :: c :: r ∧ (a = x ∨ a = X) ∧ (b = y ∨ b = Y) ∧ (c = z ∨ c = Z) := by
  match s with
  | [] => simp
  | [a] => simp
  | [a, b] => simp
  | a :: b :: c :: r =>
    simp only [List.take, List.map_cons, List.map_nil, List.cons.injEq, and_true, hx, hy, hz]
    constructor
    · rintro ⟨h1, h2, h3⟩
      exact ⟨a, b, c, r, ⟨rfl, rfl, rfl, rfl⟩, h1, h2, h3⟩
    · rintro ⟨a', b', c', r', ⟨rfl, rfl, rfl, rfl⟩, h1, h2, h3⟩
      exact ⟨h1, h2, h3⟩

theorem nan_iff (s : Str) : (s.take 3).map Char.toLower = "nan".toList ↔
    ∃ a b c r, s = a :: b :: c :: r ∧ (a = 'n' ∨ a = 'N') ∧ (b = 'a' ∨ b = 'A') ∧ (c = 'n' ∨ c = 'N') :=
  three_iff (fun _ => lower_iff (by decide) (by decide)) (fun _ => lower_iff (by decide) (by decide))
    (fun _ => lower_iff (by decide) (by decide))

theorem inf_iff (s : Str) : (s.take 3).map Char.toLower = "inf".toList ↔
    ∃ a b c r, s = a :: b :: c :: r ∧ (a = 'i' ∨ a = 'I') ∧ (b = 'n' ∨ b = 'N') ∧ (c = 'f' ∨ c = 'F') :=
  three_iff (fun _ => lower_iff (by decide) (by decide)) (fun _ => lower_iff (by decide) (by decide))
    (fun _ => lower_iff (by decide) (by decide))

/-- a digit or a point begins the text: it is not a word -/
theorem not_word {c : Char} {r : Str} (h : c.isDigit = true ∨ c = '.') :
    (((c :: r).take 3).map Char.toLower ≠ "nan".toList) ∧ (((c :: r).take 3).map Char.toLower ≠ "inf".toList) := by
  constructor
  · rw [ne_eq, nan_iff]
    rintro ⟨a, b, c', r', h', h1, -⟩
    injection h' with h' _
    subst h'
    rcases h1 with rfl | rfl <;> simp at h
  · rw [ne_eq, inf_iff]
    rintro ⟨a, b, c', r', h', h1, -⟩
    injection h' with h' _
    subst h'
    rcases h1 with rfl | rfl <;> simp at h

theorem magnitude_number {s : Str} (h1 : (s.take 3).map Char.toLower ≠ "nan".toList)
    (h2 : (s.take 3).map Char.toLower ≠ "inf".toList) : magnitude s =
    (let a := s.takeWhile Char.isDigit
     let r := s.dropWhile Char.isDigit
     let f := if r.head? = some '.' then r.tail.takeWhile Char.isDigit else []
     let r := if r.head? = some '.' then r.tail.dropWhile Char.isDigit else r
     if a ++ f = [] then .throws
     else .ok (.num ((value (a ++ f) : ℚ) * (10 : ℚ) ^ (exponent 'e' 'E' r - f.length)))) := by
  unfold magnitude
  rw [if_neg h1, if_neg h2]
  rfl

theorem magnitude_iff (s : Str) (v : Fl ℚ) : magnitude s = .ok v ↔ Unsigned s v := by
  constructor
  · intro h
    by_cases h1 : (s.take 3).map Char.toLower = "nan".toList
    · unfold magnitude at h
      rw [if_pos h1] at h
      cases h
      obtain ⟨a, b, c, r, rfl, ha, hb, hc⟩ := (nan_iff s).1 h1
      exact .nan ha hb hc
    · by_cases h2 : (s.take 3).map Char.toLower = "inf".toList
      · unfold magnitude at h
        rw [if_neg h1, if_pos h2] at h
        cases h
        obtain ⟨a, b, c, r, rfl, ha, hb, hc⟩ := (inf_iff s).1 h2
        exact .inf ha hb hc
      · rw [magnitude_number h1 h2] at h
        simp only at h
        have hs := (List.takeWhile_append_dropWhile (p := Char.isDigit) (l := s)).symm
        by_cases hp : (s.dropWhile Char.isDigit).head? = some '.'
        · rw [if_pos hp, if_pos hp] at h
          split_ifs at h with hne
          injection h with h
          obtain ⟨t, ht⟩ : ∃ t, s.dropWhile Char.isDigit = '.' :: t := by
            cases hd : s.dropWhile Char.isDigit with
            | nil => rw [hd] at hp; simp at hp
            | cons c t => rw [hd] at hp; simp at hp; exact ⟨t, by rw [hp]⟩
          rw [ht] at h hne
          simp only [List.tail_cons] at h hne
          rw [hs, ht, ← h, ← List.takeWhile_append_dropWhile (p := Char.isDigit) (l := t)]
          have hh := (List.takeWhile_append_dropWhile (p := Char.isDigit) (l := t))
          rw [hh]
          have := Unsigned.point (digits_takeWhile s) (digits_takeWhile t) (by
            by_contra hc
            rw [not_or, not_not, not_not] at hc
            exact hne (by rw [hc.1, hc.2]; rfl)) (noDigit_dropWhile t) ((exponent_iff _ _ _ _).2 rfl)
          rwa [hh] at this
        · rw [if_neg hp, if_neg hp] at h
          split_ifs at h with hne
          injection h with h
          rw [List.append_nil] at h hne
          have := Unsigned.whole (digits_takeWhile s) hne (noDigit_dropWhile s) (by
            intro t ht
            rw [ht] at hp
            exact hp rfl) ((exponent_iff _ _ _ _).2 rfl)
          rw [← hs] at this
          rw [← h]
          simpa using this
  · intro h
    cases h with
    | @nan a b c r ha hb hc =>
      unfold magnitude
      rw [if_pos ((nan_iff _).2 ⟨a, b, c, r, rfl, ha, hb, hc⟩)]
    | @inf a b c r ha hb hc =>
      unfold magnitude
      rw [if_neg, if_pos ((inf_iff _).2 ⟨a, b, c, r, rfl, ha, hb, hc⟩)]
      rw [nan_iff]
      rintro ⟨a', b', c', r', h', h1, -⟩
      injection h' with h' _
      subst h'
      rcases ha with rfl | rfl <;> revert h1 <;> decide
    | @whole d r e hd hne hr hp he =>
      obtain ⟨c, d', rfl⟩ : ∃ c d', d = c :: d' := by cases d with
        | nil => exact absurd rfl hne
        | cons c d' => exact ⟨c, d', rfl⟩
      have hw := not_word (c := c) (r := d' ++ r) (.inl (hd c (by simp)))
      rw [magnitude_number (s := (c :: d') ++ r) hw.1 hw.2]
      simp only
      have hh : r.head? ≠ some '.' := by
        cases r with
        | nil => simp
        | cons x t => intro h; simp at h; exact hp t (by rw [h])
      rw [takeWhile_digits hd hr, dropWhile_digits hd hr, if_neg hh, if_neg hh, List.append_nil, if_neg hne,
        (exponent_iff _ _ r e).1 he]
      simp
    | @point d f r e hd hf hne hr he =>
      have hw : (((d ++ '.' :: (f ++ r)).take 3).map Char.toLower ≠ "nan".toList) ∧
          (((d ++ '.' :: (f ++ r)).take 3).map Char.toLower ≠ "inf".toList) := by
        cases d with
        | nil => exact not_word (.inr rfl)
        | cons c d' => exact not_word (.inl (hd c (by simp)))
      rw [magnitude_number hw.1 hw.2]
      simp only
      have hr' : NoDigit ('.' :: (f ++ r)) := by
        intro c t h
        injection h with h _
        rw [← h]; decide
      have hh : ('.' :: (f ++ r)).head? = some '.' := rfl
      rw [takeWhile_digits hd hr', dropWhile_digits hd hr', if_pos hh, if_pos hh, List.tail_cons, takeWhile_digits hf hr,
        dropWhile_digits hf hr, if_neg (by rw [List.append_eq_nil_iff, not_and_or]; exact hne), (exponent_iff _ _ r e).1 he]

theorem unsigned_head {s : Str} {v : Fl ℚ} (h : Unsigned s v) : ∃ c t, s = c :: t ∧ c ≠ '-' ∧ c ≠ '+' ∧ PairFile.isSpace c = false := by
  cases h with
  | nan ha _ _ => exact ⟨_, _, rfl, by rcases ha with rfl | rfl <;> decide⟩
  | inf ha _ _ => exact ⟨_, _, rfl, by rcases ha with rfl | rfl <;> decide⟩
  | @whole d r e hd hne hr hp he =>
    cases d with
    | nil => exact absurd rfl hne
    | cons c d' =>
      have := isDigit_facts (hd c (by simp))
      exact ⟨c, d' ++ r, rfl, this.2.2.2.1, this.2.2.2.2.1, this.2.2.2.2.2.1⟩
  | @point d f r e hd hf hne hr he =>
    cases d with
    | nil => exact ⟨'.', _, rfl, by decide⟩
    | cons c d' =>
      have := isDigit_facts (hd c (by simp))
      exact ⟨c, d' ++ '.' :: (f ++ r), rfl, this.2.2.2.1, this.2.2.2.2.1, this.2.2.2.2.2.1⟩

/-! ## hexadecimal numbers -/

theorem isHex_iff (c : Char) : isHex c = true ↔ HexDigit c := by
  unfold isHex HexDigit
  rw [List.contains_iff_mem]

theorem isHex_false {c : Char} (h : ¬ HexDigit c) : isHex c = false := by
  rw [← Bool.not_eq_true, isHex_iff]; exact h

theorem noHex_dropWhile (s : Str) : NoHexDigit (s.dropWhile isHex) := by
  intro c t h
  have := List.head?_dropWhile_not isHex s
  rw [h] at this
  rw [← isHex_iff]
  simpa using this

theorem hex_takeWhile (s : Str) : HexDigits (s.takeWhile isHex) := by
  intro c hc
  exact (isHex_iff c).1 (List.all_eq_true.1 List.all_takeWhile c hc)

theorem takeWhile_hex {a r : Str} (ha : HexDigits a) (hr : NoHexDigit r) : (a ++ r).takeWhile isHex = a := by
  rw [List.takeWhile_append_of_pos (fun c hc => (isHex_iff c).2 (ha c hc))]
  cases r with
  | nil => simp
  | cons c t => rw [List.takeWhile_cons, isHex_false (hr c t rfl)]; simp

theorem dropWhile_hex {a r : Str} (ha : HexDigits a) (hr : NoHexDigit r) : (a ++ r).dropWhile isHex = r := by
  rw [List.dropWhile_append_of_pos (fun c hc => (isHex_iff c).2 (ha c hc))]
  cases r with
  | nil => simp
  | cons c t => rw [List.dropWhile_cons, isHex_false (hr c t rfl)]; simp

theorem digit_eq {c : Char} (h : HexDigit c) : "0123456789abcdef".toList.idxOf c.toLower =
    (if c.isDigit then c.toNat - 48 else if 97 ≤ c.toNat then c.toNat - 87 else c.toNat - 55) := by
  have : ∀ c ∈ "0123456789abcdefABCDEF".toList, "0123456789abcdef".toList.idxOf c.toLower =
    (if c.isDigit then c.toNat - 48 else if 97 ≤ c.toNat then c.toNat - 87 else c.toNat - 55) := by decide +kernel
  exact this c h

theorem hexValue_eq {s : Str} (h : HexDigits s) : hexValue s = hexadecimal s := by
  unfold hexValue hexadecimal
  induction s using List.reverseRecOn with
  | nil => rfl
  | append_singleton s c ih =>
    have hs : HexDigits s := fun d hd => h d (by simp [hd])
    rw [List.foldl_append, List.map_append, List.reverse_append, ih hs]
    simp only [List.foldl_cons, List.foldl_nil, List.map_cons, List.map_nil, List.reverse_cons, List.reverse_nil,
      List.nil_append, List.cons_append, Nat.ofDigits_cons, digit_eq (h c (by simp))]
    push_cast
    ring

theorem HexDigits.append {a b : Str} (ha : HexDigits a) (hb : HexDigits b) : HexDigits (a ++ b) := by
  intro c hc
  rcases List.mem_append.1 hc with h | h
  · exact ha c h
  · exact hb c h

theorem hex_scale (v : ℚ) (e : Int) (k : Nat) : v * (2 : ℚ) ^ (e - 4 * k) = v * (2 : ℚ) ^ e / (16 : ℚ) ^ k := by
  have h16 : (16 : ℚ) ^ k = (2 : ℚ) ^ ((4 * k : Int)) := by
    rw [zpow_mul, zpow_natCast]; norm_num
  rw [h16, zpow_sub₀ (by norm_num), mul_div_assoc]

theorem noHex_point (r : Str) : NoHexDigit ('.' :: r) := by
  intro c t h
  injection h with h _
  rw [← h]; unfold HexDigit; decide

theorem hexMagnitude_iff (s : Str) (v : ℚ) : hexMagnitude s = some v ↔ Hex s v := by
  constructor
  · intro h
    unfold hexMagnitude at h
    split at h
    · rename_i z x s
      split at h
      · rename_i hz
        obtain ⟨rfl, hx⟩ := hz
        simp only at h
        have hs := (List.takeWhile_append_dropWhile (p := isHex) (l := s)).symm
        by_cases hp : (s.dropWhile isHex).head? = some '.'
        · rw [if_pos hp, if_pos hp] at h
          split_ifs at h with hne
          injection h with h
          obtain ⟨t, ht⟩ : ∃ t, s.dropWhile isHex = '.' :: t := by
            cases hd : s.dropWhile isHex with
            | nil => rw [hd] at hp; simp at hp
            | cons c t => rw [hd] at hp; simp at hp; exact ⟨t, by rw [hp]⟩
          rw [ht] at h hne
          simp only [List.tail_cons] at h hne
          have := Hex.point hx (hex_takeWhile s) (hex_takeWhile t) (by
            by_contra hc
            rw [not_or, not_not, not_not] at hc
            exact hne (by rw [hc.1, hc.2]; rfl)) (noHex_dropWhile t) ((exponent_iff _ _ _ _).2 rfl)
          rw [List.takeWhile_append_dropWhile, ← ht, ← hs, ← hex_scale,
            ← hexValue_eq ((hex_takeWhile s).append (hex_takeWhile t)), h] at this
          exact this
        · rw [if_neg hp, if_neg hp] at h
          split_ifs at h with hne
          injection h with h
          rw [List.append_nil] at h hne
          have := Hex.whole hx (hex_takeWhile s) hne (noHex_dropWhile s) (by
            intro t ht
            rw [ht] at hp
            exact hp rfl) ((exponent_iff _ _ _ _).2 rfl)
          rw [← hs, ← hexValue_eq (hex_takeWhile s)] at this
          rw [← h]
          simpa using this
      · cases h
    · cases h
  · intro h
    cases h with
    | @whole x d r e hx hd hne hr hp he =>
      have hh : r.head? ≠ some '.' := by
        cases r with
        | nil => simp
        | cons x t => intro h; simp at h; exact hp t (by rw [h])
      unfold hexMagnitude
      simp only [true_and, if_pos hx]
      rw [takeWhile_hex hd hr, dropWhile_hex hd hr, if_neg hh, if_neg hh, List.append_nil, if_neg hne,
        (exponent_iff _ _ r e).1 he, hexValue_eq hd]
      simp
    | @point x d f r e hx hd hf hne hr he =>
      have hh : ('.' :: (f ++ r)).head? = some '.' := rfl
      unfold hexMagnitude
      simp only [true_and, if_pos hx]
      rw [takeWhile_hex hd (noHex_point _), dropWhile_hex hd (noHex_point _), if_pos hh, if_pos hh, List.tail_cons, takeWhile_hex hf hr,
        dropWhile_hex hf hr, if_neg (by rw [List.append_eq_nil_iff, not_and_or]; exact hne), (exponent_iff _ _ r e).1 he,
        hexValue_eq (hd.append hf), hex_scale]

theorem body_iff (s : Str) (v : Fl ℚ) : unsigned s = .ok v ↔ Body s v := by
  unfold unsigned Body
  cases h : hexMagnitude s with
  | some x =>
    have hx := (hexMagnitude_iff s x).1 h
    constructor
    · intro hv; cases hv; exact .inl ⟨x, hx, rfl⟩
    · rintro (⟨y, hy, rfl⟩ | ⟨hno, -⟩)
      · rw [(hexMagnitude_iff s y).2 hy] at h; cases h; rfl
      · exact absurd hx (hno x)
  | none =>
    have hno : ∀ x, ¬ Hex s x := fun x hx => by rw [(hexMagnitude_iff s x).2 hx] at h; cases h
    show magnitude s = .ok v ↔ _
    rw [magnitude_iff]
    constructor
    · exact fun hv => .inr ⟨hno, hv⟩
    · rintro (⟨y, hy, rfl⟩ | ⟨-, hv⟩)
      · exact absurd hy (hno y)
      · exact hv

theorem body_head {s : Str} {v : Fl ℚ} (h : Body s v) : ∃ c t, s = c :: t ∧ c ≠ '-' ∧ c ≠ '+' ∧ PairFile.isSpace c = false := by
  rcases h with ⟨x, hx, -⟩ | ⟨-, hu⟩
  · cases hx with
    | whole _ _ _ _ _ _ => exact ⟨'0', _, rfl, by decide⟩
    | point _ _ _ _ _ _ => exact ⟨'0', _, rfl, by decide⟩
  · exact unsigned_head hu

theorem round_eq (rnd : ℚ → ℚ) (v : Fl ℚ) : v.round rnd = nearest rnd v := by cases v <;> rfl

theorem stod_iff (rnd : ℚ → ℚ) (s : Str) (v : Fl ℚ) : stod rnd s = .ok v ↔ Number rnd s v := by
  have key : stod rnd s = (match unsigned (unsign (s.dropWhile PairFile.isSpace)) with
      | .ok v => if outOfRange v then .throws
          else .ok (nearest rnd (if decide ((s.dropWhile PairFile.isSpace).head? = some '-') = true then v.neg else v))
      | .throws => .throws
      | .ub => .ub) := by
    unfold stod unsign
    simp only [decide_eq_true_eq, round_eq]
    rfl
  rw [key]
  constructor
  · intro h
    cases hm : unsigned (unsign (s.dropWhile PairFile.isSpace)) with
    | throws => rw [hm] at h; cases h
    | ub => rw [hm] at h; cases h
    | ok w =>
      rw [hm] at h
      simp only at h
      cases hr : outOfRange w with
      | true => rw [hr, if_pos rfl] at h; cases h
      | false =>
        rw [hr, if_neg (by simp)] at h
        injection h with h
        obtain ⟨b, hb, hbb⟩ := blanks_split s
        obtain ⟨sg, hs, hsg⟩ := unsign_split (s.dropWhile PairFile.isSpace)
        refine ⟨b, sg, _, _, w, ?_, hbb, hsg, (body_iff _ _).1 hm, (outOfRange_iff w).1 hr, h.symm⟩
        rw [List.append_assoc, ← hs, ← hb]
  · rintro ⟨b, sg, neg, body, w, rfl, hb, hsg, hu, hr, rfl⟩
    obtain ⟨c, t, rfl, hc1, hc2, hc3⟩ := body_head hu
    have h1 : (b ++ sg ++ c :: t).dropWhile PairFile.isSpace = sg ++ c :: t := by
      rw [List.append_assoc]
      apply dropWhile_blank hb
      apply sign_unblank hsg
      rintro x t' h
      injection h with h _
      rw [← h]; exact hc3
    obtain ⟨h2, h3⟩ := unsign_sign (body := c :: t) hsg (by simp [hc1, hc2])
    rw [h1, h2, h3, (body_iff _ _).2 hu]
    simp only [(outOfRange_iff w).2 hr, Bool.false_eq_true, if_false]

theorem stod_ne_ub (rnd : ℚ → ℚ) (s : Str) : stod rnd s ≠ .ub := by
  have hm : ∀ t, magnitude t ≠ .ub := by
    intro t
    unfold magnitude
    simp only
    split_ifs <;> simp
  have : ∀ t, unsigned t ≠ .ub := by
    intro t
    unfold unsigned
    split
    · simp
    · exact hm t
  unfold stod
  simp only
  intro h
  split at h
  · split at h <;> cases h
  · cases h
  · rename_i hu
    exact this _ hu

theorem strToBool_iff (s : Str) : XCorrFile.strToBool s = true ↔ Yes s := by
  unfold XCorrFile.strToBool Yes
  have : ∀ t : String, s = t.toList ↔ String.ofList s = t := by
    intro t
    constructor
    · rintro rfl; simp
    · rintro rfl; simp
  simp only [Bool.or_eq_true, decide_eq_true_eq, this, List.mem_cons, List.not_mem_nil, or_false, or_assoc]

end Verif.NumberSpec
