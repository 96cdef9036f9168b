import Verif.Model.Decimal
import Verif.Spec.Decimal
import Verif.Spec.Number
import Verif.Base.Text
import Verif.Props.PairFile
import Mathlib.Tactic.Linarith
import Mathlib.Tactic.FieldSimp
import Mathlib.Tactic.Positivity
import Mathlib.Tactic.Ring
import Mathlib.Data.Rat.Lemmas

/-!
# Numbers as text: lemmas
-/

set_option linter.unusedSimpArgs false

namespace Verif.Decimal
open Verif.Csv Verif.Decimal.Spec

theorem roundEven_near {x : ℚ} (h : 0 ≤ x) : |(roundEven x : ℚ) - x| ≤ 1 / 2 := by
  have h1 := Nat.floor_le h
  have h2 := Nat.lt_floor_add_one x
  unfold roundEven
  simp only
  split_ifs <;> rw [abs_le] <;> push_cast <;> constructor <;> linarith

theorem roundEven_tie {x : ℚ} (h : 0 ≤ x) (ht : |(roundEven x : ℚ) - x| = 1 / 2) : roundEven x % 2 = 0 := by
  have h1 := Nat.floor_le h
  have h2 := Nat.lt_floor_add_one x
  revert ht
  unfold roundEven
  simp only
  split_ifs with h3 h4 h5
  · intro ht
    rw [abs_of_nonpos (by linarith)] at ht
    linarith
  · intro ht
    push_cast at ht
    rw [abs_of_nonneg (by linarith)] at ht
    linarith
  · exact fun _ => h5
  · intro _; omega

theorem roundEven_nat (n : Nat) : roundEven n = n := by
  unfold roundEven
  simp only [Nat.floor_natCast, sub_self]
  rw [if_pos (by norm_num)]

/-- all characters are digits -/
def Digits (l : Str) : Prop := ∀ c ∈ l, c.isDigit = true

theorem digits_decimal (n : Nat) : Digits (decimal n) := fun _ h => decimal_isDigit h
theorem digits_nil : Digits [] := by intro c h; cases h
theorem Digits.append {a b : Str} (ha : Digits a) (hb : Digits b) : Digits (a ++ b) := by
  intro c h
  rcases List.mem_append.1 h with h | h
  · exact ha c h
  · exact hb c h
theorem digits_pad {l : Str} (k : Nat) (h : Digits l) : Digits (pad k l) := by
  refine Digits.append ?_ h
  intro c hc
  rw [(List.mem_replicate.1 hc).2]; decide

theorem decimal_ne (n : Nat) : decimal n ≠ [] := Nat.toDigits_ne_nil

theorem value_decimal (n : Nat) : Nat.ofDigitChars 10 (decimal n) 0 = n :=
  Nat.ofDigitChars_toDigits (by omega) (by omega)

theorem value_append (a b : Str) :
    Nat.ofDigitChars 10 (a ++ b) 0 = Nat.ofDigitChars 10 a 0 * 10 ^ b.length + Nat.ofDigitChars 10 b 0 := by
  rw [Nat.ofDigitChars_append, Nat.ofDigitChars_eq_ofDigitChars_zero, mul_comm]

theorem value_zeros (k : Nat) : Nat.ofDigitChars 10 (List.replicate k '0') 0 = 0 := by
  rw [Nat.ofDigitChars_replicate_zero]; simp

theorem value_pad (k : Nat) (l : Str) : Nat.ofDigitChars 10 (pad k l) 0 = Nat.ofDigitChars 10 l 0 := by
  unfold pad
  rw [value_append, value_zeros]; simp

theorem length_decimal_le {n k : Nat} (hk : 0 < k) (h : n < 10 ^ k) : (decimal n).length ≤ k :=
  (Nat.length_toDigits_le_iff (by omega) hk).2 h

theorem length_pad {k : Nat} {l : Str} (h : l.length ≤ k) : (pad k l).length = k := by
  unfold pad
  rw [List.length_append, List.length_replicate]; omega

theorem trimZeros_spec (l : Str) : ∃ j, l = trimZeros l ++ List.replicate j '0' := by
  refine ⟨(l.reverse.takeWhile (· == '0')).length, ?_⟩
  have h := List.takeWhile_append_dropWhile (p := (· == '0')) (l := l.reverse)
  have h2 := congrArg List.reverse h
  rw [List.reverse_append, List.reverse_reverse] at h2
  unfold trimZeros
  have hz : l.reverse.takeWhile (· == '0') = List.replicate (l.reverse.takeWhile (· == '0')).length '0' := by
    rw [List.eq_replicate_iff]
    refine ⟨rfl, ?_⟩
    intro c hc
    have := List.all_takeWhile (p := (· == '0')) (l := l.reverse)
    rw [List.all_eq_true] at this
    simpa using this c hc
  conv_lhs => rw [← h2]
  congr 1
  conv_lhs => rw [hz]
  rw [List.reverse_replicate]

/-! ## reading -/

theorem isDigit_facts {c : Char} (h : c.isDigit = true) :
    c.toLower = c ∧ c ≠ 'n' ∧ c ≠ 'i' ∧ c ≠ '-' ∧ c ≠ '+' ∧ PairFile.isSpace c = false ∧ c ≠ '.' := by
  have hn : 48 ≤ c.toNat ∧ c.toNat ≤ 57 := by
    unfold Char.isDigit at h
    simp only [Bool.and_eq_true, decide_eq_true_eq, ge_iff_le, UInt32.le_iff_toNat_le] at h
    exact h
  refine ⟨?_, ?_, ?_, ?_, ?_, ?_, ?_⟩
  · unfold Char.toLower
    simp only [ge_iff_le, UInt32.le_iff_toNat_le]
    split
    · rename_i hu
      exfalso
      have h1 := hu.1
      have h2 : (65 : Nat) ≤ c.toNat := h1
      omega
    · rfl
  all_goals first
    | (rintro rfl; revert hn; decide)
    | skip
  unfold PairFile.isSpace
  simp only [Bool.or_eq_false_iff, decide_eq_false_iff_not]
  refine ⟨⟨⟨⟨⟨?_, ?_⟩, ?_⟩, ?_⟩, ?_⟩, ?_⟩ <;> (rintro rfl; revert hn; decide)

theorem takeWhile_digits {a r : Str} (ha : Digits a) (hr : ∀ c, r.head? = some c → c.isDigit = false) :
    (a ++ r).takeWhile Char.isDigit = a ∧ (a ++ r).dropWhile Char.isDigit = r := by
  induction a with
  | nil =>
    cases r with
    | nil => exact ⟨rfl, rfl⟩
    | cons c r =>
      have := hr c rfl
      simp [List.takeWhile_cons, List.dropWhile_cons, this]
  | cons c a ih =>
    have hc := ha c (by simp)
    have := ih (fun c h => ha c (by simp [h]))
    simp [List.takeWhile_cons, List.dropWhile_cons, hc, this.1, this.2]

theorem magnitude_digits {a f r : Str} (ha : Digits a) (hne : a ≠ []) (hf : Digits f)
    (hr : ∀ c, r.head? = some c → c.isDigit = false ∧ c ≠ '.') :
    magnitude (a ++ ((if f = [] then [] else '.' :: f) ++ r)) =
      .ok (.num ((Nat.ofDigitChars 10 (a ++ f) 0 : ℚ) * (10 : ℚ) ^ (exponent 'e' 'E' r - f.length))) := by
  obtain ⟨c, a', rfl⟩ := List.exists_cons_of_ne_nil hne
  have hc := isDigit_facts (ha c (by simp))
  have h1 : ((((c :: a') ++ ((if f = [] then [] else '.' :: f) ++ r)).take 3).map Char.toLower).head? = some c := by
    simp [hc.1]
  unfold magnitude
  rw [if_neg (by intro e; rw [e] at h1; simp at h1; exact hc.2.1 h1.symm),
    if_neg (by intro e; rw [e] at h1; simp at h1; exact hc.2.2.1 h1.symm)]
  have hd : ('.' : Char).isDigit = false := by decide
  have htail : ∀ d, ((if f = [] then [] else '.' :: f) ++ r).head? = some d → d.isDigit = false := by
    intro d hd'
    by_cases e : f = []
    · simp only [e, if_true, List.nil_append] at hd'
      exact (hr d hd').1
    · simp only [e, if_false, List.cons_append, List.head?_cons, Option.some.injEq] at hd'
      rw [← hd']; exact hd
  obtain ⟨t1, t2⟩ := takeWhile_digits ha htail
  simp only [t1, t2]
  by_cases e : f = []
  · subst e
    have hnd : r.head? ≠ some '.' := fun h => (hr _ h).2 rfl
    simp only [if_true, List.nil_append, if_neg hnd, List.append_nil, List.length_nil]
    rw [if_neg (by simp)]
  · obtain ⟨u1, u2⟩ := takeWhile_digits hf (fun d h => (hr d h).1)
    simp only [e, if_false, List.cons_append, List.head?_cons, if_true, List.tail_cons, u1, u2]
    rw [if_neg (by simp)]

/-- the number a text of digits stands for -/
theorem pointText_read (m k : Nat) (r : Str) (hr : ∀ c, r.head? = some c → c.isDigit = false ∧ c ≠ '.') :
    magnitude (pointText m k ++ r) = .ok (.num ((m : ℚ) * (10 : ℚ) ^ (exponent 'e' 'E' r - k))) := by
  unfold pointText
  rw [List.append_assoc]
  by_cases hk : k = 0
  · subst hk
    have := magnitude_digits (f := []) (digits_decimal (m / 10 ^ 0)) (decimal_ne _) digits_nil hr
    simpa [value_decimal] using this
  · have hp : (pad k (decimal (m % 10 ^ k))).length = k :=
      length_pad (length_decimal_le (by omega) (Nat.mod_lt _ (by positivity)))
    have hne : pad k (decimal (m % 10 ^ k)) ≠ [] := by
      intro e; rw [e] at hp; simp at hp; exact hk hp.symm
    have := magnitude_digits (digits_decimal (m / 10 ^ k)) (decimal_ne _) (digits_pad k (digits_decimal (m % 10 ^ k))) hr
    rw [if_neg hne] at this
    rw [if_neg hk, this, value_append, value_pad, value_decimal, value_decimal, hp, Nat.div_add_mod']

theorem shortText_read (m k : Nat) (r : Str) (hr : ∀ c, r.head? = some c → c.isDigit = false ∧ c ≠ '.') :
    magnitude (shortText m k ++ r) = .ok (.num ((m : ℚ) * (10 : ℚ) ^ (exponent 'e' 'E' r - k))) := by
  unfold shortText
  simp only
  rw [List.append_assoc]
  by_cases hk : k = 0
  · subst hk
    have := magnitude_digits (f := []) (digits_decimal (m / 10 ^ 0)) (decimal_ne _) digits_nil hr
    simpa [value_decimal] using this
  · have hp : (pad k (decimal (m % 10 ^ k))).length = k :=
      length_pad (length_decimal_le (by omega) (Nat.mod_lt _ (by positivity)))
    obtain ⟨j, hj⟩ := trimZeros_spec (pad k (decimal (m % 10 ^ k)))
    have hdig : Digits (trimZeros (pad k (decimal (m % 10 ^ k)))) := by
      intro c hc
      apply digits_pad k (digits_decimal (m % 10 ^ k))
      rw [hj]
      exact List.mem_append_left _ hc
    have := magnitude_digits (digits_decimal (m / 10 ^ k)) (decimal_ne _) hdig hr
    rw [if_neg hk, this]
    have hlen : (trimZeros (pad k (decimal (m % 10 ^ k)))).length + j = k := by
      have := congrArg List.length hj
      rw [hp, List.length_append, List.length_replicate] at this
      exact this.symm
    have hval : Nat.ofDigitChars 10 (decimal (m / 10 ^ k) ++ trimZeros (pad k (decimal (m % 10 ^ k)))) 0 * 10 ^ j = m := by
      have e : Nat.ofDigitChars 10 (decimal (m / 10 ^ k) ++ pad k (decimal (m % 10 ^ k))) 0 = m := by
        rw [value_append, value_pad, value_decimal, value_decimal, hp, Nat.div_add_mod']
      conv_rhs => rw [← e, hj, ← List.append_assoc, value_append, value_zeros, List.length_replicate]
      simp
    generalize Nat.ofDigitChars 10 (decimal (m / 10 ^ k) ++ trimZeros (pad k (decimal (m % 10 ^ k)))) 0 = v at hval ⊢
    generalize (trimZeros (pad k (decimal (m % 10 ^ k)))).length = q at hlen ⊢
    subst hval hlen
    congr 2
    push_cast
    rw [mul_assoc, ← zpow_natCast (10 : ℚ) j, ← zpow_add₀ (by norm_num)]
    congr 2
    ring

theorem exponent_read (e : Int) :
    exponent 'e' 'E' ('e' :: (if e < 0 then '-' else '+') :: pad 2 (decimal e.natAbs)) = e := by
  unfold exponent
  have ht : (pad 2 (decimal e.natAbs)).takeWhile Char.isDigit = pad 2 (decimal e.natAbs) := by
    have := (takeWhile_digits (digits_pad 2 (digits_decimal e.natAbs)) (r := []) (by simp)).1
    simpa using this
  by_cases h : e < 0
  · simp only [if_pos h, true_or, if_true, List.head?_cons, List.tail_cons, ht, value_pad, value_decimal]
    omega
  · simp only [if_neg h, true_or, if_true, List.head?_cons, List.tail_cons]
    have h1 : ¬ (some '+' = some '-') := by decide
    simp only [h1, or_true, if_true, List.tail_cons, ht, value_pad, value_decimal, decide_false, Bool.false_eq_true,
      if_false]
    omega

/-! ## numbers that have a double -/

theorem tooLarge_iff (x : ℚ) : NumberSpec.TooLarge x ↔ (2 ^ 1024 - 2 ^ 970) * x.den ≤ x.num.natAbs := by
  have hd : (0 : ℚ) < x.den := by exact_mod_cast x.den_pos
  have hx : |x| = (x.num.natAbs : ℚ) / x.den := by
    conv_lhs => rw [← Rat.num_div_den x, abs_div, abs_of_pos hd]
    rw [Nat.cast_natAbs, Int.cast_abs]
  have hl : (2 : Nat) ^ 970 ≤ 2 ^ 1024 := Nat.pow_le_pow_right (by omega) (by omega)
  unfold NumberSpec.TooLarge
  rw [hx, le_div_iff₀ hd]
  generalize hA : (2 : Nat) ^ 1024 = A at hl
  generalize hB : (2 : Nat) ^ 970 = B at hl
  have hA' : (2 : ℚ) ^ 1024 = (A : ℚ) := by rw [← hA]; push_cast; rfl
  have hB' : (2 : ℚ) ^ 970 = (B : ℚ) := by rw [← hB]; push_cast; rfl
  rw [hA', hB', ← Nat.cast_sub hl]
  exact_mod_cast Iff.rfl

theorem tooSmall_iff (x : ℚ) : NumberSpec.TooSmall x ↔
    x.num ≠ 0 ∧ x.num.natAbs * 2 ^ 1076 < (2 ^ 54 - 1) * x.den ∧ ¬ x.den ∣ 2 ^ 1074 := by
  have hd : (0 : ℚ) < x.den := by exact_mod_cast x.den_pos
  have hx : |x| = (x.num.natAbs : ℚ) / x.den := by
    conv_lhs => rw [← Rat.num_div_den x, abs_div, abs_of_pos hd]
    rw [Nat.cast_natAbs, Int.cast_abs]
  have hlim : (1 : ℚ) / 2 ^ 1022 - 1 / 2 ^ 1076 = (2 ^ 54 - 1) / 2 ^ 1076 := by
    have h : (2 : ℚ) ^ 1076 = 2 ^ 1022 * 2 ^ 54 := by rw [← pow_add]
    have hp : (0 : ℚ) < 2 ^ 1022 := by positivity
    rw [h]
    generalize (2 : ℚ) ^ 1022 = p at hp
    field_simp
  have hlt : |x| < 1 / 2 ^ 1022 - 1 / 2 ^ 1076 ↔ x.num.natAbs * 2 ^ 1076 < (2 ^ 54 - 1) * x.den := by
    have hp : (0 : ℚ) < 2 ^ 1076 := by positivity
    rw [hlim, hx, div_lt_div_iff₀ hd hp]
    generalize hA : (2 : Nat) ^ 1076 = A
    have hA' : (2 : ℚ) ^ 1076 = (A : ℚ) := by rw [← hA]; push_cast; rfl
    rw [hA']
    have : ((2 : ℚ) ^ 54 - 1) = ((2 ^ 54 - 1 : Nat) : ℚ) := by norm_num
    rw [this]
    exact_mod_cast Iff.rfl
  have hdvd : (∃ n : ℤ, x = n / 2 ^ 1074) ↔ x.den ∣ 2 ^ 1074 := by
    generalize hA : (2 : Nat) ^ 1074 = A
    have hA' : (2 : ℚ) ^ 1074 = (A : ℚ) := by rw [← hA]; push_cast; rfl
    have hpos : 0 < A := by rw [← hA]; positivity
    rw [hA']
    constructor
    · rintro ⟨n, rfl⟩
      have := Rat.den_dvd n (A : ℤ)
      rw [Rat.divInt_eq_div] at this
      exact_mod_cast this
    · rintro ⟨k, hk⟩
      refine ⟨x.num * k, ?_⟩
      have hk0 : (k : ℚ) ≠ 0 := by
        intro h
        have : k = 0 := by exact_mod_cast h
        subst this; omega
      rw [hk]
      conv_lhs => rw [← Rat.num_div_den x]
      push_cast
      field_simp
  unfold NumberSpec.TooSmall
  rw [hlt, hdvd, ne_eq, ne_eq, Rat.num_eq_zero]

theorem outOfRange_iff (v : Fl ℚ) : outOfRange v = false ↔ NumberSpec.InRange v := by
  cases v with
  | num x =>
    show _ ↔ (¬ NumberSpec.TooLarge x ∧ ¬ NumberSpec.TooSmall x)
    rw [tooLarge_iff, tooSmall_iff, ← not_or, ← Bool.not_eq_true]
    unfold outOfRange
    simp only [Bool.or_eq_true, Bool.and_eq_true, decide_eq_true_eq, Bool.not_eq_true', decide_eq_false_iff_not]
  | inf s => exact ⟨fun _ => trivial, fun _ => rfl⟩
  | nan => exact ⟨fun _ => trivial, fun _ => rfl⟩

theorem outOfRange_neg (x : ℚ) : outOfRange (.num (-x)) = outOfRange (.num x) := by
  simp only [outOfRange, Rat.num_neg_eq_neg_num, Rat.den_neg_eq_den, Int.natAbs_neg, ne_eq, neg_eq_zero]

theorem limit_large : ((10 : ℚ) ^ 308 + 10 ^ 305) < 2 ^ 1024 - 2 ^ 970 := by decide +kernel
theorem limit_small : (1 : ℚ) / 2 ^ 1022 ≤ 1 / 10 ^ 307 - 1 / 10 ^ 310 := by decide +kernel

/-- between the limits -/
theorem inRange_of {x : ℚ} (h1 : |x| ≤ 10 ^ 308 + 10 ^ 305) (h2 : x = 0 ∨ 1 / 10 ^ 307 - 1 / 10 ^ 310 ≤ |x|) :
    outOfRange (.num x) = false := by
  rw [outOfRange_iff]
  refine ⟨fun h => absurd (h1.trans_lt limit_large) (not_lt.2 h), ?_⟩
  rintro ⟨h0, hlt, -⟩
  rcases h2 with h2 | h2
  · exact h0 h2
  · have hp : (0 : ℚ) < 1 / 2 ^ 1076 := by positivity
    have := limit_small.trans h2
    generalize (1 : ℚ) / 2 ^ 1022 = a at *
    generalize (1 : ℚ) / 2 ^ 1076 = b at *
    linarith

/-- digits not followed by an `x` are no hexadecimal number -/
theorem hexMagnitude_digits {a r : Str} (ha : Digits a) (hne : a ≠ []) (hr : r.head? ≠ some 'x' ∧ r.head? ≠ some 'X') :
    hexMagnitude (a ++ r) = none := by
  have hno : ∀ z x t, a ++ r = z :: x :: t → ¬ (x = 'x' ∨ x = 'X') := by
    intro z x t h
    obtain ⟨c, a', rfl⟩ := List.exists_cons_of_ne_nil hne
    cases a' with
    | nil =>
      simp only [List.cons_append, List.nil_append, List.cons.injEq] at h
      rw [h.2] at hr
      simpa using hr
    | cons d a' =>
      simp only [List.cons_append, List.cons.injEq] at h
      have := ha d (by simp)
      rw [h.2.1] at this
      rintro (rfl | rfl) <;> revert this <;> decide
  unfold hexMagnitude
  split
  · rename_i z x s he
    rw [if_neg (fun h => hno z x s he h.2)]
  · rfl

/-- texts with a sign in front -/
theorem stod_sign (rnd : ℚ → ℚ) (x : ℚ) (s : Str) (v : ℚ) (hs : ∃ c t, s = c :: t ∧ c.isDigit = true)
    (hh : hexMagnitude s = none) (h : magnitude s = .ok (.num v)) (hv : outOfRange (.num v) = false) :
    stod rnd (signText x ++ s) = .ok (.num (rnd (if x < 0 then -v else v))) := by
  obtain ⟨c, t, rfl, hc⟩ := hs
  obtain ⟨_, _, _, h4, h5, h6, _⟩ := isDigit_facts hc
  have hu : unsigned (c :: t) = .ok (.num v) := by unfold unsigned; rw [hh]; exact h
  unfold stod signText
  by_cases hx : x < 0
  · have hm : PairFile.isSpace '-' = false := by decide
    simp only [if_pos hx, List.cons_append, List.nil_append, List.dropWhile_cons, hm, Bool.false_eq_true, if_false,
      List.head?_cons, true_or, if_true, List.tail_cons, hu, hv, decide_true, Fl.neg, Fl.round]
  · have h4' : ¬ (some c = some '-') := by simpa using h4
    have h5' : ¬ (some c = some '+') := by simpa using h5
    simp only [if_neg hx, List.nil_append, List.dropWhile_cons, h6, Bool.false_eq_true, if_false, List.head?_cons,
      h4', h5', or_self, hu, hv, decide_false, Fl.round]

/-! ## what is written is read -/

/-- the number `%.<n>f` writes -/
def fixedValue (n : Nat) (x : ℚ) : ℚ :=
  let v : ℚ := (roundEven (|x| * 10 ^ n) : ℚ) * (10 : ℚ) ^ (-(n : Int))
  if x < 0 then -v else v

/-- the number `%g` writes -/
def generalValue (x : ℚ) : ℚ :=
  if x = 0 then 0
  else
    let v : ℚ := ((sixDigits |x|).1 : ℚ) * (10 : ℚ) ^ ((sixDigits |x|).2 - 5)
    if x < 0 then -v else v

theorem starts_digit_append {n : Nat} (r : Str) : ∃ c t, decimal n ++ r = c :: t ∧ c.isDigit = true := by
  obtain ⟨c, t, h⟩ := List.exists_cons_of_ne_nil (decimal_ne n)
  exact ⟨c, t ++ r, by rw [h]; rfl, digits_decimal n c (by rw [h]; simp)⟩

theorem fixed_nearest (n : Nat) (x : ℚ) : Nearest n x (fixedValue n x) := by
  have hp : (0 : ℚ) < 10 ^ n := by positivity
  have h := roundEven_near (x := |x| * 10 ^ n) (by positivity)
  have hz : (10 : ℚ) ^ (-(n : Int)) = 1 / 10 ^ n := by
    rw [zpow_neg, zpow_natCast, one_div]
  have hk : abs ((roundEven (|x| * 10 ^ n) : ℚ) * (1 / 10 ^ n) - |x|) ≤ 1 / 2 / 10 ^ n := by
    have e : (roundEven (|x| * 10 ^ n) : ℚ) * (1 / 10 ^ n) - |x| = ((roundEven (|x| * 10 ^ n) : ℚ) - |x| * 10 ^ n) / 10 ^ n := by
      field_simp
    rw [e, abs_div, abs_of_pos hp]
    exact div_le_div_of_nonneg_right h hp.le
  have ht : abs ((roundEven (|x| * 10 ^ n) : ℚ) * (1 / 10 ^ n) - |x|) = 1 / 2 / 10 ^ n → roundEven (|x| * 10 ^ n) % 2 = 0 := by
    intro ht
    have e : (roundEven (|x| * 10 ^ n) : ℚ) * (1 / 10 ^ n) - |x| = ((roundEven (|x| * 10 ^ n) : ℚ) - |x| * 10 ^ n) / 10 ^ n := by
      field_simp
    rw [e, abs_div, abs_of_pos hp, div_left_inj' hp.ne'] at ht
    exact roundEven_tie (by positivity) ht
  unfold fixedValue Nearest
  simp only [hz]
  by_cases hx : x < 0
  · simp only [if_pos hx]
    refine ⟨-(roundEven (|x| * 10 ^ n) : ℤ), by push_cast; ring, ?_⟩
    rw [abs_of_neg hx] at hk ht ⊢
    rw [← abs_neg]
    have : -(-((roundEven (-x * 10 ^ n) : ℚ) * (1 / 10 ^ n)) - x) = (roundEven (-x * 10 ^ n) : ℚ) * (1 / 10 ^ n) - -x := by ring
    rw [this]
    exact ⟨hk, fun h => by have := ht h; omega⟩
  · simp only [if_neg hx]
    refine ⟨(roundEven (|x| * 10 ^ n) : ℤ), by push_cast; ring, ?_⟩
    rw [abs_of_nonneg (not_lt.1 hx)] at hk ht ⊢
    exact ⟨hk, fun h => by have := ht h; omega⟩

theorem sixDigits_near {x : ℚ} (hx : 0 < x) :
    |((sixDigits x).1 : ℚ) * (10 : ℚ) ^ ((sixDigits x).2 - 5) - x| ≤ x / 200000 := by
  have h10 : (0 : ℚ) < (10 : ℚ) ^ (Int.log 10 x - 5) := zpow_pos (by norm_num) _
  have hlo : (10 : ℚ) ^ Int.log 10 x ≤ x := by
    have := Int.zpow_log_le_self (R := ℚ) (b := 10) (r := x) (by norm_num) hx
    simpa using this
  have hs : (10 : ℚ) ^ Int.log 10 x = 100000 * (10 : ℚ) ^ (Int.log 10 x - 5) := by
    rw [zpow_sub₀ (by norm_num)]
    norm_num
    ring
  have h := roundEven_near (x := x / (10 : ℚ) ^ (Int.log 10 x - 5)) (by positivity)
  have key : |(roundEven (x / (10 : ℚ) ^ (Int.log 10 x - 5)) : ℚ) * (10 : ℚ) ^ (Int.log 10 x - 5) - x| ≤ x / 200000 := by
    have e : (roundEven (x / (10 : ℚ) ^ (Int.log 10 x - 5)) : ℚ) * (10 : ℚ) ^ (Int.log 10 x - 5) - x =
        ((roundEven (x / (10 : ℚ) ^ (Int.log 10 x - 5)) : ℚ) - x / (10 : ℚ) ^ (Int.log 10 x - 5)) * (10 : ℚ) ^ (Int.log 10 x - 5) := by
      field_simp
    rw [e, abs_mul, abs_of_pos h10]
    have := mul_le_mul_of_nonneg_right h h10.le
    refine this.trans ?_
    rw [hs] at hlo
    linarith
  unfold sixDigits
  simp only
  split
  · rename_i hm
    rw [hm] at key
    have e : ((100000 : Nat) : ℚ) * (10 : ℚ) ^ (Int.log 10 x + 1 - 5) = ((1000000 : Nat) : ℚ) * (10 : ℚ) ^ (Int.log 10 x - 5) := by
      have : Int.log 10 x + 1 - 5 = (Int.log 10 x - 5) + 1 := by ring
      rw [this, zpow_add₀ (by norm_num)]
      norm_num; ring
    simp only
    rw [e]; exact key
  · exact key

theorem general_near (x : ℚ) : SixSignificant x (generalValue x) := by
  unfold SixSignificant generalValue
  by_cases h0 : x = 0
  · subst h0; simp
  have h := sixDigits_near (abs_pos.2 h0)
  simp only [h0, if_false]
  by_cases hx : x < 0
  · simp only [if_pos hx]
    rw [abs_of_neg hx] at h ⊢
    rw [← abs_neg]
    have : -(-(((sixDigits (-x)).1 : ℚ) * (10 : ℚ) ^ ((sixDigits (-x)).2 - 5)) - x) =
      ((sixDigits (-x)).1 : ℚ) * (10 : ℚ) ^ ((sixDigits (-x)).2 - 5) - -x := by ring
    rw [this]; exact h
  · simp only [if_neg hx]
    rw [abs_of_nonneg (not_lt.1 hx)] at h ⊢
    exact h

theorem abs_signed (x v : ℚ) : outOfRange (.num (if x < 0 then -v else v)) = outOfRange (.num v) := by
  split
  · exact outOfRange_neg v
  · rfl

theorem fixed_inRange {n : Nat} (hn : n ≤ 300) {x : ℚ} (hx : |x| ≤ 10 ^ 308) : outOfRange (.num (fixedValue n x)) = false := by
  obtain ⟨z, hz, hd, -⟩ := fixed_nearest n x
  have hp : (0 : ℚ) < 10 ^ n := by positivity
  have hp1 : (1 : ℚ) ≤ 10 ^ n := one_le_pow₀ (by norm_num)
  apply inRange_of
  · have h1 : |fixedValue n x| ≤ |fixedValue n x - x| + |x| := by
      have := abs_add_le (fixedValue n x - x) x
      simpa using this
    have h2 : (1 : ℚ) / 2 / 10 ^ n ≤ 1 / 2 := div_le_self (by norm_num) hp1
    have h3 : (1 : ℚ) / 2 ≤ 10 ^ 305 := by decide +kernel
    generalize (10 : ℚ) ^ 305 = b at *
    generalize (10 : ℚ) ^ 308 = c at *
    linarith
  · by_cases h0 : z = 0
    · left; rw [hz, h0]; simp
    · right
      have h1 : (1 : ℚ) ≤ |(z : ℚ)| := by exact_mod_cast Int.one_le_abs h0
      rw [hz, abs_div, abs_of_pos hp]
      have h2 : (1 : ℚ) / 10 ^ 300 ≤ 1 / 10 ^ n :=
        one_div_le_one_div_of_le hp (pow_le_pow_right₀ (by norm_num) hn)
      have h3 : (1 : ℚ) / 10 ^ 307 - 1 / 10 ^ 310 ≤ 1 / 10 ^ 300 := by decide +kernel
      have h4 : (1 : ℚ) / 10 ^ n ≤ |(z : ℚ)| / 10 ^ n := div_le_div_of_nonneg_right h1 hp.le
      exact h3.trans (h2.trans h4)

theorem general_inRange {x : ℚ} (hx : Precise (.num x)) : outOfRange (.num (generalValue x)) = false := by
  rcases hx with rfl | ⟨hlo, hhi⟩
  · have : generalValue 0 = 0 := by simp [generalValue]
    rw [this]; decide +kernel
  have h := general_near x
  unfold SixSignificant at h
  apply inRange_of
  · have h1 : |generalValue x| ≤ |generalValue x - x| + |x| := by
      have := abs_add_le (generalValue x - x) x
      simpa using this
    have h3 : (10 : ℚ) ^ 308 = 1000 * 10 ^ 305 := by decide +kernel
    have hb : (0 : ℚ) < 10 ^ 305 := by positivity
    rw [h3] at hhi ⊢
    clear hlo h3
    generalize (10 : ℚ) ^ 305 = b at *
    linarith
  · right
    have h1 : |x| ≤ |generalValue x - x| + |generalValue x| := by
      have := abs_sub (generalValue x) (generalValue x - x)
      have e : generalValue x - (generalValue x - x) = x := by ring
      rw [e] at this
      linarith
    have h3 : (1 : ℚ) / 10 ^ 307 = 1000 * (1 / 10 ^ 310) := by decide +kernel
    have hb : (0 : ℚ) < 1 / 10 ^ 310 := by positivity
    rw [h3] at hlo ⊢
    clear hhi h3
    generalize (1 : ℚ) / 10 ^ 310 = b at *
    linarith

theorem pointText_hex (m k : Nat) : hexMagnitude (pointText m k) = none := by
  unfold pointText
  refine hexMagnitude_digits (digits_decimal _) (decimal_ne _) ?_
  split <;> simp

theorem shortText_hex (m k : Nat) (r : Str) (hr : r.head? ≠ some 'x' ∧ r.head? ≠ some 'X') : hexMagnitude (shortText m k ++ r) = none := by
  unfold shortText
  simp only [List.append_assoc]
  refine hexMagnitude_digits (digits_decimal _) (decimal_ne _) ?_
  generalize (if k = 0 then [] else trimZeros (pad k (decimal (m % 10 ^ k)))) = f
  by_cases h : f = []
  · rw [if_pos h]; exact hr
  · rw [if_neg h]; simp

theorem fixed_read (rnd : ℚ → ℚ) {n : Nat} (hn : n ≤ 300) {x : ℚ} (hx : |x| ≤ 10 ^ 308) :
    stod rnd (fixedText n x) = .ok (.num (rnd (fixedValue n x))) := by
  have hv := fixed_inRange hn hx
  unfold fixedText
  unfold fixedValue at hv ⊢
  simp only at hv ⊢
  rw [abs_signed] at hv
  refine stod_sign rnd x _ _ ?_ (pointText_hex _ _) ?_ hv
  · unfold pointText; exact starts_digit_append _
  · have := pointText_read (roundEven (|x| * 10 ^ n)) n [] (by simp)
    rw [List.append_nil] at this
    rw [this]
    simp [exponent]

theorem general_read (rnd : ℚ → ℚ) {x : ℚ} (hx : Precise (.num x)) :
    stod rnd (generalText x) = .ok (.num (rnd (generalValue x))) := by
  have hv := general_inRange hx
  unfold generalText
  unfold generalValue at hv ⊢
  by_cases h0 : x = 0
  · subst h0
    simp only [if_true]
    have := stod_sign rnd 0 ['0'] 0 ⟨'0', [], rfl, by decide⟩ rfl (by
      have := pointText_read 0 0 [] (by simp)
      simpa [pointText, decimal, exponent] using this) (by decide +kernel)
    simpa [signText] using this
  simp only [h0, if_false] at hv ⊢
  rw [abs_signed] at hv
  generalize sixDigits |x| = me at hv ⊢
  obtain ⟨m, e⟩ := me
  simp only at hv ⊢
  by_cases h : -4 ≤ e ∧ e < 6
  · rw [if_pos h]
    refine stod_sign rnd x _ _ ?_ ?_ ?_ hv
    · unfold shortText; exact starts_digit_append _
    · have := shortText_hex m (5 - e).toNat [] (by simp)
      rwa [List.append_nil] at this
    · have := shortText_read m (5 - e).toNat [] (by simp)
      rw [List.append_nil] at this
      refine this.trans ?_
      have he : exponent 'e' 'E' [] - ((5 - e).toNat : Int) = e - 5 := by simp only [exponent]; omega
      rw [he]
  · rw [if_neg h]
    refine stod_sign rnd x _ _ ?_ ?_ ?_ hv
    · unfold shortText; simp only [List.append_assoc]; exact starts_digit_append _
    · exact shortText_hex m 5 _ (by simp)
    · have := shortText_read m 5 ('e' :: (if e < 0 then '-' else '+') :: pad 2 (decimal e.natAbs)) (by
        intro c hc
        simp only [List.head?_cons, Option.some.injEq] at hc
        rw [← hc]; decide)
      refine this.trans ?_
      simp only [exponent_read, Nat.cast_ofNat]

/-! ## no separators -/

theorem clean_digits {l : Str} (h : Digits l) : PairFile.Clean l := by
  intro c hc
  have hd := h c hc
  refine ⟨?_, ?_, ?_, ?_⟩ <;> (rintro rfl; revert hd; decide)

theorem clean_append {a b : Str} (ha : PairFile.Clean a) (hb : PairFile.Clean b) : PairFile.Clean (a ++ b) := by
  intro c hc
  rcases List.mem_append.1 hc with h | h
  · exact ha c h
  · exact hb c h

theorem clean_cons {c : Char} {b : Str} (hc : c ≠ ',' ∧ c ≠ '"' ∧ c ≠ '\n' ∧ c ≠ '\r') (hb : PairFile.Clean b) :
    PairFile.Clean (c :: b) := by
  intro d hd
  rcases List.mem_cons.1 hd with rfl | h
  · exact hc
  · exact hb d h

theorem clean_nil : PairFile.Clean [] := by intro c h; cases h

theorem clean_sign (x : ℚ) : PairFile.Clean (signText x) := by
  unfold signText
  split
  · exact clean_cons (by decide) clean_nil
  · exact clean_nil

theorem clean_fixed (n : Nat) (x : ℚ) : PairFile.Clean (fixedText n x) := by
  unfold fixedText pointText
  refine clean_append (clean_sign x) (clean_append (clean_digits (digits_decimal _)) ?_)
  split
  · exact clean_nil
  · exact clean_cons (by decide) (clean_digits (digits_pad _ (digits_decimal _)))

theorem clean_short (m k : Nat) : PairFile.Clean (shortText m k) := by
  have hf : PairFile.Clean (if k = 0 then [] else trimZeros (pad k (decimal (m % 10 ^ k)))) := by
    by_cases hk : k = 0
    · rw [if_pos hk]; exact clean_nil
    · rw [if_neg hk]
      obtain ⟨j, hj⟩ := trimZeros_spec (pad k (decimal (m % 10 ^ k)))
      apply clean_digits
      intro c hc
      apply digits_pad k (digits_decimal (m % 10 ^ k))
      rw [hj]
      exact List.mem_append_left _ hc
  unfold shortText
  simp only
  generalize (if k = 0 then [] else trimZeros (pad k (decimal (m % 10 ^ k)))) = f at hf
  refine clean_append (clean_digits (digits_decimal _)) ?_
  by_cases h : f = []
  · rw [if_pos h]; exact clean_nil
  · rw [if_neg h]; exact clean_cons (by decide) hf

theorem clean_general (x : ℚ) : PairFile.Clean (generalText x) := by
  unfold generalText
  split
  · exact clean_cons (c := '0') (by decide) clean_nil
  · generalize sixDigits |x| = me
    obtain ⟨m, e⟩ := me
    simp only
    refine clean_append (clean_sign x) ?_
    split
    · exact clean_short _ _
    · refine clean_append (clean_short _ _) (clean_cons (by decide) (clean_cons ?_ (clean_digits (digits_pad _ (digits_decimal _)))))
      split <;> decide

/-! ## infinities and NaN -/

/-- apply to a finite number -/
def onNum (f : ℚ → ℚ) : Fl ℚ → Fl ℚ
  | .num x => .num (f x)
  | .inf s => .inf s
  | .nan => .nan

theorem flText_read (rnd : ℚ → ℚ) (text : ℚ → Str) (value : ℚ → ℚ) (x : Fl ℚ)
    (h : ∀ y, x = .num y → stod rnd (text y) = .ok (.num (rnd (value y)))) :
    stod rnd (flText text x) = .ok (onNum (fun y => rnd (value y)) x) := by
  cases x with
  | num x => exact h x rfl
  | inf s => cases s <;> rfl
  | nan => rfl

theorem clean_flText (text : ℚ → Str) (h : ∀ x, PairFile.Clean (text x)) (x : Fl ℚ) : PairFile.Clean (flText text x) := by
  cases x with
  | num x => exact h x
  | inf s =>
    have : ∀ s : Bool, PairFile.Clean (if s then "-inf".toList else "inf".toList) := by unfold PairFile.Clean; decide
    exact this s
  | nan =>
    have : PairFile.Clean "nan".toList := by unfold PairFile.Clean; decide
    exact this

end Verif.Decimal
