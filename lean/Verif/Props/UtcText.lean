import Verif.Props.UtcTime

/-!
# C07: which texts are read as a time, and as which one
-/

namespace Verif.Utc

/-- the number written with these decimal digits -/
def numeral (l : List Char) : Nat := l.foldl (fun n c => 10 * n + (c.toNat - '0'.toNat)) 0

/-- decimal digits only -/
def DigitsOnly (l : List Char) : Prop := ∀ c ∈ l, c.isDigit = true

/-- the form `YYYY-MM-DDThh:mm:ss.fZ` with at least one digit in `f` -/
structure TimeText (s Y M D h m sec f : List Char) : Prop where
  text : s = Y ++ '-' :: (M ++ '-' :: (D ++ 'T' :: (h ++ ':' :: (m ++ ':' :: (sec ++ '.' :: (f ++ ['Z']))))))
  year : DigitsOnly Y ∧ Y.length = 4
  month : DigitsOnly M ∧ M.length = 2
  day : DigitsOnly D ∧ D.length = 2
  hour : DigitsOnly h ∧ h.length = 2
  minute : DigitsOnly m ∧ m.length = 2
  second : DigitsOnly sec ∧ sec.length = 2
  fraction : DigitsOnly f ∧ f ≠ []

theorem digitsOnly_nil : DigitsOnly [] := fun _ h => nomatch h

theorem digitVal_iff (c : Char) (d : Nat) : digitVal? c = some d ↔ c.isDigit = true ∧ d = c.toNat - '0'.toNat := by
  constructor
  · intro h
    unfold digitVal? at h
    split at h <;> first | (cases h; decide) | cases h
  · rintro ⟨h, rfl⟩
    have hc : 48 ≤ c.toNat ∧ c.toNat ≤ 57 := by
      simp only [Char.isDigit, Bool.and_eq_true, decide_eq_true_eq, ge_iff_le, UInt32.le_iff_toNat_le] at h
      exact h
    have : c = Char.ofNat c.toNat := (Char.ofNat_toNat c).symm
    obtain ⟨h1, h2⟩ := hc
    generalize c.toNat = n at *
    subst this
    interval_cases n <;> decide

theorem allDigits_iff (l : List Char) : AllDigits l ↔ DigitsOnly l := by
  constructor
  · intro h c hc
    obtain ⟨d, hd⟩ := h c hc
    exact ((digitVal_iff c d).1 hd).1
  · intro h c hc
    exact ⟨_, (digitVal_iff c _).2 ⟨h c hc, rfl⟩⟩

theorem valOf_numeral {l : List Char} (h : DigitsOnly l) (acc : Nat) :
    valOf acc l = l.foldl (fun n c => 10 * n + (c.toNat - '0'.toNat)) acc := by
  induction l generalizing acc with
  | nil => rfl
  | cons c l ih =>
    have hc := (digitVal_iff c _).2 ⟨h c (by simp), rfl⟩
    have := ih (fun c hc => h c (by simp [hc])) (10 * acc + (c.toNat - '0'.toNat))
    rw [List.foldl_cons, ← this]
    simp [valOf, hc]

theorem takeDigits_some {k acc v : Nat} {s r : List Char} (h : takeDigits k acc s = some (v, r)) :
    ∃ l, s = l ++ r ∧ l.length = k ∧ DigitsOnly l ∧ v = l.foldl (fun n c => 10 * n + (c.toNat - '0'.toNat)) acc := by
  induction k generalizing acc s with
  | zero =>
    simp only [takeDigits, Option.some.injEq, Prod.mk.injEq] at h
    exact ⟨[], by simp [h.2], rfl, digitsOnly_nil, by simp [h.1]⟩
  | succ k ih =>
    cases s with
    | nil => simp [takeDigits] at h
    | cons c s =>
      unfold takeDigits at h
      cases hd : digitVal? c with
      | none => simp [hd] at h
      | some d =>
        simp only [hd] at h
        obtain ⟨l, h1, h2, h3, h4⟩ := ih h
        obtain ⟨e1, e2⟩ := (digitVal_iff c d).1 hd
        refine ⟨c :: l, by simp [h1], by simp [h2], ?_, ?_⟩
        · intro x hx
          rcases List.mem_cons.1 hx with rfl | hx
          · exact e1
          · exact h3 x hx
        · rw [List.foldl_cons, h4, e2]

theorem takeDigits_of {l : List Char} (h : DigitsOnly l) (acc : Nat) (r : List Char) :
    takeDigits l.length acc (l ++ r) = some (l.foldl (fun n c => 10 * n + (c.toNat - '0'.toNat)) acc, r) := by
  induction l generalizing acc with
  | nil => rfl
  | cons c l ih =>
    have hc := (digitVal_iff c _).2 ⟨h c (by simp), rfl⟩
    show takeDigits (l.length + 1) acc (c :: (l ++ r)) = _
    unfold takeDigits
    simp only [hc]
    rw [ih (fun c hc => h c (by simp [hc])), List.foldl_cons]

theorem lit_some {c : Char} {s r : List Char} (h : lit c s = some r) : s = c :: r := by
  cases s with
  | nil => simp [lit] at h
  | cons x s =>
    unfold lit at h
    simp only at h
    by_cases hx : x = c
    · rw [if_pos hx] at h; cases h; rw [hx]
    · rw [if_neg hx] at h; cases h

theorem spanDigits_some {acc k v j : Nat} {s r : List Char} (h : spanDigits acc k s = (v, j, r)) :
    ∃ l, s = l ++ r ∧ j = k + l.length ∧ DigitsOnly l ∧ v = l.foldl (fun n c => 10 * n + (c.toNat - '0'.toNat)) acc := by
  induction s generalizing acc k with
  | nil =>
    simp only [spanDigits, Prod.mk.injEq] at h
    obtain ⟨rfl, rfl, rfl⟩ := h
    exact ⟨[], rfl, rfl, digitsOnly_nil, rfl⟩
  | cons c s ih =>
    unfold spanDigits at h
    cases hd : digitVal? c with
    | none =>
      simp only [hd, Prod.mk.injEq] at h
      obtain ⟨rfl, rfl, rfl⟩ := h
      exact ⟨[], rfl, rfl, digitsOnly_nil, rfl⟩
    | some d =>
      simp only [hd] at h
      obtain ⟨l, h1, h2, h3, h4⟩ := ih h
      obtain ⟨e1, e2⟩ := (digitVal_iff c d).1 hd
      refine ⟨c :: l, by simp [h1], by simp only [List.length_cons]; omega, ?_, ?_⟩
      · intro x hx
        rcases List.mem_cons.1 hx with rfl | hx
        · exact e1
        · exact h3 x hx
      · rw [List.foldl_cons, h4, e2]

theorem matchText_of {s Y M D h m sec f : List Char} (t : TimeText s Y M D h m sec f) :
    matchText s = some (numeral Y, numeral M, numeral D, numeral h, numeral m, numeral sec, numeral f, f.length) := by
  have e4 := fun {l : List Char} (hl : DigitsOnly l ∧ l.length = 4) (r : List Char) => (hl.2 ▸ takeDigits_of hl.1 0 r :
    takeDigits 4 0 (l ++ r) = some (numeral l, r))
  have e2 := fun {l : List Char} (hl : DigitsOnly l ∧ l.length = 2) (r : List Char) => (hl.2 ▸ takeDigits_of hl.1 0 r :
    takeDigits 2 0 (l ++ r) = some (numeral l, r))
  have hs : spanDigits 0 0 (f ++ ['Z']) = (numeral f, f.length, ['Z']) := by
    rw [spanDigits_val ((allDigits_iff f).2 t.fraction.1) (by
      intro c s hc
      cases hc; rfl)]
    rw [valOf_numeral t.fraction.1]
    simp [numeral]
  have hl : f.length ≠ 0 := by
    intro h0; exact t.fraction.2 (List.length_eq_zero_iff.1 h0)
  rw [t.text]
  unfold matchText
  simp only [e4 t.year, e2 t.month, e2 t.day, e2 t.hour, e2 t.minute, e2 t.second, lit, Option.bind_eq_bind, Option.bind_some,
    if_true, hs, hl, if_false]

theorem matchText_some {s : List Char} {x} (hx : matchText s = some x) : ∃ Y M D h m sec f, TimeText s Y M D h m sec f := by
  unfold matchText at hx
  simp only [Option.bind_eq_bind, Option.bind_eq_some_iff] at hx
  obtain ⟨⟨y, s1⟩, h1, s2, h2, ⟨mo, s3⟩, h3, s4, h4, ⟨d, s5⟩, h5, s6, h6, ⟨ho, s7⟩, h7, s8, h8, ⟨mi, s9⟩, h9, s10, h10,
    ⟨se, s11⟩, h11, s12, h12, h13⟩ := hx
  obtain ⟨Y, a1, a2, a3, -⟩ := takeDigits_some h1
  obtain ⟨M, b1, b2, b3, -⟩ := takeDigits_some h3
  obtain ⟨D, c1, c2, c3, -⟩ := takeDigits_some h5
  obtain ⟨h, d1, d2, d3, -⟩ := takeDigits_some h7
  obtain ⟨m, e1, e2, e3, -⟩ := takeDigits_some h9
  obtain ⟨sec, f1, f2, f3, -⟩ := takeDigits_some h11
  have l1 := lit_some h2
  have l2 := lit_some h4
  have l3 := lit_some h6
  have l4 := lit_some h8
  have l5 := lit_some h10
  have l6 := lit_some h12
  generalize hsp : spanDigits 0 0 s12 = sp at h13
  obtain ⟨v, k, r⟩ := sp
  obtain ⟨f, g1, g2, g3, -⟩ := spanDigits_some hsp
  simp only at h13
  split at h13
  · cases h13
  · rename_i hk
    split at h13
    · rename_i hr
      refine ⟨Y, M, D, h, m, sec, f, ?_, ⟨a3, a2⟩, ⟨b3, b2⟩, ⟨c3, c2⟩, ⟨d3, d2⟩, ⟨e3, e2⟩, ⟨f3, f2⟩, g3, ?_⟩
      · simp only at a1 b1 c1 d1 e1 f1 l1 l2 l3 l4 l5 l6
        rw [a1, l1, b1, l2, c1, l3, d1, l4, e1, l5, f1, l6, g1, hr]
      · rintro rfl
        simp at g2; omega
    · cases h13

/-- the numbers are in the ranges of a date and a time of day -/
def InRange (M D h m sec : Nat) : Prop := (1 ≤ M ∧ M ≤ 12) ∧ (1 ≤ D ∧ D ≤ 31) ∧ h ≤ 23 ∧ m ≤ 59 ∧ sec ≤ 59

/-- **C07** A text is read as a time exactly when it has the form `YYYY-MM-DDThh:mm:ss.fZ` with fields in their ranges;
the time is that of these fields, with the fraction cut after six digits.  Any other text is rejected. -/
theorem utc_text_meaning (s : List Char) :
    (∀ Y M D h m sec f, TimeText s Y M D h m sec f → numeral f ≤ 2147483647 →
      (InRange (numeral M) (numeral D) (numeral h) (numeral m) (numeral sec) →
        fromString s = fromDate ⟨⟨numeral Y, numeral M, numeral D⟩, numeral h, numeral m, numeral sec,
          (numeral f * 10 ^ 6 / 10 ^ f.length : Nat)⟩) ∧
      (¬ InRange (numeral M) (numeral D) (numeral h) (numeral m) (numeral sec) → fromString s = .throws)) ∧
    ((¬ ∃ Y M D h m sec f, TimeText s Y M D h m sec f) → fromString s = .throws) := by
  refine ⟨?_, ?_⟩
  · intro Y M D h m sec f t hf
    have hsc : scaleFrac (numeral f) f.length = numeral f * 10 ^ 6 / 10 ^ f.length := by
      unfold scaleFrac
      split
      · rename_i hle
        rw [show 6 = (6 - f.length) + f.length by omega, pow_add, ← mul_assoc, Nat.mul_div_cancel _ (by positivity)]
        simp [show 6 - f.length + f.length - f.length = 6 - f.length by omega]
      · rename_i hgt
        rw [show f.length = (f.length - 6) + 6 by omega, pow_add, Nat.mul_div_mul_right _ _ (by positivity)]
        simp
    unfold fromString
    rw [matchText_of t]
    simp only
    rw [if_neg (by omega), if_neg (by omega), hsc]
    unfold InRange
    refine ⟨?_, ?_⟩
    · rintro ⟨h1, h2, h3, h4, h5⟩
      rw [if_neg (by omega), if_neg (by omega), if_neg (by omega), if_neg (by omega), if_neg (by omega)]
    · intro hn
      by_cases h1 : numeral M < 1 ∨ numeral M > 12
      · rw [if_pos h1]
      rw [if_neg h1]
      by_cases h2 : numeral D < 1 ∨ numeral D > 31
      · rw [if_pos h2]
      rw [if_neg h2]
      by_cases h3 : numeral h > 23
      · rw [if_pos h3]
      rw [if_neg h3]
      by_cases h4 : numeral m > 59
      · rw [if_pos h4]
      rw [if_neg h4]
      rw [if_pos (by omega)]
  · intro hn
    unfold fromString
    cases hm : matchText s with
    | none => rfl
    | some x => exact absurd (matchText_some hm) hn

/-- **C07** (negation) A time with a fraction that does not fit an `int` is undefined behaviour, whatever its other fields; only if
the fraction, as a whole number, does not even fit a double it is rejected. -/
theorem long_fraction {s Y M D h m sec f : List Char} (t : TimeText s Y M D h m sec f) (hf : 2147483647 < numeral f) :
    (numeral f < 2 ^ 1024 - 2 ^ 970 → fromString s = .ub) ∧ (2 ^ 1024 - 2 ^ 970 ≤ numeral f → fromString s = .throws) := by
  unfold fromString
  rw [matchText_of t]
  simp only
  exact ⟨fun h1 => by rw [if_neg (not_le.2 h1), if_pos hf], fun h1 => by rw [if_pos h1]⟩

example : ∃ Y M D h m sec f, TimeText "2024-02-29T12:34:56.78Z".toList Y M D h m sec f ∧ numeral f ≤ 2147483647 ∧
    InRange (numeral M) (numeral D) (numeral h) (numeral m) (numeral sec) :=
  ⟨"2024".toList, "02".toList, "29".toList, "12".toList, "34".toList, "56".toList, "78".toList,
    ⟨by decide, by unfold DigitsOnly; decide, by unfold DigitsOnly; decide, by unfold DigitsOnly; decide,
      by unfold DigitsOnly; decide, by unfold DigitsOnly; decide, by unfold DigitsOnly; decide, by unfold DigitsOnly; decide⟩,
    by decide, by unfold InRange; decide⟩

example : ∃ Y M D h m sec f, TimeText "2024-02-29T12:34:56.9999999999Z".toList Y M D h m sec f ∧ 2147483647 < numeral f :=
  ⟨"2024".toList, "02".toList, "29".toList, "12".toList, "34".toList, "56".toList, "9999999999".toList,
    ⟨by decide, by unfold DigitsOnly; decide, by unfold DigitsOnly; decide, by unfold DigitsOnly; decide,
      by unfold DigitsOnly; decide, by unfold DigitsOnly; decide, by unfold DigitsOnly; decide, by unfold DigitsOnly; decide⟩,
    by decide⟩

/-- 400 nines -/
example : fromString ("2024-02-29T12:34:56.".toList ++ List.replicate 400 '9' ++ ['Z']) = .throws := by decide +kernel

example : fromString "2024-02-29T12:34:60.0Z".toList = .throws ∧ fromString "2024-02-29T12:34:56.0Zx".toList = .throws := by
  decide +kernel

end Verif.Utc
