import Verif.Model.UtcTime
import Mathlib.Tactic.Common
import Mathlib.Tactic.Ring
import Mathlib.Tactic.Linarith
import Mathlib.Tactic.IntervalCases
import Mathlib.Data.List.Induction

/-! Helper lemmas for C07 and C08. -/

namespace Verif.Utc
open Calendar

theorem yearLen_pos (y : Int) : 365 ≤ yearLen y ∧ yearLen y ≤ 366 := by
  unfold yearLen; split <;> omega

theorem monthLen_pos (y : Int) (m : Nat) : 28 ≤ monthLen y m ∧ monthLen y m ≤ 31 := by
  unfold monthLen; split <;> (try split) <;> omega

theorem daysBeforeYear_succ (y : Int) : daysBeforeYear (y + 1) = daysBeforeYear y + yearLen y := by
  unfold daysBeforeYear
  by_cases h : 1970 ≤ y
  · rw [if_pos h, if_pos (by omega)]
    obtain ⟨n, hn⟩ := Int.eq_ofNat_of_zero_le (by omega : 0 ≤ y - 1970)
    have e1 : (y + 1 - 1970).toNat = n + 1 := by omega
    have e2 : (y - 1970).toNat = n := by omega
    rw [e1, e2, daysUp]
    have : (1970 : Int) + n = y := by omega
    rw [this]
  · rw [if_neg h]
    obtain ⟨n, hn⟩ := Int.eq_ofNat_of_zero_le (by omega : 0 ≤ 1970 - (y + 1))
    have e2 : (1970 - y).toNat = n + 1 := by omega
    have e3 : (1970 : Int) - (n + 1) = y := by omega
    by_cases h' : 1970 ≤ y + 1
    · rw [if_pos h']
      have e1 : (y + 1 - 1970).toNat = 0 := by omega
      have : n = 0 := by omega
      subst this
      rw [e1, e2]
      simp only [daysDown, daysUp]
      rw [e3]; ring
    · rw [if_neg h']
      have e1 : (1970 - (y + 1)).toNat = n := by omega
      rw [e1, e2, daysDown, e3]; ring

theorem daysBeforeYear_epoch : daysBeforeYear 1970 = 0 := by
  unfold daysBeforeYear; simp [daysUp]

theorem daysBeforeYear_mono {y y' : Int} (h : y < y') :
    daysBeforeYear y + yearLen y ≤ daysBeforeYear y' := by
  obtain ⟨n, hn⟩ := Int.eq_ofNat_of_zero_le (by omega : 0 ≤ y' - (y + 1))
  have : y' = y + 1 + n := by omega
  subst this
  clear h hn
  induction n with
  | zero => simp [daysBeforeYear_succ]
  | succ n ih =>
    have e : y + 1 + ((n + 1 : Nat) : Int) = (y + 1 + n) + 1 := by push_cast; ring
    rw [e, daysBeforeYear_succ]
    have := yearLen_pos (y + 1 + n)
    omega

theorem yearUp_spec (n : Nat) (y r : Int) (hr : 0 ≤ r) (hn : r < n) :
    daysBeforeYear (yearUp n y r).1 + (yearUp n y r).2 = daysBeforeYear y + r ∧
    0 ≤ (yearUp n y r).2 ∧ (yearUp n y r).2 < yearLen (yearUp n y r).1 ∧ y ≤ (yearUp n y r).1 := by
  induction n generalizing y r with
  | zero => omega
  | succ n ih =>
    unfold yearUp
    by_cases h : r < yearLen y
    · rw [if_pos h]; exact ⟨rfl, hr, h, le_rfl⟩
    · rw [if_neg h]
      have hy := yearLen_pos y
      obtain ⟨h1, h2, h3, h4⟩ := ih (y + 1) (r - yearLen y) (by omega) (by push_cast at hn; omega)
      refine ⟨?_, h2, h3, by omega⟩
      rw [h1, daysBeforeYear_succ]; ring

theorem yearDown_spec (n : Nat) (y r : Int) (hr : r < yearLen y) (hn : -r < n) :
    daysBeforeYear (yearDown n y r).1 + (yearDown n y r).2 = daysBeforeYear y + r ∧
    0 ≤ (yearDown n y r).2 ∧ (yearDown n y r).2 < yearLen (yearDown n y r).1 ∧
    (r < 0 → (yearDown n y r).1 < y) := by
  induction n generalizing y r with
  | zero => unfold yearDown; exact ⟨rfl, by simp at hn; omega, hr, by intro h; simp at hn; omega⟩
  | succ n ih =>
    unfold yearDown
    by_cases h : 0 ≤ r
    · rw [if_pos h]; exact ⟨rfl, h, hr, by intro; omega⟩
    · rw [if_neg h]
      have hy := yearLen_pos (y - 1)
      obtain ⟨h1, h2, h3, h4⟩ := ih (y - 1) (r + yearLen (y - 1)) (by omega)
        (by push_cast at hn; omega)
      refine ⟨?_, h2, h3, ?_⟩
      · rw [h1]
        have := daysBeforeYear_succ (y - 1)
        rw [show y - 1 + 1 = y by ring] at this
        omega
      · intro _
        by_cases h5 : r + yearLen (y - 1) < 0
        · have := h4 h5; omega
        · have : yearDown n (y - 1) (r + yearLen (y - 1)) = (y - 1, r + yearLen (y - 1)) := by
            cases n with
            | zero => rfl
            | succ n => unfold yearDown; rw [if_pos (by omega)]
          rw [this]; simp

theorem daysBeforeMonth_succ (y : Int) (m : Nat) (hm : 1 ≤ m) :
    daysBeforeMonth y (m + 1) = daysBeforeMonth y m + monthLen y m := by
  obtain ⟨k, rfl⟩ : ∃ k, m = k + 1 := ⟨m - 1, by omega⟩
  rw [daysBeforeMonth]

theorem daysBeforeMonth_13 (y : Int) : daysBeforeMonth y 13 = yearLen y := by
  simp only [daysBeforeMonth, monthLen, yearLen]
  split <;> rfl

theorem daysBeforeMonth_12 (y : Int) : daysBeforeMonth y 12 + 31 = yearLen y := by
  rw [← daysBeforeMonth_13]; rw [daysBeforeMonth_succ y 12 (by omega)]; rfl

theorem monthLoop_spec (y : Int) (n m : Nat) (r : Int) (hm : 1 ≤ m) (hnm : m + n = 13) (hn : 0 < n)
    (hr : 0 ≤ r) (hr' : daysBeforeMonth y m + r < yearLen y) :
    daysBeforeMonth y (monthLoop y n m r).1 + (monthLoop y n m r).2 = daysBeforeMonth y m + r ∧
    m ≤ (monthLoop y n m r).1 ∧ (monthLoop y n m r).1 ≤ 12 ∧
    0 ≤ (monthLoop y n m r).2 ∧ (monthLoop y n m r).2 < monthLen y (monthLoop y n m r).1 := by
  induction n generalizing m r with
  | zero => omega
  | succ n ih =>
    unfold monthLoop
    by_cases h : r < monthLen y m
    · rw [if_pos h]; exact ⟨rfl, le_rfl, by simp only; omega, hr, h⟩
    · rw [if_neg h]
      by_cases hn' : n = 0
      · subst hn'
        have : m = 12 := by omega
        subst this
        have := daysBeforeMonth_12 y
        have e : monthLen y 12 = 31 := rfl
        omega
      · obtain ⟨h1, h2, h3, h4, h5⟩ := ih (m + 1) (r - monthLen y m) (by omega) (by omega)
          (by omega) (by omega) (by rw [daysBeforeMonth_succ y m hm]; omega)
        refine ⟨?_, by omega, h3, h4, h5⟩
        rw [h1, daysBeforeMonth_succ y m hm]; ring

theorem civil_spec (z : Int) : (civil z).Valid ∧ dayNumber (civil z) = z := by
  have key : ∀ yr : Int × Int, daysBeforeYear yr.1 + yr.2 = z → 0 ≤ yr.2 → yr.2 < yearLen yr.1 →
      Date.Valid ⟨yr.1, (monthLoop yr.1 12 1 yr.2).1, (monthLoop yr.1 12 1 yr.2).2 + 1⟩ ∧
      dayNumber ⟨yr.1, (monthLoop yr.1 12 1 yr.2).1, (monthLoop yr.1 12 1 yr.2).2 + 1⟩ = z := by
    intro yr h1 h2 h3
    have := monthLoop_spec yr.1 12 1 yr.2 le_rfl rfl (by omega) h2
      (by simpa [daysBeforeMonth] using h3)
    obtain ⟨k1, k2, k3, k4, k5⟩ := this
    constructor
    · exact ⟨k2, k3, by simp only; omega, by simp only; omega⟩
    · unfold dayNumber; simp only
      have : daysBeforeMonth yr.1 1 = 0 := rfl
      omega
  unfold civil
  by_cases h : 0 ≤ z
  · rw [if_pos h]
    obtain ⟨h1, h2, h3, _⟩ := yearUp_spec (z.toNat + 1) 1970 z h (by omega)
    rw [daysBeforeYear_epoch] at h1
    exact key _ (by omega) h2 h3
  · rw [if_neg h]
    obtain ⟨h1, h2, h3, _⟩ := yearDown_spec (z.natAbs + 1) 1970 z
      (by have := yearLen_pos 1970; omega) (by omega)
    rw [daysBeforeYear_epoch] at h1
    exact key _ (by omega) h2 h3

theorem civil_year_ge {z : Int} (h : 0 ≤ z) : 1970 ≤ (civil z).year := by
  unfold civil; rw [if_pos h]
  exact (yearUp_spec (z.toNat + 1) 1970 z h (by omega)).2.2.2

theorem civil_year_lt {z : Int} (h : z < 0) : (civil z).year < 1970 := by
  unfold civil; rw [if_neg (by omega)]
  exact (yearDown_spec (z.natAbs + 1) 1970 z (by have := yearLen_pos 1970; omega) (by omega)).2.2.2 h

theorem daysBeforeMonth_mono (y : Int) {m m' : Nat} (hm : 1 ≤ m) (h : m < m') :
    daysBeforeMonth y m + monthLen y m ≤ daysBeforeMonth y m' := by
  obtain ⟨n, rfl⟩ : ∃ n, m' = m + 1 + n := ⟨m' - (m + 1), by omega⟩
  clear h
  induction n with
  | zero => simp [daysBeforeMonth_succ y m hm]
  | succ n ih =>
    have : m + 1 + (n + 1) = (m + 1 + n) + 1 := by omega
    rw [this, daysBeforeMonth_succ y _ (by omega)]
    have := monthLen_pos y (m + 1 + n)
    omega

theorem daysBeforeMonth_nonneg (y : Int) {m : Nat} (hm : 1 ≤ m) : 0 ≤ daysBeforeMonth y m := by
  by_cases h : m = 1
  · subst h; simp [daysBeforeMonth]
  · have := daysBeforeMonth_mono y (le_refl 1) (by omega : 1 < m)
    have e : daysBeforeMonth y 1 = 0 := rfl
    have := monthLen_pos y 1
    omega

theorem dayOfYear_bounds {d : Date} (h : d.Valid) :
    0 ≤ daysBeforeMonth d.year d.month + (d.day - 1) ∧
    daysBeforeMonth d.year d.month + (d.day - 1) < yearLen d.year := by
  obtain ⟨h1, h2, h3, h4⟩ := h
  refine ⟨by have := daysBeforeMonth_nonneg d.year h1; omega, ?_⟩
  have := daysBeforeMonth_mono d.year h1 (by omega : d.month < 13)
  rw [daysBeforeMonth_13] at this
  omega

/-- different valid dates have different day numbers -/
theorem dayNumber_inj {a b : Date} (ha : a.Valid) (hb : b.Valid) (h : dayNumber a = dayNumber b) :
    a = b := by
  have ba := dayOfYear_bounds ha
  have bb := dayOfYear_bounds hb
  unfold dayNumber at h
  have hy : a.year = b.year := by
    rcases lt_trichotomy a.year b.year with hlt | heq | hgt
    · have := daysBeforeYear_mono hlt; omega
    · exact heq
    · have := daysBeforeYear_mono hgt; omega
  obtain ⟨ay, am, ad⟩ := a
  obtain ⟨by', bm, bd⟩ := b
  simp only at hy; subst hy
  obtain ⟨a1, a2, a3, a4⟩ := ha
  obtain ⟨b1, b2, b3, b4⟩ := hb
  simp only at *
  have hm : am = bm := by
    rcases lt_trichotomy am bm with hlt | heq | hgt
    · have := daysBeforeMonth_mono ay a1 hlt; omega
    · exact heq
    · have := daysBeforeMonth_mono ay b1 hgt; omega
  subst hm
  have : ad = bd := by omega
  rw [this]

theorem next_valid {d : Date} (h : d.Valid) : d.next.Valid := by
  obtain ⟨h1, h2, h3, h4⟩ := h
  unfold Date.next
  split
  · exact ⟨h1, h2, by simp only; omega, by simp only; omega⟩
  split
  · refine ⟨by simp only; omega, by simp only; omega, by simp, ?_⟩
    have := monthLen_pos d.year (d.month + 1); simp only; omega
  · refine ⟨by simp, by simp, by simp, ?_⟩
    have := monthLen_pos (d.year + 1) 1; simp only; omega

theorem dayNumber_next {d : Date} (h : d.Valid) : dayNumber d.next = dayNumber d + 1 := by
  obtain ⟨h1, h2, h3, h4⟩ := h
  obtain ⟨y, m, dd⟩ := d
  simp only at h1 h2 h3 h4
  unfold Date.next dayNumber
  split
  · simp only; omega
  split
  · rename_i hd hm'
    simp only at hd hm'
    simp only; rw [daysBeforeMonth_succ _ _ h1]; omega
  · rename_i hd hm'
    simp only at hd hm'
    have hm : m = 12 := by omega
    subst hm
    have := daysBeforeMonth_12 y
    have e : monthLen y 12 = 31 := rfl
    simp only [daysBeforeYear_succ]
    have e2 : daysBeforeMonth (y + 1) 1 = 0 := rfl
    omega

theorem toDate_time (t : Int) :
    timegm (toDate t).date (toDate t).hour (toDate t).min (toDate t).sec = toTimeT t := by
  unfold timegm toDate
  simp only [(civil_spec _).2]
  omega

theorem toDate_hms (t : Int) :
    0 ≤ (toDate t).hour ∧ (toDate t).hour ≤ 23 ∧ 0 ≤ (toDate t).min ∧ (toDate t).min ≤ 59 ∧
    0 ≤ (toDate t).sec ∧ (toDate t).sec ≤ 59 := by
  unfold toDate; simp only; omega

theorem usec_bounds (t : Int) : -1000000 < (toDate t).usec ∧ (toDate t).usec < 1000000 ∧
    (0 ≤ t → 0 ≤ (toDate t).usec) := by
  unfold toDate toTimeT; simp only
  rcases le_or_gt 0 t with h | h
  · rw [Int.tdiv_eq_ediv_of_nonneg h]; omega
  · have : t.tdiv 1000000 = -((-t).tdiv 1000000) := by rw [Int.neg_tdiv]; omega
    rw [this, Int.tdiv_eq_ediv_of_nonneg (by omega)]; omega

/-! ### digits -/

theorem digitVal_digitChar {d : Nat} (h : d < 10) : digitVal? (digitChar d) = some d := by
  interval_cases d <;> rfl

theorem digitChar_eq_zero {d : Nat} (h : d < 10) : digitChar d = '0' ↔ d = 0 := by
  interval_cases d <;> decide

theorem takeDigits_append (w n acc : Nat) (rest : List Char) (k : Nat) (hn : n < 10 ^ w) :
    takeDigits (w + k) acc (padDigits w n ++ rest) = takeDigits k (acc * 10 ^ w + n) rest := by
  induction w generalizing n acc rest k with
  | zero => simp [padDigits] at *; simp [hn]
  | succ w ih =>
    rw [padDigits, List.append_assoc]
    have e : w + 1 + k = w + (k + 1) := by omega
    rw [e, ih (n / 10) acc _ (k + 1) (by rw [Nat.div_lt_iff_lt_mul (by omega)]; rw [pow_succ] at hn; exact hn)]
    rw [List.singleton_append, takeDigits, digitVal_digitChar (Nat.mod_lt _ (by omega))]
    simp only
    congr 1
    rw [pow_succ]
    have := Nat.div_add_mod n 10
    nlinarith

theorem takeDigits_pad (w n : Nat) (rest : List Char) (hn : n < 10 ^ w) :
    takeDigits w 0 (padDigits w n ++ rest) = some (n, rest) := by
  have := takeDigits_append w n 0 rest 0 hn
  simp only [Nat.add_zero] at this
  rw [this]; simp [takeDigits]

theorem printInt_nonneg {w : Nat} {n : Nat} (h : n < 10 ^ w) : printInt w (n : Int) = padDigits w n := by
  unfold printInt printNat; rw [if_neg (by omega)]; simp [h]

/-- digits only -/
def AllDigits (l : List Char) : Prop := ∀ c ∈ l, ∃ d, digitVal? c = some d

/-- value of a list of digits -/
def valOf (acc : Nat) (l : List Char) : Nat :=
  l.foldl (fun a c => 10 * a + (digitVal? c).getD 0) acc

theorem spanDigits_val {l rest : List Char} (hl : AllDigits l)
    (hr : ∀ c s, rest = c :: s → digitVal? c = none) (acc k : Nat) :
    spanDigits acc k (l ++ rest) = (valOf acc l, k + l.length, rest) := by
  induction l generalizing acc k with
  | nil =>
    cases rest with
    | nil => simp [spanDigits, valOf]
    | cons c s => simp [spanDigits, hr c s rfl, valOf]
  | cons c l ih =>
    obtain ⟨d, hd⟩ := hl c (by simp)
    have hl' : AllDigits l := fun x hx => hl x (by simp [hx])
    rw [List.cons_append, spanDigits, hd]; simp only
    rw [ih hl']
    simp [valOf, hd]; omega

theorem valOf_append (acc : Nat) (a b : List Char) : valOf acc (a ++ b) = valOf (valOf acc a) b := by
  simp [valOf]

theorem valOf_padDigits (w n : Nat) (hn : n < 10 ^ w) : valOf 0 (padDigits w n) = n := by
  induction w generalizing n with
  | zero => simp at hn; simp [padDigits, valOf, hn]
  | succ w ih =>
    rw [padDigits, valOf_append, ih _ (by rw [Nat.div_lt_iff_lt_mul (by omega)]; rw [pow_succ] at hn; exact hn)]
    simp only [valOf, List.foldl_cons, List.foldl_nil, digitVal_digitChar (Nat.mod_lt n (by omega : 0 < 10)),
      Option.getD_some]
    omega

theorem allDigits_padDigits (w n : Nat) : AllDigits (padDigits w n) := by
  induction w generalizing n with
  | zero => intro c hc; simp [padDigits] at hc
  | succ w ih =>
    intro c hc
    rw [padDigits, List.mem_append] at hc
    rcases hc with hc | hc
    · exact ih _ c hc
    · simp at hc; subst hc; exact ⟨_, digitVal_digitChar (Nat.mod_lt _ (by omega))⟩

theorem length_padDigits (w n : Nat) : (padDigits w n).length = w := by
  induction w generalizing n with
  | zero => rfl
  | succ w ih => simp [padDigits, ih]

theorem trimZeros_append_zero (l : List Char) : trimZeros (l ++ ['0']) = trimZeros l := by
  simp [trimZeros]

theorem trimZeros_append_ne (l : List Char) {c : Char} (h : c ≠ '0') :
    trimZeros (l ++ [c]) = l ++ [c] := by
  simp [trimZeros, List.dropWhile, h]

theorem trimZeros_spec (l : List Char) :
    (trimZeros l).length ≤ l.length ∧ (∀ c ∈ trimZeros l, c ∈ l) ∧
    valOf 0 (trimZeros l) * 10 ^ (l.length - (trimZeros l).length) = valOf 0 l := by
  induction l using List.reverseRecOn with
  | nil => simp [trimZeros, valOf]
  | append_singleton l c ih =>
    by_cases h : c = '0'
    · subst h
      rw [trimZeros_append_zero]
      obtain ⟨h1, h2, h3⟩ := ih
      refine ⟨by simp; omega, fun c hc => by simp [h2 c hc], ?_⟩
      have : (l ++ ['0']).length - (trimZeros l).length = (l.length - (trimZeros l).length) + 1 := by
        simp; omega
      rw [this, pow_succ, ← Nat.mul_assoc, h3, valOf_append]
      simp [valOf, digitVal?]; ring
    · rw [trimZeros_append_ne _ h]
      refine ⟨le_rfl, fun _ h => h, by simp⟩

theorem toDate_fromDate (t : Int) (h : t ≤ -2000000 ∨ -1000000 < t) :
    fromDate (toDate t) = .ok t := by
  unfold fromDate
  simp only [toDate_time]
  rw [if_neg ?_]
  · congr 1
    show toTimeT t * 1000000 + (t - toTimeT t * 1000000) = t
    omega
  · rintro ⟨h1, _⟩
    unfold toTimeT at h1
    rcases le_or_gt 0 t with h0 | h0
    · rw [Int.tdiv_eq_ediv_of_nonneg h0] at h1; omega
    · have : t.tdiv 1000000 = -((-t).tdiv 1000000) := by rw [Int.neg_tdiv]; omega
      rw [this, Int.tdiv_eq_ediv_of_nonneg (by omega)] at h1; omega

theorem matchText_print (Y M D h m s v : Nat) (us : List Char) (hY : Y < 10000) (hM : M < 100)
    (hD : D < 100) (hh : h < 100) (hm : m < 100) (hs : s < 100) (hus : AllDigits us)
    (hne : us ≠ []) (hv : valOf 0 us = v) :
    matchText (printInt 4 (Y : Int) ++ '-' :: (printInt 2 (M : Int) ++ '-' :: (printInt 2 (D : Int) ++
    'T' :: (printInt 2 (h : Int) ++ ':' :: (printInt 2 (m : Int) ++ ':' :: (printInt 2 (s : Int) ++
    '.' :: (us ++ ['Z']))))))) = some (Y, M, D, h, m, s, v, us.length) := by
  rw [printInt_nonneg (by omega), printInt_nonneg (by omega), printInt_nonneg (by omega),
    printInt_nonneg (by omega), printInt_nonneg (by omega), printInt_nonneg (by omega)]
  unfold matchText
  rw [takeDigits_pad 4 Y _ (by omega)]
  simp only [Option.bind_eq_bind, Option.bind_some, lit, if_true]
  rw [takeDigits_pad 2 M _ (by omega)]
  simp only [Option.bind_some, lit, if_true]
  rw [takeDigits_pad 2 D _ (by omega)]
  simp only [Option.bind_some, lit, if_true]
  rw [takeDigits_pad 2 h _ (by omega)]
  simp only [Option.bind_some, lit, if_true]
  rw [takeDigits_pad 2 m _ (by omega)]
  simp only [Option.bind_some, lit, if_true]
  rw [takeDigits_pad 2 s _ (by omega)]
  simp only [Option.bind_some, lit, if_true]
  have hz : ∀ c s, ['Z'] = c :: s → digitVal? c = none := by
    intro c s he; injection he with h1 h2; subst h1; rfl
  rw [spanDigits_val hus hz]
  have : us.length ≠ 0 := by simpa using hne
  simp [this, hv]

end Verif.Utc
