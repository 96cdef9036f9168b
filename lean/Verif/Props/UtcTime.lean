import Verif.Proofs.UtcTime

/-!
# C07, C08: UTC times as calendar fields and as text

Specification: `Verif.Calendar` (leap year rule, month lengths, next day).
-/

namespace Verif.Utc
open Calendar

/-- **C08a.** The calendar fields are in range, for every time. -/
theorem utc_fields_in_range (t : Int) :
    (toDate t).date.Valid ∧
    0 ≤ (toDate t).hour ∧ (toDate t).hour ≤ 23 ∧ 0 ≤ (toDate t).min ∧ (toDate t).min ≤ 59 ∧
    0 ≤ (toDate t).sec ∧ (toDate t).sec ≤ 59 ∧
    (toDate t).usec < 1000000 ∧ (0 ≤ t → 0 ≤ (toDate t).usec) := by
  obtain ⟨h1, h2, h3, h4, h5, h6⟩ := toDate_hms t
  exact ⟨(civil_spec _).1, h1, h2, h3, h4, h5, h6, (usec_bounds t).2.1, (usec_bounds t).2.2⟩

/-- **C08b.** The date is the right one: time 0 is 1 January 1970 00:00:00.000000, adding 24 hours
moves to the next calendar day keeping the time of day, and within a (non-negative) day the time of
day counts microseconds. -/
theorem utc_calendar_correct :
    toDate 0 = ⟨epoch, 0, 0, 0, 0⟩ ∧
    (∀ t : Int, 0 ≤ t →
      toDate (t + 86400000000) = { toDate t with date := (toDate t).date.next }) ∧
    (∀ t : Int, 0 ≤ t → (((toDate t).hour * 60 + (toDate t).min) * 60 + (toDate t).sec) * 1000000
      + (toDate t).usec = t % 86400000000) := by
  refine ⟨by decide, ?_, ?_⟩
  · intro t ht
    have e1 : toTimeT (t + 86400000000) = toTimeT t + 86400 := by
      unfold toTimeT
      rw [Int.tdiv_eq_ediv_of_nonneg ht, Int.tdiv_eq_ediv_of_nonneg (by omega)]
      omega
    have e2 : civil (toTimeT t / 86400 + 1) = (civil (toTimeT t / 86400)).next := by
      apply dayNumber_inj (civil_spec _).1 (next_valid (civil_spec _).1)
      rw [(civil_spec _).2, dayNumber_next (civil_spec _).1, (civil_spec _).2]
    unfold toDate
    simp only [e1]
    have e3 : (toTimeT t + 86400) / 86400 = toTimeT t / 86400 + 1 := by omega
    have e4 : (toTimeT t + 86400) % 86400 = toTimeT t % 86400 := by omega
    rw [e3, e4, e2]
    congr 1
    omega
  · intro t ht
    unfold toDate toTimeT
    simp only
    rw [Int.tdiv_eq_ediv_of_nonneg ht]
    omega

/-- **C08c.** Converting to calendar fields and back gives the original time, for every time except
those with `-2 s < t ≤ -1 s`. -/
theorem utc_date_round_trip (t : Int) (h : t ≤ -2000000 ∨ -1000000 < t) :
    fromDate (toDate t) = .ok t := toDate_fromDate t h

/-- 2024-02-29T12:34:56.789012 -/
example : (1709210096789012 : Int) > -1000000 ∧
    toDate 1709210096789012 = ⟨⟨2024, 2, 29⟩, 12, 34, 56, 789012⟩ := by decide +kernel

/-- … and different times have different fields, before 1970 too. -/
theorem utc_date_injective {t t' : Int} (h : toDate t = toDate t') : t = t' := by
  have h1 : toTimeT t = toTimeT t' := by rw [← toDate_time t, ← toDate_time t', h]
  have h2 : (toDate t).usec = (toDate t').usec := by rw [h]
  simp only [toDate] at h2
  rw [h1] at h2
  omega

/-- **C08 as stated is false in the last second but one before 1970**: for those times the round
trip throws, because `timegm` legitimately returns -1. -/
theorem utc_date_throws_before_epoch (t : Int) (h1 : -2000000 < t) (h2 : t ≤ -1000000) :
    fromDate (toDate t) = .throws := by
  have htt : toTimeT t = -1 := by
    unfold toTimeT
    have : t.tdiv 1000000 = -((-t).tdiv 1000000) := by rw [Int.neg_tdiv]; omega
    rw [this, Int.tdiv_eq_ediv_of_nonneg (by omega)]; omega
  unfold fromDate
  simp only [toDate_time]
  rw [if_pos]
  refine ⟨htt, Or.inl ?_⟩
  unfold toDate
  simp only [htt]
  exact civil_year_lt (by decide)

/-- **C07a.** Formatting a time as text and reading the text gives the time back, for every time
from 1970 to the end of year 9999. -/
theorem utc_text_round_trip_partial (t : Int) (h0 : 0 ≤ t) (h1 : (toDate t).date.year ≤ 9999) :
    fromString (toString t) = .ok t := by
  obtain ⟨hv, a1, a2, a3, a4, a5, a6, a7, a8⟩ := utc_fields_in_range t
  have a8 := a8 h0
  have hy : 1970 ≤ (toDate t).date.year := by
    unfold toDate toTimeT; simp only
    apply civil_year_ge
    rw [Int.tdiv_eq_ediv_of_nonneg h0]; omega
  obtain ⟨v1, v2, v3, v4⟩ := hv
  have hml := monthLen_pos (toDate t).date.year (toDate t).date.month
  obtain ⟨Y, hY⟩ := Int.eq_ofNat_of_zero_le (by omega : 0 ≤ (toDate t).date.year)
  obtain ⟨D, hD⟩ := Int.eq_ofNat_of_zero_le (by omega : 0 ≤ (toDate t).date.day)
  obtain ⟨h, hh⟩ := Int.eq_ofNat_of_zero_le a1
  obtain ⟨m, hm⟩ := Int.eq_ofNat_of_zero_le a3
  obtain ⟨s, hs⟩ := Int.eq_ofNat_of_zero_le a5
  obtain ⟨u, hu⟩ := Int.eq_ofNat_of_zero_le a8
  have hr := toDate_fromDate t (by omega)
  generalize hus : (if (toDate t).usec = 0 then ['0', '0', '0', '0']
    else trimZeros (printInt 6 (toDate t).usec)) = us
  have key : AllDigits us ∧ us ≠ [] ∧ us.length ≤ 6 ∧ valOf 0 us * 10 ^ (6 - us.length) = u ∧
      valOf 0 us ≤ u := by
    have step : AllDigits us ∧ us ≠ [] ∧ us.length ≤ 6 ∧
        valOf 0 us * 10 ^ (6 - us.length) = u := by
      by_cases hz : (toDate t).usec = 0
      · rw [if_pos hz] at hus
        have : u = 0 := by omega
        subst this; subst hus
        refine ⟨?_, by simp, by simp, by decide⟩
        intro c hc
        have : c = '0' := by simpa using hc
        exact ⟨0, by rw [this]; rfl⟩
      · rw [if_neg hz, hu, printInt_nonneg (by omega)] at hus
        have hval := valOf_padDigits 6 u (by omega)
        obtain ⟨t1, t2, t3⟩ := trimZeros_spec (padDigits 6 u)
        rw [hus, length_padDigits] at t1 t3
        rw [hus] at t2
        rw [hval] at t3
        refine ⟨fun c hc => allDigits_padDigits 6 u c (t2 c hc), ?_, t1, t3⟩
        intro hnil
        rw [hnil] at t3
        simp [valOf] at t3
        omega
    refine ⟨step.1, step.2.1, step.2.2.1, step.2.2.2, ?_⟩
    have := step.2.2.2
    calc valOf 0 us ≤ valOf 0 us * 10 ^ (6 - us.length) := Nat.le_mul_of_pos_right _ (by positivity)
      _ = u := this
  obtain ⟨k1, k2, k3, k4, k5⟩ := key
  have hts : matchText (toString t) = some (Y, (toDate t).date.month, D, h, m, s, valOf 0 us,
      us.length) := by
    unfold toString
    simp only
    rw [hus, hY, hD, hh, hm, hs]
    exact matchText_print Y (toDate t).date.month D h m s _ us (by omega) (by omega) (by omega)
      (by omega) (by omega) (by omega) k1 k2 rfl
  unfold fromString
  rw [hts]
  simp only
  rw [if_neg (by omega), if_neg (by omega), if_neg (by omega), if_neg (by omega), if_neg (by omega),
    if_neg (by omega), if_neg (by omega)]
  unfold scaleFrac
  rw [if_pos k3, k4, ← hr]
  congr 1
  rw [← hY, ← hD, ← hh, ← hm, ← hs, ← hu]

example : (0 : Int) ≤ 1709210096789000 ∧ (toDate 1709210096789000).date.year ≤ 9999 ∧
    toString 1709210096789000 = "2024-02-29T12:34:56.789Z".toList := by decide +kernel

/-- **C07b.** Times from 1970 to year 9999 with the same text are the same time. -/
theorem utc_text_injective_partial {t t' : Int} (h0 : 0 ≤ t) (h0' : 0 ≤ t')
    (h1 : (toDate t).date.year ≤ 9999) (h1' : (toDate t').date.year ≤ 9999)
    (h : toString t = toString t') : t = t' := by
  have a := utc_text_round_trip_partial t h0 h1
  have b := utc_text_round_trip_partial t' h0' h1'
  rw [h, b] at a
  injection a with a; exact a.symm

/-- **C07 as stated is false before 1970**: half a second before the epoch is written as
`1970-01-01T00:00:00.-5Z`, which cannot be read. -/
theorem utc_text_lost_before_epoch :
    toString (-500000) = "1970-01-01T00:00:00.-5Z".toList ∧
    fromString (toString (-500000)) = .throws := by decide +kernel

/-- … and the fraction is negative, i.e. the text is not a UTC time at all (the instant is
1969-12-31T23:59:58.499999). -/
theorem utc_text_not_a_time_before_epoch :
    toString (-1500001) = "1969-12-31T23:59:59.-500001Z".toList := by decide +kernel

/-- Reading a text never accepts a day, month, hour, minute or second out of its field's range,
but the day is not checked against the month: 31 February is silently read as 2 March. -/
theorem utc_text_accepts_31_february :
    fromString "2024-02-31T00:00:00.0Z".toList = fromString "2024-03-02T00:00:00.0Z".toList ∧
    fromString "2024-03-02T00:00:00.0Z".toList = .ok 1709337600000000 := by decide +kernel

/-- More than nine digits in the fraction can overflow the `int` conversion. -/
theorem utc_text_long_fraction_ub :
    fromString "2024-03-02T00:00:00.9999999999Z".toList = .ub := by decide +kernel

end Verif.Utc
