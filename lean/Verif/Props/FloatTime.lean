import Verif.Proofs.FloatTime

/-!
# C121: times survive the conversion to seconds in doubles
-/

namespace Verif.FloatTime
open Verif.DoubleSpec Verif.Double

/-- **C121a.** Whatever the rounding to the nearest double does: the seconds of a duration or of a time since 1970, as a double,
give back exactly the same number of microseconds, for every number up to 2^32 seconds, i.e. for the times from 1833 to
February 2106. -/
theorem seconds_keep_microseconds {fl : ℚ → ℚ} (h : Doubles fl) (d : Int) (hd : |d| ≤ 2 ^ 32 * 10 ^ 6) :
    secToDur fl (durToSec fl d) = some d :=
  secToDur_durToSec h hd

/-- the rounding of IEEE 754 is meant, and the limit is the exact one: eleven microseconds after it a time changes -/
example : Doubles round64 ∧ secToDur round64 (durToSec round64 1718409600123457) = some 1718409600123457 ∧
    durToSec round64 1718409600123457 ≠ 1718409600123457 / 1000000 :=
  ⟨round64_doubles, by decide +kernel, by decide +kernel⟩

theorem seconds_lose_microseconds :
    secToDur round64 (durToSec round64 (2 ^ 32 * 10 ^ 6 + 11)) ≠ some (2 ^ 32 * 10 ^ 6 + 11) := by decide +kernel

/-- **C121b.** Later times have larger seconds; in particular different times have different seconds. -/
theorem seconds_in_order {fl : ℚ → ℚ} (h : Doubles fl) (a b : Int) (ha : |a| ≤ 2 ^ 32 * 10 ^ 6) (hb : |b| ≤ 2 ^ 32 * 10 ^ 6) :
    durToSec fl a < durToSec fl b ↔ a < b := by
  constructor
  · intro hlt
    by_contra hc
    exact absurd (durToSec_mono h (by omega : b ≤ a)) (not_le.mpr hlt)
  · intro hlt
    refine lt_of_le_of_ne (durToSec_mono h hlt.le) (fun he => ?_)
    have h1 := secToDur_durToSec h ha
    rw [he, secToDur_durToSec h hb] at h1
    injection h1 with h1
    omega

example : durToSec round64 1718409600123456 < durToSec round64 1718409600123457 :=
  (seconds_in_order round64_doubles _ _ (by decide) (by decide)).mpr (by decide)

/-- **C121c.** Times exchanged with SeisComP are kept to the microsecond in both directions, if the seconds SeisComP is given are
rounded to the nearest microsecond, and those it returns are the nearest double. -/
theorem seiscomp_times_kept {fl : ℚ → ℚ} (h : Doubles fl) (core : ℚ → Int) (epoch : Int → ℚ)
    (hcore : ∀ (s : ℚ) (n : Int), |s * 1000000 - (n : ℚ)| < 1 / 2 → core s = n) (hepoch : ∀ n : Int, epoch n = fl ((n : ℚ) / 1000000))
    (t : Int) (ht : |t| ≤ 2 ^ 32 * 10 ^ 6) : toSC fl core t = t ∧ fromSC fl epoch t = some t := by
  constructor
  · apply hcore
    have := durToSec_near h ht
    have e : (1000000 : ℚ) / 2 ^ 22 < 1 / 2 := by norm_num
    linarith
  · unfold fromSC
    have : epoch t = durToSec fl t := by
      rw [hepoch]
      unfold durToSec
      rw [fl_int h (by omega)]
    rw [this]
    exact secToDur_durToSec h ht

example : toSC round64 (fun s => cround (s * 1000000)) 1718409600000007 = 1718409600000007 ∧
    fromSC round64 (fun n => round64 ((n : ℚ) / 1000000)) 1718409600000007 = some 1718409600000007 :=
  seiscomp_times_kept round64_doubles _ _ (fun _ _ h => cround_near h) (fun _ => rfl) _ (by decide)

/-- If SeisComP cut the seconds off after the sixth decimal instead, many times would be a microsecond early. -/
theorem seiscomp_truncation : toSC round64 (fun s => ⌊s * 1000000⌋) 1718409600000001 = 1718409600000000 := by decide +kernel

/-- **C121d.** An event moved in time by a number of seconds is moved by the nearest number of microseconds, to within a quarter
of a microsecond: the number found by the solver is never changed by more than that, nor turned around. -/
theorem seconds_to_microseconds {fl : ℚ → ℚ} (h : Doubles fl) (s : ℚ) (hs : |s| ≤ 2 ^ 32) :
    ∃ d, secToDur fl s = some d ∧ |(d : ℚ) - s * 1000000| ≤ 3 / 4 ∧ (0 ≤ s → 0 ≤ d) ∧ (s ≤ 0 → d ≤ 0) := by
  have h1 := h.near 52 (s * 1000000) (by norm_num) (by norm_num) (by
    rw [abs_le] at *
    norm_num at *
    constructor <;> linarith [hs.1, hs.2])
  have h2 := cround_le_add_half (fl (s * 1000000))
  have h3 := sub_half_le_cround (fl (s * 1000000))
  have h4 : |((cround (fl (s * 1000000)) : ℤ) : ℚ) - s * 1000000| ≤ 3 / 4 := by
    rw [abs_le] at *
    norm_num at *
    constructor <;> linarith [h1.1, h1.2]
  have h5 : |((cround (fl (s * 1000000)) : ℤ) : ℚ)| < 2 ^ 63 := by
    rw [abs_le] at h4 hs
    rw [abs_lt]
    norm_num at *
    constructor <;> linarith [h4.1, h4.2, hs.1, hs.2]
  refine ⟨cround (fl (s * 1000000)), ?_, h4, ?_, ?_⟩
  · unfold secToDur
    simp only
    rw [← Int.cast_abs] at h5
    have h6 : |cround (fl (s * 1000000))| < 2 ^ 63 := by exact_mod_cast h5
    rw [abs_lt] at h6
    rw [if_pos (by omega)]
  · intro h0
    exact cround_nonneg (fl_nonneg h (by positivity))
  · intro h0
    have : fl (s * 1000000) ≤ ((0 : ℤ) : ℚ) := by
      have := h.mono (s * 1000000) 0 (by linarith)
      rw [fl_zero h] at this
      simpa using this
    simpa using cround_le_of_le_int this

example : secToDur round64 (round64 (123456789 / 10 ^ 7)) = some 12345679 ∧ secToDur round64 (10 ^ 13) = none := by
  decide +kernel

end Verif.FloatTime
