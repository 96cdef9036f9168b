import Verif.Spec.LagShift
import Verif.Spec.Correlation
import Verif.Props.XCorr
import Verif.Props.Trace

/-! # Lags and shifts in time: lemmas for C123 -/

namespace Verif.LagSpec
open Verif Verif.XCorr Verif.XCorr.Spec

/-- the difference of the numbers of samples, halved towards zero -/
def Half (na nb : ℕ) (m : Int) : Prop :=
  (na ≤ nb ∧ m = ((nb : Int) - na) / 2) ∨ (nb ≤ na ∧ m = -(((na : Int) - nb) / 2))

theorem timeOf_eq (t : Trace ℝ) (i : ℚ) : timeOf t i = t.stime + i * step t := by
  unfold timeOf step; ring

/-- what is compared by `xcorr`, and how far the lag is from the shift -/
theorem xcorr_geometry {a b : Trace ℝ} {D : ℚ} (h : Comparable a b D) {lag : ℚ} {k : ℝ}
    (hx : xcorr a b D 0 = .ok (lag, .num k)) (pa pb : Int) :
    ∃ i1 i2 n m, Half a.data.length b.data.length m ∧ Compared a b i1 i2 n k ∧ n = min a.data.length b.data.length ∧
      shift a pa i1 b pb i2 - lag * 1000000 = ((b.stime : ℚ) - pb) - (a.stime - pa) + m * step a := by
  have hfa := h.freq
  have hne : a.freq ≠ 0 := hfa.ne'
  have hstep : step b = step a := by unfold step; rw [h.same]
  have la : 0 < a.data.length := List.length_pos_iff.2 h.data1
  have lb : 0 < b.data.length := List.length_pos_iff.2 h.data2
  rcases Nat.lt_or_ge b.data.length a.data.length with hlt | hle
  · obtain ⟨q, c, e1, -, e3, e4, -⟩ := xcorr_bounded b a D h.symm hlt.le 0
    obtain ⟨lag', c', f1, f2⟩ := crosscorr_antisymmetric b a D h.symm 0
    rw [e1] at f1
    rw [f2] at hx
    injection f1 with f1; injection f1 with f1 f1'
    injection hx with hx; injection hx with hx hx'
    subst f1'
    rw [hx'] at e4
    simp only [Fl.num.injEq, reduceCtorEq, false_or] at e4
    rw [abs_le] at e3
    obtain ⟨mid, hmid⟩ : ∃ mid : ℕ, (a.data.length - b.data.length) / 2 = mid := ⟨_, rfl⟩
    rw [hmid] at e3 e4
    obtain ⟨i, hi⟩ : ∃ i : ℕ, (i : Int) = mid + q := ⟨((mid : Int) + q).toNat, by omega⟩
    have hiq : (i : ℚ) = mid + q := by
      have : ((i : Int) : ℚ) = ((mid : Int) : ℚ) + q := by rw [hi]; push_cast; ring
      exact_mod_cast this
    rw [← hi, Int.toNat_natCast] at e4
    refine ⟨i, 0, b.data.length, -(mid : Int), Or.inr ⟨hlt.le, by omega⟩, ⟨lb, by omega, by omega, ?_⟩, by omega, ?_⟩
    · rw [e4, window_all rfl, (abs_pearson_le_one _ _ ?_).2]
      simp only [window, List.length_take, List.length_drop]
      omega
    · rw [← hx, ← f1]
      unfold shift
      rw [timeOf_eq, timeOf_eq, hiq, hstep, ← h.same]
      unfold step
      push_cast
      field_simp
      ring
  · obtain ⟨q, c, e1, -, e3, e4, -⟩ := xcorr_bounded a b D h hle 0
    rw [e1] at hx
    injection hx with hx; injection hx with hx hx'
    rw [hx'] at e4
    simp only [Fl.num.injEq, reduceCtorEq, false_or] at e4
    rw [abs_le] at e3
    obtain ⟨mid, hmid⟩ : ∃ mid : ℕ, (b.data.length - a.data.length) / 2 = mid := ⟨_, rfl⟩
    rw [hmid] at e3 e4
    obtain ⟨i, hi⟩ : ∃ i : ℕ, (i : Int) = mid + q := ⟨((mid : Int) + q).toNat, by omega⟩
    have hiq : (i : ℚ) = mid + q := by
      have : ((i : Int) : ℚ) = ((mid : Int) : ℚ) + q := by rw [hi]; push_cast; ring
      exact_mod_cast this
    rw [← hi, Int.toNat_natCast] at e4
    refine ⟨0, i, a.data.length, mid, Or.inl ⟨hle, by omega⟩, ⟨la, by omega, by omega, ?_⟩, by omega, ?_⟩
    · rw [e4, window_all rfl]
    · rw [← hx]
      unfold shift
      rw [timeOf_eq, timeOf_eq, hiq, hstep]
      unfold step
      push_cast
      field_simp
      ring

/-- the middles of two cut waveforms lie over the middles of the windows -/
theorem middles {a b : Trace ℝ} {wa wb : TimeWindow} (hs : step b = step a) (hp : 0 < step a) {la lb : ℚ} (hla : 0 ≤ la) (hlb : 0 ≤ lb)
    (ha : Cut a la wa) (hb : Cut b lb wb) (pa pb m : Int) (hm : Half a.data.length b.data.length m) :
    |((b.stime : ℚ) - pb) - (a.stime - pa) + m * step a - (centre wb pb - centre wa pa)| ≤ (3 / 2 + (la + lb) / 2) * step a + 4 := by
  obtain ⟨a1, a2, a3, a4⟩ := ha
  obtain ⟨b1, b2, b3, b4⟩ := hb
  rw [timeOf_eq] at a2 a3 a4 b2 b3 b4
  rw [hs] at b2 b3 b4
  unfold centre
  have a1' : (a.stime : ℚ) ≤ wa.startTime := by exact_mod_cast a1
  have b1' : (b.stime : ℚ) ≤ wb.startTime := by exact_mod_cast b1
  generalize hna : a.data.length = na at *
  generalize hnb : b.data.length = nb at *
  have hm2 : |2 * m - ((nb : Int) - na)| ≤ 1 := by
    rw [abs_le]; rcases hm with ⟨h1, rfl⟩ | ⟨h1, rfl⟩ <;> omega
  have hm3 : |2 * (m : ℚ) - ((nb : ℚ) - na)| ≤ 1 := by exact_mod_cast hm2
  rw [abs_le] at hm3
  have k1 := mul_le_mul_of_nonneg_right hm3.1 hp.le
  have k2 := mul_le_mul_of_nonneg_right hm3.2 hp.le
  have k3 := mul_nonneg hla hp.le
  have k4 := mul_nonneg hlb hp.le
  rw [abs_le]
  constructor <;> nlinarith

/-- the same for windows that differ by a whole number of samples on both sides -/
theorem middles_whole {a b : Trace ℝ} {wa wb : TimeWindow} (hs : step b = step a) (hp : 10 ≤ step a) (ha : Cut a 0 wa) (hb : Cut b 0 wb)
    (pa pb m : Int) (hm : Half a.data.length b.data.length m) (N : Int) (hN : N ≠ 0)
    (h1 : (wb.startTime : ℚ) - pb = wa.startTime - pa - N * step a) (h2 : (wb.endTime : ℚ) - pb = wa.endTime - pa + N * step a) :
    |((b.stime : ℚ) - pb) - (a.stime - pa) + m * step a| ≤ step a + 4 := by
  obtain ⟨a1, a2, a3, a4⟩ := ha
  obtain ⟨b1, b2, b3, b4⟩ := hb
  rw [timeOf_eq] at a2 a3 a4 b2 b3 b4
  rw [hs] at b2 b3 b4
  have a1' : (a.stime : ℚ) ≤ wa.startTime := by exact_mod_cast a1
  have b1' : (b.stime : ℚ) ≤ wb.startTime := by exact_mod_cast b1
  generalize hna : a.data.length = na at *
  generalize hnb : b.data.length = nb at *
  obtain ⟨z, hz⟩ : ∃ z : Int, (nb : Int) - na = 2 * N + z := ⟨(nb : Int) - na - 2 * N, by ring⟩
  have hzq : (nb : ℚ) = na + 2 * N + z := by
    have : ((nb : Int) : ℚ) = ((na : Int) : ℚ) + 2 * N + z := by
      have : (nb : Int) = na + 2 * N + z := by omega
      rw [this]; push_cast; ring
    exact_mod_cast this
  rw [hzq] at b3 b4
  have hz1 : z < 3 := by
    by_contra hc
    have hc' : (3 : ℚ) ≤ z := by exact_mod_cast not_lt.1 hc
    have := mul_le_mul_of_nonneg_right hc' (by linarith : (0 : ℚ) ≤ step a)
    nlinarith
  have hz2 : -3 < z := by
    by_contra hc
    have hc' : (z : ℚ) ≤ -3 := by exact_mod_cast not_lt.1 hc
    have := mul_le_mul_of_nonneg_right hc' (by linarith : (0 : ℚ) ≤ step a)
    nlinarith
  -- the half of the difference, in terms of `N` and `z`
  have hmz : ((z = 0) ∧ m = N) ∨ (z = 1 ∧ (m = N ∨ m = N + 1)) ∨ (z = 2 ∧ m = N + 1) ∨
      (z = -1 ∧ (m = N ∨ m = N - 1)) ∨ (z = -2 ∧ m = N - 1) := by
    rcases hm with ⟨h, rfl⟩ | ⟨h, rfl⟩ <;> omega
  rw [abs_le]
  rcases hmz with ⟨rfl, rfl⟩ | ⟨rfl, rfl | rfl⟩ | ⟨rfl, rfl⟩ | ⟨rfl, rfl | rfl⟩ | ⟨rfl, rfl⟩ <;> push_cast at * <;>
    constructor <;> nlinarith

/-- cutting a trace -/
theorem slice_cut {t t' : Trace ℝ} {w : TimeWindow} (hw : w.startTime ≤ w.endTime) (hB : TimeWindow.Built w) (hf : 0 < t.freq)
    (hd : t.data ≠ []) (hs : t.slice w = some (true, t')) :
    t'.data ≠ [] ∧ t'.freq = t.freq ∧ Cut t' 0 w ∧
      (w.endTime ≤ t'.endTime ∧ (t'.endTime : ℚ) ≤ timeOf t' ((t'.data.length : ℚ) - 1) + 1 / 2 ∧
        timeOf t' ((t'.data.length : ℚ) - 2) < w.endTime + 1) ∧
      ∃ k0 : ℕ, k0 + t'.data.length ≤ t.data.length ∧ |timeOf t' 0 - timeOf t k0| ≤ 1 / 2 ∧
        ∀ i n, i + n ≤ t'.data.length → window t'.data i n = window t.data (k0 + i) n := by
  obtain ⟨ok, t1, e1, -, e2⟩ := Trace.trace_slice_sound t w hB hf
  rw [hs] at e1
  injection e1 with e1; injection e1 with e1 e1'
  subst e1 e1'
  obtain ⟨q1, q2, q3, k0, q4, q5, q6, q7⟩ := e2 rfl
  have hne : t'.data ≠ [] := by
    rcases Trace.slice_cases t w hw hf with ⟨-, h⟩ | ⟨-, -, h⟩ | ⟨-, -, h0, h1, ⟨-, h⟩ | ⟨h2, h⟩⟩
    · rw [hs] at h; injection h with h; injection h with h h'; rw [h']; exact hd
    · rw [hs] at h; injection h with h; injection h with h h'; cases h
    · rw [hs] at h; injection h with h; injection h with h h'; cases h
    · rw [hs] at h; injection h with h; injection h with h h'; rw [h']
      intro he
      have := congrArg List.length he
      simp only [List.length_take, List.length_drop, List.length_nil] at this
      omega
  have hpos : 0 < t'.data.length := List.length_pos_iff.2 hne
  have hst : step t' = step t := by unfold step; rw [q1]
  have hsame : ∀ i : ℚ, timeOf t' i - timeOf t (k0 + i) = timeOf t' 0 - timeOf t k0 := by
    intro i; simp only [timeOf_eq, hst]; ring
  have h0 : |timeOf t' 0 - timeOf t k0| ≤ 1 / 2 := by
    have := (q5 0 hpos).2
    simpa [Trace.sampleTime, timeOf] using this
  have h0' := abs_le.1 h0
  have he : (t'.endTime : ℚ) ≤ timeOf t' ((t'.data.length : ℚ) - 1) + 1 / 2 := by
    unfold Trace.endTime
    rw [if_neg hpos.ne']
    have := cround_le_add_half (((t'.data.length : ℚ) - 1) / t'.freq * 1000000)
    unfold Trace.secToDur timeOf
    push_cast
    linarith
  have q3' : (w.endTime : ℚ) ≤ t'.endTime := by exact_mod_cast q3
  have hl : timeOf t' ((t'.data.length : ℚ) - 2) < w.endTime + 1 := by
    have := hsame ((t'.data.length : ℚ) - 2)
    have q7' : timeOf t ((k0 : ℚ) + t'.data.length - 2) < w.endTime + 1 / 2 := q7
    have e : (k0 : ℚ) + ((t'.data.length : ℚ) - 2) = (k0 : ℚ) + t'.data.length - 2 := by ring
    rw [e] at this
    linarith
  refine ⟨hne, q1, ⟨q2, ?_, by linarith, by linarith⟩, ⟨q3, he, hl⟩, k0, q4, h0, ?_⟩
  · have := hsame 1
    have q6' : (w.startTime : ℚ) < timeOf t (k0 + 1) := q6
    linarith
  · intro i n hin
    apply List.ext_getElem?
    intro j
    simp only [window, List.getElem?_take, List.getElem?_drop]
    split
    · rename_i hj
      have := (q5 (i + j) (by omega)).1
      rw [this]; congr 1; omega
    · rfl

/-- a value cut off towards zero -/
theorem truncate_near (x : ℚ) : |(truncate x : ℚ) - x| ≤ 1 := by
  unfold truncate
  rw [abs_le]
  split
  · have h1 := Int.floor_le x
    have h2 := Int.lt_floor_add_one x
    constructor <;> linarith
  · have h1 := Int.le_ceil x
    have h2 := Int.ceil_lt_add_one x
    constructor <;> linarith

/-- the two windows of a pick -/
theorem windows {c : Config} (hc : Settings c) {e p : Int} (hep : e ≤ p) {w : TimeWindow} (hw : windowLong c e p = some w) :
    ∃ s, windowShort c e p = some s ∧ TimeWindow.Built s ∧ s.startTime ≤ s.endTime ∧
      w.startTime = s.startTime - Trace.secToDur c.maxDelay ∧ w.endTime = s.endTime + Trace.secToDur c.maxDelay ∧
      (c.endOffset - c.startOffset) * 1000000 ≤ (s.endTime : ℚ) - s.startTime ∧
      |centre s p - ((c.startOffset + c.endOffset) / 2 * 1000000 + bias c (p - e))| ≤ 3 / 2 ∧
      (c.winScaling = 0 → (s.startTime : ℚ) - p = c.startOffset * 1000000 ∧ (s.endTime : ℚ) - p = c.endOffset * 1000000) := by
  obtain ⟨a, b, ha, hb, hab, hsc, hdel⟩ := hc
  have hst : Trace.secToDur c.startOffset = a := by unfold Trace.secToDur; rw [ha, cround_intCast]
  have hln : Trace.secToDur (c.endOffset - c.startOffset) = b - a := by
    unfold Trace.secToDur
    rw [sub_mul, ha, hb, ← Int.cast_sub, cround_intCast]
  have hdl : 0 ≤ Trace.secToDur c.maxDelay := by
    unfold Trace.secToDur
    exact cround_nonneg (by linarith)
  unfold windowLong at hw
  have hs : windowShort c e p = some (TimeWindow.ofLength (p + truncate (a * (((b - a : Int) + ((p - e : Int) : ℚ) * c.winScaling) / (b - a : Int))))
      (truncate ((b - a : Int) + ((p - e : Int) : ℚ) * c.winScaling))) := by
    unfold windowShort
    simp only [hln, hst]
    rw [if_neg (by omega)]
  rw [hs] at hw
  simp only [Option.map_some, Option.some.injEq] at hw
  have hext : (0 : ℚ) ≤ ((p - e : Int) : ℚ) * c.winScaling := mul_nonneg (by exact_mod_cast (by omega : 0 ≤ p - e)) hsc
  generalize hx : ((p - e : Int) : ℚ) * c.winScaling = ext at *
  have hba : (0 : ℚ) < ((b - a : Int) : ℚ) := by exact_mod_cast (by omega : 0 < b - a)
  obtain ⟨l1, l2, l3⟩ := truncate_nonneg (show (0 : ℚ) ≤ ((b - a : Int) : ℚ) + ext by linarith)
  have t1 := truncate_near (a * ((((b - a : Int) : ℚ) + ext) / (b - a : Int)))
  have l4 : b - a ≤ truncate (((b - a : Int) : ℚ) + ext) := by
    have : ((b - a : Int) : ℚ) < truncate (((b - a : Int) : ℚ) + ext) + 1 := by linarith
    have : b - a < truncate (((b - a : Int) : ℚ) + ext) + 1 := by exact_mod_cast this
    omega
  have h0 : c.winScaling = 0 → truncate (a * ((((b - a : Int) : ℚ) + ext) / (b - a : Int))) = a ∧
      truncate (((b - a : Int) : ℚ) + ext) = b - a := by
    intro h
    have : ext = 0 := by rw [← hx, h, mul_zero]
    have e1 : ∀ n : Int, truncate (n : ℚ) = n := by
      intro n; unfold truncate; split <;> simp
    rw [this, add_zero, div_self hba.ne', mul_one, e1, e1]
    exact ⟨rfl, rfl⟩
  have hmid : a * ((((b - a : Int) : ℚ) + ext) / (b - a : Int)) + (((b - a : Int) : ℚ) + ext) / 2 =
      (c.startOffset + c.endOffset) / 2 * 1000000 + bias c (p - e) := by
    have e1 : c.startOffset = a / 1000000 := by rw [← ha]; ring
    have e2 : c.endOffset = b / 1000000 := by rw [← hb]; ring
    unfold bias
    rw [e1, e2, ← hx]
    push_cast
    have : (b : ℚ) - a ≠ 0 := by
      have := hba.ne'; push_cast at this; exact this
    have h3 : (b : ℚ) / 1000000 - a / 1000000 ≠ 0 := by
      intro h; apply this; linarith
    field_simp
    ring
  generalize truncate (a * ((((b - a : Int) : ℚ) + ext) / (b - a : Int))) = A at *
  generalize truncate (((b - a : Int) : ℚ) + ext) = B at *
  generalize Trace.secToDur c.maxDelay = dl at *
  have e1 : TimeWindow.ofLength (p + A) B = ⟨p + A, p + A + B⟩ := by
    unfold TimeWindow.ofLength TimeWindow.mk' TimeWindow.setEndTime
    rw [if_neg (by simp only; omega)]
  have e2 : w = ⟨p + A - dl, p + A + B + dl⟩ := by
    rw [← hw, e1]
    have h1 : TimeWindow.setStartTime ⟨p + A, p + A + B⟩ (p + A - dl) = ⟨p + A - dl, p + A + B⟩ := by
      unfold TimeWindow.setStartTime
      rw [if_neg (by simp only; omega)]
    simp only [h1]
    unfold TimeWindow.setEndTime
    rw [if_neg (by simp only; omega)]
  refine ⟨_, hs, TimeWindow.Built.ctorLen _ _, ?_, ?_, ?_, ?_, ?_, ?_⟩
  · rw [e1]; simp only; omega
  · rw [e1, e2]
  · rw [e1, e2]
  · rw [e1, sub_mul, ha, hb]
    have : ((b - a : Int) : ℚ) ≤ B := by exact_mod_cast l4
    push_cast at *
    linarith
  · rw [e1, ← hmid]
    unfold centre
    rw [abs_le] at *
    push_cast at *
    constructor <;> linarith [t1.1, t1.2]
  · intro h
    obtain ⟨h1, h2⟩ := h0 h
    subst h1 h2
    rw [e1, ha, hb]
    push_cast
    constructor <;> ring

/-- the parts of the conclusion for a pair of waveforms -/
structure Close (cfg : Config) (late : ℚ) (e1 p1 e2 p2 : Int) (tr1 tr2 : Trace ℝ) (lag : ℚ) (k : ℝ) (i1 i2 n : ℕ) : Prop where
  compared : Compared tr1 tr2 i1 i2 n k
  whole : (cfg.endOffset - cfg.startOffset) * 1000000 ≤ (n + late) * step tr1 + 2
  near : |shift tr1 p1 i1 tr2 p2 i2 - lag * 1000000 - bias cfg (((p2 : ℚ) - e2) - (p1 - e1))| ≤ (3 / 2 + late / 2) * step tr1 + 8
  nearer : late = 0 → cfg.winScaling = 0 → 10 ≤ step tr1 → (∃ N : ℕ, N ≠ 0 ∧ cfg.maxDelay * 1000000 = N * step tr1 ∧
      (Trace.secToDur cfg.maxDelay : ℚ) = cfg.maxDelay * 1000000) →
    |shift tr1 p1 i1 tr2 p2 i2 - lag * 1000000| ≤ step tr1 + 5

theorem bias_sub (c : Config) (x y : ℚ) : bias c x - bias c y = bias c (x - y) := by unfold bias; ring

theorem close_second {cfg : Config} (hc : Settings cfg) {e1 p1 e2 p2 : Int} (h1 : e1 ≤ p1) (h2 : e2 ≤ p2) {tr1 tr2 short : Trace ℝ}
    {w1 w2 : TimeWindow} (hw1 : windowLong cfg e1 p1 = some w1) (hw2 : windowLong cfg e2 p2 = some w2)
    (hsame : tr1.freq = tr2.freq) (hf : 0 < tr1.freq) (hfit : cfg.maxDelay * tr1.freq < 2147483648)
    (hd1 : tr1.data ≠ []) (hd2 : tr2.data ≠ []) {late : ℚ} (hl : 0 ≤ late) (hc1 : Cut tr1 late w1) {s2 : TimeWindow}
    (hs2 : windowShort cfg e2 p2 = some s2) (hsl : tr2.slice s2 = some (true, short)) {lag : ℚ} {k : ℝ}
    (hx : xcorr tr1 short cfg.maxDelay 0 = .ok (lag, .num k)) :
    ∃ i1 i2 n, Close cfg late e1 p1 e2 p2 tr1 tr2 lag k i1 i2 n := by
  obtain ⟨s1, -, -, -, a1, a2, a3, a4, a5⟩ := windows hc h1 hw1
  obtain ⟨s2', hs2', hB, hle, b1, b2, b3, b4, b5⟩ := windows hc h2 hw2
  rw [hs2] at hs2'
  obtain rfl : s2 = s2' := by injection hs2'
  obtain ⟨q1, q2, q3, -, k0, q4, q5, q6⟩ := slice_cut hle hB (hsame ▸ hf) hd2 hsl
  have hcmp : Comparable tr1 short cfg.maxDelay :=
    ⟨hd1, q1, hsame.trans q2.symm, hf, by obtain ⟨_, _, _, _, _, _, h⟩ := hc; exact h, hfit⟩
  obtain ⟨i1, i2, n, m, g1, g2, g3, g4⟩ := xcorr_geometry hcmp hx p1 p2
  have hst : step short = step tr1 := by unfold step; rw [q2, hsame]
  have hst2 : step tr2 = step tr1 := by unfold step; rw [hsame]
  have hp : 0 < step tr1 := by unfold step; positivity
  have hsh : |shift tr1 p1 i1 tr2 p2 (k0 + i2) - shift tr1 p1 i1 short p2 i2| ≤ 1 / 2 := by
    have : shift tr1 p1 i1 tr2 p2 (k0 + i2) - shift tr1 p1 i1 short p2 i2 = -(timeOf short 0 - timeOf tr2 k0) := by
      unfold shift; simp only [timeOf_eq, hst, hst2]; push_cast; ring
    rw [this, abs_neg]; exact q5
  have hlate := mul_nonneg hl hp.le
  have hn1 := hc1.ends
  have hn1' : (tr1.stime : ℚ) ≤ w1.startTime := by exact_mod_cast hc1.starts
  have hn2 := q3.ends
  have hn2' : (short.stime : ℚ) ≤ s2.startTime := by exact_mod_cast q3.starts
  rw [timeOf_eq] at hn1 hn2
  rw [hst] at hn2
  have hD : (0 : ℚ) ≤ Trace.secToDur cfg.maxDelay := by
    have := hcmp.delay
    exact_mod_cast (cround_nonneg (by linarith) : 0 ≤ cround (cfg.maxDelay * 1000000))
  have a1' : (w1.startTime : ℚ) = s1.startTime - Trace.secToDur cfg.maxDelay := by exact_mod_cast a1
  have a2' : (w1.endTime : ℚ) = s1.endTime + Trace.secToDur cfg.maxDelay := by exact_mod_cast a2
  refine ⟨i1, k0 + i2, n, ⟨g2.some, g2.in1, by have := g2.in2; omega, ?_⟩, ?_, ?_, ?_⟩
  · rw [g2.coeff, q6 i2 n g2.in2]
  · rcases Nat.le_total tr1.data.length short.data.length with h | h
    · rw [g3, min_eq_left h]
      nlinarith
    · rw [g3, min_eq_right h]
      nlinarith
  · have key := middles hst hp hl le_rfl hc1 q3 p1 p2 m g1
    rw [← g4] at key
    have hcen : centre w1 p1 = centre s1 p1 := by unfold centre; rw [a1', a2']; ring
    rw [hcen] at key
    have hb := bias_sub cfg ((p2 : ℚ) - e2) (p1 - e1)
    rw [← hb]
    rw [abs_le] at *
    constructor <;> linarith [a4.1, a4.2, b4.1, b4.2, key.1, key.2, hsh.1, hsh.2]
  · rintro rfl hz hten ⟨N, hN, hNs, hDs⟩
    obtain ⟨x1, x2⟩ := a5 hz
    obtain ⟨y1, y2⟩ := b5 hz
    have key := middles_whole hst hten hc1 q3 p1 p2 m g1 (-(N : Int)) (by omega)
      (by rw [a1', hDs, hNs]; push_cast; linarith) (by rw [a2', hDs, hNs]; push_cast; linarith)
    rw [← g4] at key
    rw [abs_le] at *
    constructor <;> linarith [key.1, key.2, hsh.1, hsh.2]

theorem close_first {cfg : Config} (hc : Settings cfg) {e1 p1 e2 p2 : Int} (h1 : e1 ≤ p1) (h2 : e2 ≤ p2) {tr1 tr2 short : Trace ℝ}
    {w1 w2 : TimeWindow} (hw1 : windowLong cfg e1 p1 = some w1) (hw2 : windowLong cfg e2 p2 = some w2)
    (hsame : tr1.freq = tr2.freq) (hf : 0 < tr1.freq) (hfit : cfg.maxDelay * tr1.freq < 2147483648)
    (hd1 : tr1.data ≠ []) (hd2 : tr2.data ≠ []) {late : ℚ} (hl : 0 ≤ late) (hc2 : Cut tr2 late w2) {s1 : TimeWindow}
    (hs1 : windowShort cfg e1 p1 = some s1) (hsl : tr1.slice s1 = some (true, short)) {lag : ℚ} {k : ℝ}
    (hx : xcorr short tr2 cfg.maxDelay 0 = .ok (lag, .num k)) :
    ∃ i1 i2 n, Close cfg late e1 p1 e2 p2 tr1 tr2 lag k i1 i2 n := by
  obtain ⟨s1', hs1', hB, hle, a1, a2, a3, a4, a5⟩ := windows hc h1 hw1
  obtain ⟨s2, -, -, -, b1, b2, b3, b4, b5⟩ := windows hc h2 hw2
  rw [hs1] at hs1'
  obtain rfl : s1 = s1' := by injection hs1'
  obtain ⟨q1, q2, q3, -, k0, q4, q5, q6⟩ := slice_cut hle hB hf hd1 hsl
  have hcmp : Comparable short tr2 cfg.maxDelay :=
    ⟨q1, hd2, q2.trans hsame, q2 ▸ hf, by obtain ⟨_, _, _, _, _, _, h⟩ := hc; exact h, q2 ▸ hfit⟩
  obtain ⟨i1, i2, n, m, g1, g2, g3, g4⟩ := xcorr_geometry hcmp hx p1 p2
  have hst : step short = step tr1 := by unfold step; rw [q2]
  have hst2 : step tr2 = step tr1 := by unfold step; rw [hsame]
  have hst3 : step tr2 = step short := by rw [hst, hst2]
  have hp : 0 < step tr1 := by unfold step; positivity
  have hsh : |shift tr1 p1 (k0 + i1) tr2 p2 i2 - shift short p1 i1 tr2 p2 i2| ≤ 1 / 2 := by
    have : shift tr1 p1 (k0 + i1) tr2 p2 i2 - shift short p1 i1 tr2 p2 i2 = timeOf short 0 - timeOf tr1 k0 := by
      unfold shift; simp only [timeOf_eq, hst, hst2]; push_cast; ring
    rw [this]; exact q5
  have hlate := mul_nonneg hl hp.le
  have hn1 := hc2.ends
  have hn1' : (tr2.stime : ℚ) ≤ w2.startTime := by exact_mod_cast hc2.starts
  have hn2 := q3.ends
  have hn2' : (short.stime : ℚ) ≤ s1.startTime := by exact_mod_cast q3.starts
  rw [timeOf_eq] at hn1 hn2
  rw [hst] at hn2
  rw [hst2] at hn1
  have hD : (0 : ℚ) ≤ Trace.secToDur cfg.maxDelay := by
    have := hcmp.delay
    exact_mod_cast (cround_nonneg (by linarith) : 0 ≤ cround (cfg.maxDelay * 1000000))
  have b1' : (w2.startTime : ℚ) = s2.startTime - Trace.secToDur cfg.maxDelay := by exact_mod_cast b1
  have b2' : (w2.endTime : ℚ) = s2.endTime + Trace.secToDur cfg.maxDelay := by exact_mod_cast b2
  refine ⟨k0 + i1, i2, n, ⟨g2.some, by have := g2.in1; omega, g2.in2, ?_⟩, ?_, ?_, ?_⟩
  · rw [g2.coeff, q6 i1 n g2.in1]
  · rcases Nat.le_total short.data.length tr2.data.length with h | h
    · rw [g3, min_eq_left h]
      nlinarith
    · rw [g3, min_eq_right h]
      nlinarith
  · have key := middles hst3 (hst ▸ hp) le_rfl hl q3 hc2 p1 p2 m g1
    rw [← g4, hst] at key
    have hcen : centre w2 p2 = centre s2 p2 := by unfold centre; rw [b1', b2']; ring
    rw [hcen] at key
    have hb := bias_sub cfg ((p2 : ℚ) - e2) (p1 - e1)
    rw [← hb]
    rw [abs_le] at *
    constructor <;> linarith [a4.1, a4.2, b4.1, b4.2, key.1, key.2, hsh.1, hsh.2]
  · rintro rfl hz hten ⟨N, hN, hNs, hDs⟩
    obtain ⟨x1, x2⟩ := a5 hz
    obtain ⟨y1, y2⟩ := b5 hz
    have key := middles_whole hst3 (hst ▸ hten) q3 hc2 p1 p2 m g1 (N : Int) (by omega)
      (by rw [b1', hDs, hNs, hst]; push_cast; linarith) (by rw [b2', hDs, hNs, hst]; push_cast; linarith)
    rw [← g4, hst] at key
    rw [abs_le] at *
    constructor <;> linarith [key.1, key.2, hsh.1, hsh.2]

/-- the combination of two horizontal components cut to the same window -/
theorem combined_cut {t1 t2 h1 h2 tr : Trace ℝ} {w : TimeWindow} (hB : TimeWindow.Built w) (hf1 : 0 < t1.freq) (hf2 : 0 < t2.freq)
    (hd1 : t1.data ≠ []) (hd2 : t2.data ≠ []) (hs1 : t1.slice w = some (true, h1)) (hs2 : t2.slice w = some (true, h2))
    (h : Waveform.transformL2 h1 h2 = .ok (some tr)) : tr.data ≠ [] ∧ tr.freq = t1.freq ∧ Cut tr 1 w := by
  have hw := TimeWindow.timewindow_never_negative hB
  obtain ⟨a1, a2, a3, ⟨a4, a5, a6⟩, -⟩ := slice_cut hw hB hf1 hd1 hs1
  obtain ⟨b1, b2, b3, ⟨b4, b5, b6⟩, -⟩ := slice_cut hw hB hf2 hd2 hs2
  unfold Waveform.transformL2 at h
  split at h
  · cases h
  rename_i hff
  rw [not_not] at hff
  unfold Waveform.sampleCount at h
  simp only at h
  split at h
  · cases h
  rename_i hcnt
  simp only [Outcome.bind_ok] at h
  split at h
  · cases h
  rename_i hpos
  split at h
  case h_2 => cases h
  injection h with h; injection h with h
  have hf : 0 < h1.freq := a2 ▸ hf1
  obtain ⟨S, hS⟩ : ∃ S, S = max h1.stime h2.stime := ⟨_, rfl⟩
  obtain ⟨E, hE⟩ : ∃ E, E = min h1.endTime h2.endTime := ⟨_, rfl⟩
  rw [← hS, ← hE] at h hpos hcnt
  obtain ⟨n, hn⟩ : ∃ n : ℕ, n = (⌊Trace.durToSec (E - S) * h1.freq⌋ + 1).toNat := ⟨_, rfl⟩
  rw [← hn] at h hpos
  have hfl : ((⌊Trace.durToSec (E - S) * h1.freq⌋ : Int) : ℚ) = (n : ℚ) - 1 := by
    have : ⌊Trace.durToSec (E - S) * h1.freq⌋ = (n : Int) - 1 := by omega
    rw [this]; push_cast; ring
  have f1 := Int.floor_le (Trace.durToSec (E - S) * h1.freq)
  have f2 := Int.lt_floor_add_one (Trace.durToSec (E - S) * h1.freq)
  rw [hfl] at f1 f2
  have hst : step tr = 1000000 / h1.freq := by rw [← h]; rfl
  have hlen : tr.data.length = n := by rw [← h]; simp
  have htS : tr.stime = S := by rw [← h]
  -- the sample `i` in microseconds
  have g1 : ((n : ℚ) - 1) * step tr ≤ (E : ℚ) - S := by
    rw [hst]
    unfold Trace.durToSec at f1
    push_cast at f1
    have := mul_le_mul_of_nonneg_right f1 (show (0 : ℚ) ≤ 1000000 / h1.freq by positivity)
    have e : ((E : ℚ) - S) / 1000000 * h1.freq * (1000000 / h1.freq) = (E : ℚ) - S := by field_simp
    rwa [e] at this
  have g2 : (E : ℚ) - S < n * step tr := by
    rw [hst]
    unfold Trace.durToSec at f2
    push_cast at f2
    have := mul_lt_mul_of_pos_right f2 (show (0 : ℚ) < 1000000 / h1.freq by positivity)
    have e : ((E : ℚ) - S) / 1000000 * h1.freq * (1000000 / h1.freq) = (E : ℚ) - S := by field_simp
    rw [e] at this
    linarith
  have hE1 : (E : ℚ) ≤ h1.endTime := by exact_mod_cast (hE ▸ min_le_left _ _ : E ≤ h1.endTime)
  have hEw : (w.endTime : ℚ) ≤ E := by exact_mod_cast (hE ▸ le_min a4 b4 : w.endTime ≤ E)
  have hS1 : (h1.stime : ℚ) ≤ S := by exact_mod_cast (hS ▸ le_max_left _ _ : h1.stime ≤ S)
  have hs1 : step h1 = step tr := by rw [hst]; rfl
  have at2 := a3.tightly
  rw [timeOf_eq] at at2 a5 a6
  rw [hs1] at at2 a5 a6
  refine ⟨by rw [← List.length_pos_iff, hlen]; omega, by rw [← h, ← a2], ⟨?_, ?_, ?_, ?_⟩⟩
  · rw [htS, hS]; exact max_le a3.starts b3.starts
  · rw [timeOf_eq, htS]; linarith
  · rw [timeOf_eq, htS, hlen]; linarith
  · rw [timeOf_eq, htS, hlen]; linarith

end Verif.LagSpec
