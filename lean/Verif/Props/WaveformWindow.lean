import Verif.Props.BatchLoader
import Verif.Props.UtcTime

set_option linter.unusedSimpArgs false

/-!
# C40: the window loaded for a request
-/

namespace Verif.Waveform
open Verif.Catalog (Phase Event Station)

theorem usec_pos_iff {t : Int} (h : (Utc.toDate t).usec > 0) : 0 < t ∧ t % 1000000 ≠ 0 ∧
    Utc.timegm (Utc.toDate t).date (Utc.toDate t).hour (Utc.toDate t).min (Utc.toDate t).sec = t / 1000000 := by
  have hu : (Utc.toDate t).usec = t - t.tdiv 1000000 * 1000000 := rfl
  have ht : 0 < t := by
    rcases lt_or_ge 0 t with h0 | h0
    · exact h0
    · exfalso
      have : t.tdiv 1000000 = -((-t).tdiv 1000000) := by rw [Int.neg_tdiv]; omega
      rw [this, Int.tdiv_eq_ediv_of_nonneg (by omega)] at hu
      omega
  have hd : t.tdiv 1000000 = t / 1000000 := Int.tdiv_eq_ediv_of_nonneg (by omega)
  refine ⟨ht, by omega, ?_⟩
  rw [Utc.toDate_time]
  exact hd

theorem usec_nonpos_iff {t : Int} (h : ¬ (Utc.toDate t).usec > 0) : t ≤ 0 ∨ t % 1000000 = 0 := by
  have hu : (Utc.toDate t).usec = t - t.tdiv 1000000 * 1000000 := rfl
  rcases lt_or_ge 0 t with h0 | h0
  · right
    have hd : t.tdiv 1000000 = t / 1000000 := Int.tdiv_eq_ediv_of_nonneg (by omega)
    omega
  · exact Or.inl h0

/-- start rounded down to the second, if after 1970 -/
def down (t : Int) : Int := if 0 < t then t / 1000000 * 1000000 else t
/-- end rounded up to the second, if after 1970 -/
def up (t : Int) : Int := if 0 < t then -(-t / 1000000) * 1000000 else t

/-- What is loaded, for all inputs: it is never an exception. -/
theorem windowToLoad_eq (before after : Int) (needed : TimeWindow) (hn : needed.startTime ≤ needed.endTime) (pick : Int) :
    windowToLoad before after needed pick =
      .ok ⟨down (min (pick - before) needed.startTime), up (max (max (pick - before) (pick + after)) needed.endTime)⟩ := by
  have hm : (TimeWindow.mk' (pick - before) (pick + after)).merge needed =
      ⟨min (pick - before) needed.startTime, max (max (pick - before) (pick + after)) needed.endTime⟩ := by
    unfold TimeWindow.mk' TimeWindow.merge TimeWindow.setEndTime TimeWindow.setStartTime
    obtain ⟨ns, ne⟩ := needed
    simp only at hn ⊢
    repeat' split
    all_goals (simp only [TimeWindow.mk.injEq] at *; omega)
  unfold windowToLoad
  rw [hm]
  generalize hs : min (pick - before) needed.startTime = s
  generalize he : max (max (pick - before) (pick + after)) needed.endTime = e
  have hse : s ≤ e := by omega
  simp only [bind, Outcome.bind]
  have step1 : (if (Utc.toDate s).usec > 0 then
      (Utc.fromDate { Utc.toDate s with usec := 0 }).bind fun t => Outcome.ok (TimeWindow.setStartTime ⟨s, e⟩ t)
      else Outcome.ok ⟨s, e⟩) = Outcome.ok ⟨down s, e⟩ := by
    by_cases hu : (Utc.toDate s).usec > 0
    · rw [if_pos hu]
      obtain ⟨h1, h2, h3⟩ := usec_pos_iff hu
      unfold Utc.fromDate
      simp only [h3]
      rw [if_neg (by omega)]
      simp only [Outcome.bind, TimeWindow.setStartTime, down]
      rw [if_pos h1, if_neg (by omega)]
      simp
    · rw [if_neg hu]
      have := usec_nonpos_iff hu
      have : down s = s := by unfold down; split <;> omega
      rw [this]
  have step2 : (if (Utc.toDate e).usec > 0 then
      (Utc.fromDate { Utc.toDate e with sec := (Utc.toDate e).sec + 1, usec := 0 }).bind
        fun t => Outcome.ok (TimeWindow.setEndTime ⟨down s, e⟩ t)
      else Outcome.ok ⟨down s, e⟩) = Outcome.ok ⟨down s, up e⟩ := by
    by_cases hu : (Utc.toDate e).usec > 0
    · rw [if_pos hu]
      obtain ⟨h1, h2, h3⟩ := usec_pos_iff hu
      have h4 : Utc.timegm (Utc.toDate e).date (Utc.toDate e).hour (Utc.toDate e).min ((Utc.toDate e).sec + 1) =
          e / 1000000 + 1 := by
        rw [← h3]; unfold Utc.timegm; omega
      unfold Utc.fromDate
      simp only [h4]
      rw [if_neg (by omega)]
      simp only [Outcome.bind, TimeWindow.setEndTime]
      have hd : down s ≤ s := by unfold down; split <;> omega
      rw [if_neg (by omega)]
      have : up e = (e / 1000000 + 1) * 1000000 + 0 := by unfold up; rw [if_pos h1]; omega
      rw [this]
    · rw [if_neg hu]
      have := usec_nonpos_iff hu
      have : up e = e := by unfold up; split <;> omega
      rw [this]
  simp only [bind, Outcome.bind] at step1 step2
  rw [step1]
  exact step2

/-- **C40a.** For every request window built by the API, every pick time and all configured lengths, before or
after 1970, a window is loaded (no exception), and it contains the requested window and the configured
time before and after the pick. -/
theorem load_window_contains (before after : Int) (needed : TimeWindow) (hn : TimeWindow.Built needed) (pick : Int) :
    ∃ w, windowToLoad before after needed pick = .ok w ∧
      (∀ t, needed.startTime ≤ t → t ≤ needed.endTime → w.startTime ≤ t ∧ t ≤ w.endTime) ∧
      (∀ t, pick - before ≤ t → t ≤ pick + after → w.startTime ≤ t ∧ t ≤ w.endTime) ∧ w.startTime ≤ w.endTime := by
  have hn := TimeWindow.timewindow_never_negative hn
  refine ⟨_, windowToLoad_eq before after needed hn pick, ?_⟩
  simp only
  have h1 : ∀ x, down x ≤ x := by intro x; unfold down; split <;> omega
  have h2 : ∀ x, x ≤ up x := by intro x; unfold up; split <;> omega
  have h1 := h1 (min (pick - before) needed.startTime)
  have h2 := h2 (max (max (pick - before) (pick + after)) needed.endTime)
  refine ⟨fun t _ _ => ?_, fun t _ _ => ?_, ?_⟩ <;> omega

/-- **C40b.** From 1970 on, the window loaded starts and ends on full seconds, and it is the smallest such
window: less than a second is added at either end.  Missing for the full C40: times before 1970, for
which it is false, see below. -/
theorem load_window_aligned_partial (before after : Int) (needed : TimeWindow) (hn : TimeWindow.Built needed) (pick : Int)
    (h0 : 0 ≤ needed.startTime) (h1 : 0 ≤ pick - before) (w : TimeWindow) (hw : windowToLoad before after needed pick = .ok w) :
    w.startTime % 1000000 = 0 ∧ w.endTime % 1000000 = 0 ∧
    min (pick - before) needed.startTime - 1000000 < w.startTime ∧
    w.endTime < max (max (pick - before) (pick + after)) needed.endTime + 1000000 := by
  have hn := TimeWindow.timewindow_never_negative hn
  rw [windowToLoad_eq before after needed hn pick] at hw
  injection hw with hw
  subst hw
  simp only
  generalize hs : min (pick - before) needed.startTime = s
  generalize he : max (max (pick - before) (pick + after)) needed.endTime = e
  have hs0 : 0 ≤ s := by omega
  have he0 : 0 ≤ e := by omega
  unfold down up
  split <;> split <;> omega

/-- pick at 10.25 s, 2 s before and 3.5 s after it, 9.8 s to 11.2 s needed -/
example : TimeWindow.Built (TimeWindow.mk' 9800000 11200000) ∧
    windowToLoad 2000000 3500000 (TimeWindow.mk' 9800000 11200000) 10250000 = .ok ⟨8000000, 14000000⟩ :=
  ⟨.ctor _ _, by decide +kernel⟩

/-- **C40 as stated is false before 1970**: nothing is rounded. -/
theorem load_window_not_aligned_before_1970 :
    windowToLoad 2000000 3500000 (TimeWindow.mk' (-9800000) (-9200000)) (-9500001) = .ok ⟨-11500001, -6000001⟩ := by
  decide +kernel

/-- **C40c.** What the loader with extra length returns covers the requested window, whenever what it gets covers
the window it asks for. -/
theorem extra_len_covers {D α : Type} (before after : Int) (aux : TimeWindow → Phase D → Option (Trace α)) (tw : TimeWindow)
    (htw : TimeWindow.Built tw) (ph : Phase D)
    (haux : ∀ w t, aux w ph = some t → 0 < t.freq ∧ t.stime ≤ w.startTime ∧ w.endTime ≤ t.endTime) :
    ∃ r, extraLenGet before after aux tw ph = .ok r ∧
      ∀ t, r = some t → t.stime ≤ tw.startTime ∧ tw.endTime ≤ t.endTime := by
  obtain ⟨w, hw, _⟩ := load_window_contains before after tw htw ph.time
  unfold extraLenGet
  rw [hw]
  simp only [Outcome.bind_ok]
  cases ha : aux w ph with
  | none => exact ⟨none, rfl, fun t h => by cases h⟩
  | some t =>
    obtain ⟨hf, h1, h2⟩ := haux w t ha
    by_cases he : w = tw
    · subst he
      refine ⟨some t, by simp, fun t' h => ?_⟩
      injection h with h; subst h; exact ⟨h1, h2⟩
    · simp only [ne_eq, he, not_false_eq_true, if_true]
      obtain ⟨ok, t', hs, _, h3⟩ := Trace.trace_slice_sound t tw htw hf
      unfold sliced
      rw [hs]
      cases ok with
      | true =>
        obtain ⟨_, e2, e3, _⟩ := h3 rfl
        refine ⟨some t', rfl, fun t'' h => ?_⟩
        injection h with h; subst h; exact ⟨e2, e3⟩
      | false => exact ⟨none, rfl, fun t h => by cases h⟩

end Verif.Waveform

namespace Verif.Waveform

/-- the hypotheses are met by a loader that has seven samples, one per second from 8 s on -/
example : (∀ w t, (fun (w : TimeWindow) (_ : Catalog.Phase Nat) =>
      if w = ⟨8000000, 14000000⟩ then some (⟨8000000, 1, [1, 2, 3, 4, 5, 6, 7]⟩ : Trace Nat) else none) w
        (⟨1, "", 10250000, 0, 0, "P", "CH", "A", "", "HHZ", .P, 0, .catalog, false, 0, 0, 0⟩ : Catalog.Phase Nat) = some t →
      0 < t.freq ∧ t.stime ≤ w.startTime ∧ w.endTime ≤ t.endTime) ∧
    extraLenGet 2000000 3500000 (fun (w : TimeWindow) (_ : Catalog.Phase Nat) =>
      if w = ⟨8000000, 14000000⟩ then some (⟨8000000, 1, [1, 2, 3, 4, 5, 6, 7]⟩ : Trace Nat) else none) (TimeWindow.mk' 9800000 11200000)
        ⟨1, "", 10250000, 0, 0, "P", "CH", "A", "", "HHZ", .P, 0, .catalog, false, 0, 0, 0⟩ =
      .ok (some ⟨9000000, 1, [2, 3, 4, 5]⟩) := by
  constructor
  · intro w t h
    simp only at h
    split at h
    · rename_i hw
      injection h with h
      subst h; subst hw
      refine ⟨by norm_num, by decide, by decide +kernel⟩
    · cases h
  · decide +kernel

end Verif.Waveform
