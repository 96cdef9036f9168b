import Verif.Model.TimeWindow
import Mathlib.Order.Interval.Set.Basic
import Mathlib.Algebra.Order.Group.Int
import Mathlib.Order.Lattice
import Mathlib.Tactic.Common

/-!
# C05: time windows

`Built w` = "some sequence of constructor and member calls produces `w`".  The meaning of a window
is the set of instants `t` with `startTime ≤ t ≤ endTime` (`instants`).
-/

namespace Verif.TimeWindow

/-- every window a program can build through the public API -/
inductive Built : TimeWindow → Prop where
  | default : Built TimeWindow.default
  | ctor (s e : Int) : Built (mk' s e)
  | ctorLen (s l : Int) : Built (ofLength s l)
  | setStartTime {w} (h : Built w) (t : Int) : Built (w.setStartTime t)
  | setEndTime {w} (h : Built w) (t : Int) : Built (w.setEndTime t)
  | set {w} (h : Built w) (s e : Int) : Built (w.set s e)
  | trim {w} (h : Built w) (a b : Int) : Built (w.trim a b)
  | extend {w} (h : Built w) (a b : Int) : Built (w.extend a b)
  | merge {w o} (h : Built w) (h' : Built o) : Built (w.merge o)
  | overlap {w o} (h : Built w) (h' : Built o) : Built (w.overlap o)

/-- the instants covered by a window -/
def instants (w : TimeWindow) : Set Int := Set.Icc w.startTime w.endTime

/-- **C05a.** No sequence of operations produces a window that ends before it starts. -/
theorem timewindow_never_negative {w : TimeWindow} (h : Built w) : w.startTime ≤ w.endTime := by
  induction h with
  | default => simp [TimeWindow.default]
  | ctor s e => unfold mk' setEndTime; split <;> simp_all
  | ctorLen s l => unfold ofLength mk' setEndTime; split <;> simp_all
  | setStartTime _ t ih => unfold TimeWindow.setStartTime; split <;> simp_all
  | setEndTime _ t ih => unfold TimeWindow.setEndTime; split <;> simp_all
  | set _ s e ih => unfold TimeWindow.set TimeWindow.setEndTime; split <;> simp_all
  | trim _ a b ih => unfold TimeWindow.trim mk' TimeWindow.setEndTime; split <;> simp_all
  | extend _ a b ih => unfold TimeWindow.extend mk' TimeWindow.setEndTime; split <;> simp_all
  | @merge w o _ _ ih ih' =>
    unfold TimeWindow.merge TimeWindow.setStartTime TimeWindow.setEndTime
    simp only
    repeat' split
    all_goals simp_all <;> omega
  | overlap _ _ ih ih' => unfold TimeWindow.overlap mk' TimeWindow.setEndTime; split <;> simp_all

example : Built ((mk' 5 3).extend (-2) 0) ∧ (mk' 5 3).extend (-2) 0 = ⟨7, 7⟩ :=
  ⟨(Built.ctor 5 3).extend _ _, by decide⟩

/-- What the constructors and setters do: the requested end is used unless it lies before the
start, in which case the window is the single instant at its start; moving the start beyond the
end moves the end with it. -/
theorem timewindow_setters (w : TimeWindow) (s e : Int) (hw : w.startTime ≤ w.endTime) :
    (s ≤ e → mk' s e = ⟨s, e⟩) ∧ (e < s → mk' s e = ⟨s, s⟩) ∧
    (w.set s e = mk' s e) ∧
    (w.setStartTime s).startTime = s ∧ (w.setStartTime s).endTime = max s w.endTime ∧
    (w.setEndTime e).startTime = w.startTime ∧ (w.setEndTime e).endTime = max w.startTime e := by
  refine ⟨?_, ?_, ?_, ?_, ?_, ?_, ?_⟩
  · intro h; unfold mk' setEndTime; rw [if_neg (by simp; omega)]
  · intro h; unfold mk' setEndTime; rw [if_pos (by simpa using h)]
  · unfold TimeWindow.set TimeWindow.setStartTime mk' setEndTime; simp only
    repeat' split
    all_goals simp_all
  · unfold TimeWindow.setStartTime; split <;> rfl
  · unfold TimeWindow.setStartTime; split <;> simp_all [max_def] <;> omega
  · unfold TimeWindow.setEndTime; split <;> rfl
  · unfold TimeWindow.setEndTime; split <;> simp_all [max_def] <;> omega

/-- **C05b.** `contains` is membership / set inclusion. -/
theorem timewindow_contains {w o : TimeWindow} (ho : Built o) (t : Int) :
    (w.containsTime t = true ↔ t ∈ instants w) ∧
    (w.contains o = true ↔ instants o ⊆ instants w) := by
  have h2 := timewindow_never_negative ho
  refine ⟨by simp [containsTime, instants], ?_⟩
  unfold instants
  rw [Set.Icc_subset_Icc_iff h2]
  simp [contains]

/-- **C05c.** `overlap` is the intersection when the windows meet and an `empty()` window
otherwise; `overlaps` holds exactly when the windows share at least two instants. -/
theorem timewindow_overlap {w o : TimeWindow} (hw : Built w) (ho : Built o) :
    ((instants w ∩ instants o).Nonempty → instants (w.overlap o) = instants w ∩ instants o) ∧
    (instants w ∩ instants o = ∅ → (w.overlap o).empty = true) ∧
    (w.overlaps o = true ↔ ∃ s t, s < t ∧ s ∈ instants w ∧ s ∈ instants o ∧ t ∈ instants w ∧
      t ∈ instants o) := by
  have h1 := timewindow_never_negative hw
  have h2 := timewindow_never_negative ho
  have hov : w.overlap o = mk' (max w.startTime o.startTime) (min w.endTime o.endTime) := rfl
  have hset := timewindow_setters w (max w.startTime o.startTime) (min w.endTime o.endTime) h1
  rcases le_or_gt (max w.startTime o.startTime) (min w.endTime o.endTime) with hle | hgt
  · rw [hset.1 hle] at hov
    refine ⟨?_, ?_, ?_⟩
    · intro _; rw [hov]; unfold instants; simp only; rw [Set.Icc_inter_Icc]
    · intro hempty
      exfalso
      have : max w.startTime o.startTime ∈ instants w ∩ instants o := by
        simp only [instants, Set.mem_inter_iff, Set.mem_Icc]
        omega
      rw [hempty] at this; exact this
    · unfold overlaps; rw [hov]
      simp only [empty, instants, Set.mem_Icc, Bool.not_eq_true', decide_eq_false_iff_not]
      constructor
      · intro hne
        refine ⟨max w.startTime o.startTime, min w.endTime o.endTime, by omega, ?_, ?_, ?_, ?_⟩ <;>
          omega
      · rintro ⟨s, t, hst, hs1, hs2, ht1, ht2⟩; omega
  · rw [hset.2.1 hgt] at hov
    refine ⟨?_, ?_, ?_⟩
    · rintro ⟨t, ht⟩
      exfalso
      simp only [instants, Set.mem_inter_iff, Set.mem_Icc] at ht; omega
    · intro _; rw [hov]; simp [empty]
    · unfold overlaps; rw [hov]
      simp only [empty, decide_true, Bool.not_true, instants, Set.mem_Icc]
      constructor
      · intro h; cases h
      · rintro ⟨s, t, hst, hs1, hs2, ht1, ht2⟩; omega

example : Built (mk' 0 10) ∧ Built (mk' 4 20) ∧ (mk' 0 10).overlap (mk' 4 20) = ⟨4, 10⟩ :=
  ⟨.ctor _ _, .ctor _ _, by decide⟩

/-- **C05d.** `merge` is the smallest window containing both. -/
theorem timewindow_merge {w o : TimeWindow} (hw : Built w) (ho : Built o) :
    instants w ⊆ instants (w.merge o) ∧ instants o ⊆ instants (w.merge o) ∧
    ∀ u, Built u → instants w ⊆ instants u → instants o ⊆ instants u →
      instants (w.merge o) ⊆ instants u := by
  have h1 := timewindow_never_negative hw
  have h2 := timewindow_never_negative ho
  have hm : w.merge o = ⟨min w.startTime o.startTime, max w.endTime o.endTime⟩ := by
    unfold TimeWindow.merge TimeWindow.setStartTime TimeWindow.setEndTime
    cases w; cases o
    simp only at *
    repeat' split
    all_goals simp_all <;> omega
  rw [hm]
  unfold instants
  simp only
  refine ⟨?_, ?_, ?_⟩
  · rw [Set.Icc_subset_Icc_iff h1]; omega
  · rw [Set.Icc_subset_Icc_iff h2]; omega
  · intro u _ k1 k2
    rw [Set.Icc_subset_Icc_iff h1] at k1
    rw [Set.Icc_subset_Icc_iff h2] at k2
    rw [Set.Icc_subset_Icc_iff (by omega)]; omega

example : (mk' 0 10).merge (mk' 40 50) = ⟨0, 50⟩ := by decide

/-- **C05e.** Extending by non-negative amounts gives exactly the window with the limits moved
outwards, trimming the one with the limits moved inwards (or a single instant); trimming what was
extended restores the window. -/
theorem timewindow_extend {w : TimeWindow} (hw : Built w) {a b : Int} (ha : 0 ≤ a) (hb : 0 ≤ b) :
    instants w ⊆ instants (w.extend a b) ∧
    (w.extend a b).startTime = w.startTime - a ∧ (w.extend a b).endTime = w.endTime + b ∧
    (w.extend a b).trim a b = w ∧ instants (w.trim a b) ⊆ instants w ∪ {w.startTime + a} := by
  have h1 := timewindow_never_negative hw
  have he : w.extend a b = ⟨w.startTime - a, w.endTime + b⟩ :=
    (timewindow_setters w _ _ h1).1 (by omega)
  refine ⟨?_, by rw [he], by rw [he], ?_, ?_⟩
  · rw [he]; unfold instants; rw [Set.Icc_subset_Icc_iff h1]; simp only; omega
  · rw [he]; unfold TimeWindow.trim; simp only
    rw [(timewindow_setters w _ _ h1).1 (by omega)]
    cases w; simp
  · intro t ht
    unfold TimeWindow.trim instants mk' setEndTime at ht
    simp only [instants, Set.mem_union, Set.mem_Icc, Set.mem_singleton_iff]
    simp only at ht
    split at ht <;> simp only [Set.mem_Icc] at ht <;> omega

example : Built (mk' 0 10) ∧ (mk' 0 10).extend 1 2 = ⟨-1, 12⟩ := ⟨.ctor _ _, by decide⟩

/-- **C05f.** Two windows with a positive length are `contiguous` exactly when they have a single instant in common;
the relation is symmetric. -/
theorem timewindow_contiguous {w o : TimeWindow} (hw : w.startTime < w.endTime) (ho : o.startTime < o.endTime) :
    (w.contiguous o = true ↔ ∃ t, instants w ∩ instants o = {t}) ∧ w.contiguous o = o.contiguous w := by
  refine ⟨?_, ?_⟩
  · simp only [contiguous, decide_eq_true_eq, instants, Set.Icc_inter_Icc]
    constructor
    · rintro (h | h)
      · refine ⟨w.endTime, ?_⟩
        ext t
        simp only [Set.mem_Icc, Set.mem_singleton_iff]
        omega
      · refine ⟨w.startTime, ?_⟩
        ext t
        simp only [Set.mem_Icc, Set.mem_singleton_iff]
        omega
    · rintro ⟨t, ht⟩
      have h1 : t ∈ Set.Icc (max w.startTime o.startTime) (min w.endTime o.endTime) := by rw [ht]; rfl
      have h2 : ∀ x, x ∈ Set.Icc (max w.startTime o.startTime) (min w.endTime o.endTime) → x = t := by
        intro x hx; rw [ht] at hx; exact hx
      have h3 := h2 (max w.startTime o.startTime) (by simp only [Set.mem_Icc] at h1 ⊢; omega)
      have h4 := h2 (min w.endTime o.endTime) (by simp only [Set.mem_Icc] at h1 ⊢; omega)
      omega
  · simp only [contiguous, decide_eq_decide]
    omega

example : (mk' 1 3).contiguous (mk' 3 4) = true ∧ (mk' 3 4).contiguous (mk' 1 3) = true ∧ (mk' 1 3).contiguous (mk' 2 4) = false := by
  decide

end Verif.TimeWindow
