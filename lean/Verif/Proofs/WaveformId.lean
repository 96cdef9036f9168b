import Verif.Model.Waveform
import Verif.Props.UtcTime
import Verif.Props.Trace
import Verif.Base.Text

/-! Helper lemmas about waveform ids (C37, C38). -/

namespace Verif.Utc

theorem padDigits_char (w n : Nat) {c : Char} (hc : c ∈ padDigits w n) : ∃ d, c = digitChar d := by
  induction w generalizing n with
  | zero => simp [padDigits] at hc
  | succ w ih =>
    simp only [padDigits, List.mem_append, List.mem_singleton] at hc
    rcases hc with h | h
    · exact ih _ h
    · exact ⟨_, h⟩

theorem digitChar_ne_Z (d : Nat) : digitChar d ≠ 'Z' ∧ digitChar d ≠ '/' := by
  unfold digitChar; split <;> decide

theorem printNat_noZ (w n : Nat) : 'Z' ∉ printNat w n := by
  intro h
  have : ∃ w, 'Z' ∈ padDigits w n := by
    unfold printNat at h; split at h
    · exact ⟨_, h⟩
    · exact ⟨_, (List.dropWhile_sublist _).mem h⟩
  obtain ⟨w, h⟩ := this
  obtain ⟨d, hd⟩ := padDigits_char _ _ h
  exact (digitChar_ne_Z d).1 hd.symm

theorem printInt_noZ (w : Nat) (n : Int) : 'Z' ∉ printInt w n := by
  unfold printInt
  split
  · simp [printNat_noZ]
  · exact printNat_noZ _ _

theorem trimZeros_noZ {l : List Char} (h : 'Z' ∉ l) : 'Z' ∉ trimZeros l := by
  unfold trimZeros
  intro hc
  rw [List.mem_reverse] at hc
  exact h (List.mem_reverse.1 ((List.dropWhile_sublist _).mem hc))

/-- The text of a time ends in `Z`, which occurs nowhere else in it. -/
theorem toString_eq (t : Int) : ∃ body, toString t = body ++ ['Z'] ∧ 'Z' ∉ body := by
  unfold toString
  simp only
  refine ⟨printInt 4 (toDate t).date.year ++ '-' :: (printInt 2 (toDate t).date.month ++ '-' :: (printInt 2 (toDate t).date.day ++
    'T' :: (printInt 2 (toDate t).hour ++ ':' :: (printInt 2 (toDate t).min ++ ':' :: (printInt 2 (toDate t).sec ++
    '.' :: (if (toDate t).usec = 0 then ['0', '0', '0', '0'] else trimZeros (printInt 6 (toDate t).usec))))))), ?_, ?_⟩
  · simp
  · simp only [List.mem_append, List.mem_cons, not_or]
    refine ⟨printInt_noZ _ _, by decide, printInt_noZ _ _, by decide, printInt_noZ _ _, by decide,
      printInt_noZ _ _, by decide, printInt_noZ _ _, by decide, printInt_noZ _ _, by decide, ?_⟩
    split
    · decide
    · exact trimZeros_noZ (printInt_noZ _ _)

end Verif.Utc

namespace Verif.Waveform

/-- The codes before the times can be read off an id, for codes without a dot, and so can the text of
the two times. -/
theorem waveformId_inj {tw tw' : TimeWindow} {n s l c n' s' l' c' : List Char}
    (hn : '.' ∉ n) (hs : '.' ∉ s) (hl : '.' ∉ l) (hc : '.' ∉ c)
    (hn' : '.' ∉ n') (hs' : '.' ∉ s') (hl' : '.' ∉ l') (hc' : '.' ∉ c')
    (h : waveformId tw n s l c = waveformId tw' n' s' l' c') :
    n = n' ∧ s = s' ∧ l = l' ∧ c = c' ∧ Utc.toString tw.startTime = Utc.toString tw'.startTime ∧
      Utc.toString tw.endTime = Utc.toString tw'.endTime := by
  unfold waveformId at h
  obtain ⟨h1, h⟩ := sep_inj hn hn' h
  obtain ⟨h2, h⟩ := sep_inj hs hs' h
  obtain ⟨h3, h⟩ := sep_inj hl hl' h
  obtain ⟨h4, h⟩ := sep_inj hc hc' h
  obtain ⟨b, e, hb⟩ := Utc.toString_eq tw.startTime
  obtain ⟨b', e', hb'⟩ := Utc.toString_eq tw'.startTime
  rw [e, e'] at h
  simp only [List.append_assoc, List.cons_append, List.nil_append] at h
  obtain ⟨h5, h⟩ := sep_inj hb hb' h
  simp only [List.cons.injEq, true_and] at h
  exact ⟨h1, h2, h3, h4, by rw [e, e', h5], h⟩

end Verif.Waveform
