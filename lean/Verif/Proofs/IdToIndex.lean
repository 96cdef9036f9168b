import Verif.Model.IdToIndex
import Mathlib.Data.Finset.Card
import Mathlib.Data.List.Induction

set_option linter.unusedSectionVars false
set_option linter.unusedSimpArgs false

namespace Verif.IdToIndex
variable {T : Type} [DecidableEq T]

/-- distinct ids in order of first use -/
def firstUses (ids : List T) : List T := ids.foldl (fun acc x => if x ∈ acc then acc else acc ++ [x]) []

theorem firstUses_snoc (ids : List T) (x : T) :
    firstUses (ids ++ [x]) = if x ∈ firstUses ids then firstUses ids else firstUses ids ++ [x] := by
  unfold firstUses; rw [List.foldl_append]; rfl

theorem mem_firstUses (ids : List T) (x : T) : x ∈ firstUses ids ↔ x ∈ ids := by
  induction ids using List.reverseRecOn with
  | nil => simp [firstUses]
  | append_singleton ids y ih =>
    rw [firstUses_snoc]
    split
    · rename_i h
      simp only [List.mem_append, List.mem_singleton, ih]
      constructor
      · exact .inl
      · rintro (h' | rfl)
        · exact h'
        · exact ih' h
    · simp [ih]
where
  ih' {ids : List T} {y : T} (h : y ∈ firstUses ids) : y ∈ ids := by
    induction ids using List.reverseRecOn with
    | nil => simp [firstUses] at h
    | append_singleton ids z ih =>
      rw [firstUses_snoc] at h
      split at h
      · exact List.mem_append_left _ (ih h)
      · rcases List.mem_append.1 h with h | h
        · exact List.mem_append_left _ (ih h)
        · exact List.mem_append_right _ h

theorem nodup_firstUses (ids : List T) : (firstUses ids).Nodup := by
  induction ids using List.reverseRecOn with
  | nil => simp [firstUses]
  | append_singleton ids y ih =>
    rw [firstUses_snoc]
    split
    · exact ih
    · rename_i h; rw [List.nodup_append]; simp [ih]; intro a ha hay; subst hay; exact h ha

theorem length_firstUses (ids : List T) : (firstUses ids).length = ids.toFinset.card := by
  rw [← List.toFinset_card_of_nodup (nodup_firstUses ids)]
  congr 1
  ext x
  simp [mem_firstUses]

theorem takeWhile_self_iff {p : T → Bool} {l : List T} : l.takeWhile p = l ↔ ∀ x ∈ l, p x = true := by
  induction l with
  | nil => simp
  | cons a l ih => by_cases h : p a = true <;> simp [h, ih]

/-- position of an id = number of distinct ids used before it -/
theorem idxOf_firstUses (ids : List T) (x : T) (hx : x ∈ ids) :
    (firstUses ids).idxOf x = ((ids.takeWhile (· ≠ x)).toFinset).card := by
  induction ids using List.reverseRecOn with
  | nil => simp at hx
  | append_singleton ids y ih =>
    by_cases h : x ∈ ids
    · have htw : (ids ++ [y]).takeWhile (· ≠ x) = ids.takeWhile (· ≠ x) := by
        rw [List.takeWhile_append]
        split
        · rename_i hl
          exfalso
          have hall := (List.takeWhile_prefix (p := fun z => decide (z ≠ x)) (l := ids)).eq_of_length hl
          rw [takeWhile_self_iff] at hall
          simpa using hall x h
        · rfl
      rw [htw, ← ih h, firstUses_snoc]
      split
      · rfl
      · rw [List.idxOf_append_of_mem ((mem_firstUses ids x).2 h)]
    · have hxy : x = y := by simpa [h] using hx
      subst hxy
      have htw : (ids ++ [x]).takeWhile (· ≠ x) = ids := by
        rw [List.takeWhile_append, takeWhile_self_iff.2]
        · simp
        · intro z hz; simp; rintro rfl; exact h hz
      rw [htw, firstUses_snoc, if_neg (fun h' => h ((mem_firstUses _ _).1 h')),
        List.idxOf_append_of_notMem (fun h' => h ((mem_firstUses _ _).1 h')), length_firstUses]
      simp

/-- Invariant linking the two maps to the list of distinct ids. -/
structure Inv (m : IdToIndex T) (L : List T) : Prop where
  current : m.current = L.length % uintMod
  fwd : ∀ x, m.fwd.find? x = if x ∈ L then some (L.idxOf x) else none
  frm : ∀ i, m.frm.find? i = L[i]?
  size : m.fwd.length = L.length

theorem inv_run (ids : List T) (hb : ids.toFinset.card ≤ uintMod) : Inv (run ids) (firstUses ids) := by
  induction ids using List.reverseRecOn with
  | nil => exact ⟨rfl, by simp [run, init, firstUses], by simp [run, init, firstUses], rfl⟩
  | append_singleton ids y ih =>
    have hb' : ids.toFinset.card ≤ uintMod :=
      le_trans (Finset.card_le_card (by intro z hz; simp at hz ⊢; exact .inr hz)) hb
    have ih := ih hb'
    have hrun : run (ids ++ [y]) = ((run ids).convert y).1 := by simp [run, List.foldl_append]
    rw [hrun, firstUses_snoc]
    unfold convert
    rw [ih.fwd]
    by_cases h : y ∈ firstUses ids
    · simp only [if_pos h]; exact ih
    · simp only [if_neg h]
      have hlen : (firstUses ids).length < uintMod := by
        have : (firstUses (ids ++ [y])).length = (firstUses ids).length + 1 := by
          rw [firstUses_snoc, if_neg h]; simp
        rw [length_firstUses (ids ++ [y])] at this
        omega
      have hcur : (run ids).current = (firstUses ids).length := by
        rw [ih.current, Nat.mod_eq_of_lt hlen]
      refine ⟨?_, ?_, ?_, ?_⟩
      · simp [hcur]
      · intro x
        simp only [AMap.find?_set, ih.fwd, hcur]
        by_cases hx : x = y
        · subst hx
          simp [List.idxOf_append_of_notMem h]
        · by_cases hx' : x ∈ firstUses ids
          · simp [hx, hx', List.idxOf_append_of_mem hx']
          · simp [hx, hx']
      · intro i
        simp only [AMap.find?_set, ih.frm, hcur]
        rcases lt_trichotomy i (firstUses ids).length with hi | hi | hi
        · rw [if_neg (by omega), List.getElem?_append_left hi]
        · subst hi; simp
        · rw [if_neg (by omega), List.getElem?_eq_none (by omega), List.getElem?_eq_none (by simp; omega)]
      · have hnone : (run ids).fwd.find? y = none := by rw [ih.fwd, if_neg h]
        simp only [AMap.set, List.length_cons, List.length_append, List.length_singleton]
        have her : (run ids).fwd.erase y = (run ids).fwd := ?_
        · rw [her, ih.size]; rfl
        apply List.filter_eq_self.2
        intro p hp
        simp only [ne_eq, decide_not, Bool.not_eq_eq_eq_not, Bool.not_true, decide_eq_false_iff_not]
        intro hpy
        have : y ∈ (run ids).fwd.keys := List.mem_map.2 ⟨p, hp, hpy⟩
        rw [← AMap.find?_isSome, hnone] at this
        cases this

end Verif.IdToIndex
