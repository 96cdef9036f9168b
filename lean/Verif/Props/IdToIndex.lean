import Verif.Proofs.IdToIndex

/-!
# C15: event/station/phase indices

Quantified over every sequence of `convert` calls (with at most 2³² distinct ids: `unsigned`).
-/

namespace Verif.IdToIndex
variable {T : Type} [DecidableEq T]

/-- **C15a.** An id used in the history has as index the number of distinct ids used before it. -/
theorem index_in_order_of_first_use (ids : List T) (hb : ids.toFinset.card ≤ uintMod) (x : T)
    (hx : x ∈ ids) :
    (run ids).toIdx x = .ok ((ids.takeWhile (· ≠ x)).toFinset).card := by
  have := (inv_run ids hb).fwd x
  unfold toIdx
  rw [this, if_pos ((mem_firstUses ids x).2 hx), idxOf_firstUses ids x hx]

/-- **C15b.** `convert` returns that index, and later conversions never change it. -/
theorem index_stable (ids more : List T) (x : T)
    (hb : (ids ++ x :: more).toFinset.card ≤ uintMod) :
    (run (ids ++ x :: more)).toIdx x = .ok ((run ids).convert x).2 := by
  have hsub : (ids ++ [x]).toFinset.card ≤ uintMod :=
    le_trans (Finset.card_le_card (by
      intro z; simp only [List.mem_toFinset, List.mem_append, List.mem_cons, List.not_mem_nil,
        or_false]
      rintro (h | h)
      · exact .inl h
      · exact .inr (.inl h))) hb
  have hsub' : ids.toFinset.card ≤ uintMod :=
    le_trans (Finset.card_le_card (by intro z hz; simp at hz ⊢; exact .inr hz)) hsub
  have h1 := index_in_order_of_first_use (ids ++ x :: more) hb x (by simp)
  have h2 := index_in_order_of_first_use (ids ++ [x]) hsub x (by simp)
  have htw : (ids ++ x :: more).takeWhile (· ≠ x) = (ids ++ [x]).takeWhile (· ≠ x) := by
    rw [List.takeWhile_append, List.takeWhile_append]; simp
  rw [h1, htw, ← h2]
  have hrun : run (ids ++ [x]) = ((run ids).convert x).1 := by simp [run, List.foldl_append]
  rw [hrun]
  have hto := (inv_run ids hsub').fwd x
  unfold convert toIdx
  cases h : (run ids).fwd.find? x with
  | some i => simp [h]
  | none => simp

/-- **C15c.** Index and id lookups are inverse to each other, the indices in use are exactly
0, 1, …, n-1 with n the number of distinct ids, and everything else is reported as unknown. -/
theorem index_bijection (ids : List T) (hb : ids.toFinset.card ≤ uintMod) :
    (run ids).size = ids.toFinset.card ∧
    (∀ x, (run ids).hasId x = true ↔ x ∈ ids) ∧
    (∀ i, (run ids).hasIdx i = true ↔ i < ids.toFinset.card) ∧
    (∀ x i, (run ids).toIdx x = .ok i ↔ (run ids).fromIdx i = .ok x) ∧
    (∀ x ∉ ids, (run ids).toIdx x = .throws) ∧
    (∀ i, ids.toFinset.card ≤ i → (run ids).fromIdx i = .throws) := by
  have inv := inv_run ids hb
  have hlen := length_firstUses ids
  refine ⟨by rw [← hlen]; exact inv.size, ?_, ?_, ?_, ?_, ?_⟩
  · intro x
    unfold hasId
    have hm := mem_firstUses ids x
    rw [inv.fwd]
    by_cases h : x ∈ firstUses ids
    · simp [h, hm.1 h]
    · simp [h]; exact fun h' => h (hm.2 h')
  · intro i
    unfold hasIdx
    rw [inv.frm, ← hlen]
    simp
  · intro x i
    unfold toIdx fromIdx
    rw [inv.fwd, inv.frm]
    by_cases hx : x ∈ firstUses ids
    · rw [if_pos hx]
      simp only [Outcome.ok.injEq]
      constructor
      · rintro rfl
        rw [List.getElem?_eq_getElem (List.idxOf_lt_length_of_mem hx)]
        simp
      · intro h
        cases hi : (firstUses ids)[i]? with
        | none => simp [hi] at h
        | some y =>
          simp [hi] at h
          subst h
          obtain ⟨hlt, hget⟩ := List.getElem?_eq_some_iff.1 hi
          rw [← hget]
          exact (nodup_firstUses ids).idxOf_getElem i hlt
    · rw [if_neg hx]
      constructor
      · intro h; simp at h
      · intro h
        cases hi : (firstUses ids)[i]? with
        | none => simp [hi] at h
        | some y =>
          simp [hi] at h
          subst h
          exact absurd (List.mem_of_getElem? hi) hx
  · intro x hx
    unfold toIdx
    rw [inv.fwd, if_neg (fun h => hx ((mem_firstUses _ _).1 h))]
  · intro i hi
    unfold fromIdx
    rw [inv.frm, List.getElem?_eq_none (by omega)]

example : ((["a", "b", "a", "c"] : List String).toFinset.card ≤ uintMod) ∧
    (run ["a", "b", "a", "c"]).toIdx "c" = .ok 2 := by
  refine ⟨by decide, by decide⟩

end Verif.IdToIndex
