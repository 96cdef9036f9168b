import Verif.Props.NllGrid

/-! Helper lemmas: descriptors and keys of grids that could not be loaded. -/

set_option linter.unusedSectionVars false
set_option linter.unusedSimpArgs false

namespace Verif.NllGrid
open Verif.Grid

variable {S G : Type} [DecidableEq S] [DecidableEq G]

/-- keys in the cache -/
def Cached (s : State S G) (k : Key S) : Prop := ∃ g, (k, g) ∈ Lru.content s.cache

theorem useGrid_cache (s : State S G) (k : Key S) (g : G) (os : Answers) :
    (useGrid s k g os).1.cache = s.cache ∧ (useGrid s k g os).1.mode = s.mode ∧
    s.unloadables ⊆ (useGrid s k g os).1.unloadables ∧
    ((useGrid s k g os).2 = .throws → k ∈ (useGrid s k g os).1.unloadables) ∧
    (∀ k', k' ≠ k → k' ∈ (useGrid s k g os).1.unloadables → k' ∈ s.unloadables) := by
  unfold useGrid
  split
  · exact ⟨rfl, rfl, fun _ h => h, by simp, fun _ _ h => h⟩
  · split
    · exact ⟨rfl, rfl, fun _ h => h, by simp, fun _ _ h => h⟩
    · refine ⟨rfl, rfl, fun _ h => List.mem_cons_of_mem _ h, fun _ => List.mem_cons_self, ?_⟩
      intro k' hne h
      rcases List.mem_cons.1 h with h | h
      · exact absurd h hne
      · exact h

theorem access_keys {s : State S G} (hwf : Lru.WF s.cache) (k : Key S) (i : Input G) :
    Lru.WF (access s k i).1.cache ∧ (access s k i).1.mode = s.mode ∧
    s.unloadables ⊆ (access s k i).1.unloadables ∧
    (∀ k', Cached (access s k i).1 k' → Cached s k' ∨ (k' = k ∧ k ∉ s.unloadables)) ∧
    ((access s k i).2 = .throws → (∀ p, k ≠ .velocity p) ∨ i.found ≠ none → k ∈ (access s k i).1.unloadables) ∧
    (k ∈ s.unloadables → ¬ Cached s k → (access s k i).2 = .throws ∧ (access s k i).1.handles = s.handles ∧
      Lru.content (access s k i).1.cache = Lru.content s.cache ∧ (access s k i).1.unloadables = s.unloadables) ∧
    (¬ Cached s k → (∀ g, i.found = some g → i.tooFar = true) →
      (access s k i).2 = .throws ∧ ¬ Cached (access s k i).1 k ∧ (access s k i).1.handles = s.handles) := by
  obtain ⟨c, r, hg, hwf', hms, hr, hc⟩ := Lru.get_spec hwf k
  have hsub : ∀ k' g', (k', g') ∈ Lru.content c → ∃ g, (k', g) ∈ Lru.content s.cache := by
    intro k' g' hm
    rw [hc] at hm
    cases hf : AMap.find? (Lru.content s.cache) k with
    | none => rw [hf] at hm; exact ⟨g', hm⟩
    | some v =>
      rw [hf] at hm
      simp only [List.mem_cons, List.mem_filter] at hm
      rcases hm with h | h
      · injection h with h1 h2; subst h1; exact ⟨v, AMap.mem_of_find? hf⟩
      · exact ⟨g', h.1⟩
  have hnot : ¬ Cached s k → r = none ∧ Lru.content c = Lru.content s.cache := by
    intro hn
    cases hf : AMap.find? (Lru.content s.cache) k with
    | none => rw [hf] at hr hc; exact ⟨hr, hc⟩
    | some v => exact absurd ⟨v, AMap.mem_of_find? hf⟩ hn
  unfold access
  rw [hg]
  cases r with
  | some g =>
    obtain ⟨u1, u2, u3, u4, _⟩ := useGrid_cache { s with cache := c } k g i.os
    refine ⟨by rw [u1]; exact hwf', u2, u3, ?_, fun h _ => u4 h, ?_, ?_⟩
    · rintro k' ⟨g', hg'⟩
      rw [u1] at hg'
      exact Or.inl (hsub _ _ hg')
    · intro _ hn; exact absurd (hnot hn).1 (by simp)
    · intro hn; exact absurd (hnot hn).1 (by simp)
  | none =>
    simp only
    have keep : ∀ k', (∃ g, (k', g) ∈ Lru.content c) → Cached s k' ∨ (k' = k ∧ k ∉ s.unloadables) :=
      fun k' ⟨g, h⟩ => Or.inl (hsub _ _ h)
    have nk : ¬ Cached s k → ¬ ∃ g, (k, g) ∈ Lru.content c := fun hn ⟨g, h⟩ => hn (hsub _ _ h)
    by_cases hu : k ∈ s.unloadables
    · rw [if_pos hu]
      exact ⟨hwf', rfl, fun _ h => h, keep, fun _ _ => hu, fun _ hn => ⟨rfl, rfl, (hnot hn).2, rfl⟩,
        fun hn _ => ⟨rfl, nk hn, rfl⟩⟩
    · rw [if_neg hu]
      cases hf : i.found with
      | none =>
        cases k with
        | velocity p =>
          exact ⟨hwf', (by rfl), fun _ h => h, keep, fun _ h => by simp at h, fun h => absurd h hu,
            fun hn _ => ⟨rfl, nk hn, rfl⟩⟩
        | time p st =>
          exact ⟨hwf', (by rfl), fun _ h => List.mem_cons_of_mem _ h, keep, fun _ _ => List.mem_cons_self,
            fun h => absurd h hu, fun hn _ => ⟨rfl, nk hn, rfl⟩⟩
        | angle p st =>
          exact ⟨hwf', (by rfl), fun _ h => List.mem_cons_of_mem _ h, keep, fun _ _ => List.mem_cons_self,
            fun h => absurd h hu, fun hn _ => ⟨rfl, nk hn, rfl⟩⟩
      | some g =>
        simp only
        by_cases ht : i.tooFar = true
        · rw [if_pos ht]
          exact ⟨hwf', rfl, fun _ h => List.mem_cons_of_mem _ h, keep, fun _ _ => List.mem_cons_self,
            fun h => absurd h hu, fun hn _ => ⟨rfl, nk hn, rfl⟩⟩
        · rw [if_neg ht]
          obtain ⟨c', cb, hp, hwf2, hms2, hct⟩ := Lru.put_spec hwf' k g
          rw [hp]
          simp only
          obtain ⟨u1, u2, u3, u4, _⟩ :=
            useGrid_cache { s with cache := c', handles := closeAll s.handles cb } k g i.os
          refine ⟨by rw [u1]; exact hwf2, u2, u3, ?_, fun h _ => u4 h, fun h => absurd h hu, ?_⟩
          · rintro k' ⟨g', hg'⟩
            rw [u1] at hg'
            simp only at hg'
            have hin : (k', g') ∈ Lru.content c ∨ k' = k := by
              unfold Lru.aput at hct
              split at hct
              · injection hct with h1 _; rw [h1] at hg'; exact Or.inl hg'
              · have hl : (k', g') ∈ (k, g) :: (Lru.content c).filter (fun p => p.1 ≠ k) := by
                  simp only at hct
                  split at hct
                  · injection hct with h1 _; rw [h1] at hg'; exact List.dropLast_subset _ hg'
                  · injection hct with h1 _; rw [h1] at hg'; exact hg'
                rcases List.mem_cons.1 hl with h | h
                · injection h with h1 _; exact Or.inr h1
                · exact Or.inl (List.mem_filter.1 h).1
            rcases hin with h | h
            · exact Or.inl (hsub _ _ h)
            · exact Or.inr ⟨h, hu⟩
          · intro _ h; exact absurd (h g rfl) ht

/-- What any later operation keeps. -/
structure Later (s s' : State S G) : Prop where
  wf : Lru.WF s'.cache
  mode : s'.mode = s.mode
  un : s.unloadables ⊆ s'.unloadables
  cached : ∀ k ∈ s.unloadables, Cached s' k → Cached s k

theorem Later.refl {s : State S G} (h : Lru.WF s.cache) : Later s s := ⟨h, rfl, fun _ h => h, fun _ _ h => h⟩

theorem Later.trans {a b c : State S G} (h : Later a b) (h' : Later b c) : Later a c :=
  ⟨h'.wf, h'.mode.trans h.mode, fun _ hx => h'.un (h.un hx),
    fun k hk hc => h.cached k hk (h'.cached k (h.un hk) hc)⟩

theorem access_later {s : State S G} (hwf : Lru.WF s.cache) (k : Key S) (i : Input G) : Later s (access s k i).1 := by
  obtain ⟨h1, h2, h3, h4, _⟩ := access_keys hwf k i
  refine ⟨h1, h2, h3, ?_⟩
  intro k' hk hc
  rcases h4 k' hc with h | ⟨rfl, h⟩
  · exact h
  · exact absurd hk h

theorem compute_later (l : List (Key S × Input G)) {s : State S G} (hwf : Lru.WF s.cache) : Later s (compute s l).1 := by
  induction l generalizing s with
  | nil => exact .refl hwf
  | cons p l ih =>
    obtain ⟨k, i⟩ := p
    have h1 := access_later hwf k i
    unfold compute
    cases ha : access s k i with
    | mk s' r =>
      rw [ha] at h1
      cases r with
      | ok r =>
        have h2 := h1.trans (ih h1.wf)
        simp only
        cases hc : compute s' l with
        | mk s'' rs =>
          rw [hc] at h2
          cases rs <;> exact h2
      | throws => exact h1
      | ub => exact h1

theorem run_later (hist : List (Op S G)) {s : State S G} (hwf : Lru.WF s.cache) : Later s (run s hist) := by
  induction hist generalizing s with
  | nil => exact .refl hwf
  | cons o hist ih =>
    have h1 : Later s (step s o).1 := by
      cases o with
      | compute l => exact compute_later l hwf
      | closeOpenFiles =>
        exact ⟨Lru.clear_WF _, rfl, fun _ h => h, fun k _ ⟨g, hg⟩ => by
          simp [step, closeOpenFiles, Lru.clear, Lru.content] at hg⟩
    exact h1.trans (ih h1.wf)

end Verif.NllGrid
