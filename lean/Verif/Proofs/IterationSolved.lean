import Verif.Proofs.Iteration

/-! When the solver of an iteration has no answer. -/

set_option linter.unusedSectionVars false
set_option linter.unusedSimpArgs false

namespace Verif.Iteration
open Verif.Solver Verif.LeastSquares

variable {g : Goal} {ops : List (SolverOp ℝ)} {p : Prepared ℝ}

theorem no_observations (hb : Fits ops) (hs : NoSeparator ops) (he : (run ops).observations.isEmpty = true) {o : ObsArg ℝ}
    (ho : o ∈ distinctObs ops) : False := by
  have inv := inv_run ops hb
  have hlen := inv.obsLen
  rw [List.isEmpty_iff.1 he] at hlen
  have hF := firstBy_quad hs
  rw [hF] at hlen
  have h2 := List.length_pos_of_mem ho
  unfold distinctObs at h2
  rw [← hlen] at h2
  exact absurd h2 (lt_irrefl 0)

theorem answer_none_iff {su : Relocate.SolverSetup} (hv : su.Visits) (hb : Fits ops) (hs : NoSeparator ops) (hc : Complete ops)
    (hd : 0 < g.down → deviation g ops ≠ 0) (hnth : g.nth = su.nth) (hp : su.prepared ops g.absLoc g.down = .ok (some p))
    (h : IsSystemOf ops g.nth g.absLoc g.down p) (m : Nat → ℝ) :
    Relocate.answerOf (run ops) p m = none ↔ ∀ k, ¬ Active g ops k := by
  unfold Relocate.answerOf
  simp only
  constructor
  · intro hn k hk
    rw [← active_iff_used hb h hd] at hk
    split at hn
    · rename_i hem
      obtain ⟨i, o, hu⟩ := hk
      have hev := event_changes ops hb hs hc su.nth g.absLoc g.down _ _ (hv.obs _) (hv.params _) p hp (fun c => .num (m c)) k
      have hkm : k ∈ evIds ops := by
        have := mem_evIds_obs (firstBy_subset _ _ (List.mem_of_getElem? hu.1))
        rcases hu.2.2 with ⟨rfl, -⟩ | ⟨rfl, -⟩
        · exact this.1
        · exact this.2.1
      have he := toIdx_event hb hkm
      have h1 := (hev _).2 ⟨⟨i, o, hu⟩, _, he, rfl, fun _ _ => rfl⟩
      rw [List.isEmpty_iff.1 hem] at h1
      unfold getEventChanges at h1
      split at h1
      · cases h1
      · cases h1
    · cases hn
  · intro hno
    rw [if_pos]
    rw [List.isEmpty_iff]
    cases hdl : loadSolutions p.stats (fun c => Fl.num (m c)) with
    | nil => rfl
    | cons x l =>
      exfalso
      have hf : (loadSolutions p.stats (fun c => Fl.num (m c))).find? x.1 = some x.2 := by
        rw [hdl]; simp [AMap.find?]
      rw [loadSolutions_find?] at hf
      split at hf
      swap
      · cases hf
      · rename_i hu
        obtain ⟨⟨⟨e, ph⟩, v⟩, hx, hv', hxe⟩ := hu
        simp only at hv' hxe
        rcases prepare_spec ops hb hs hc su.nth g.absLoc g.down _ _ (hv.obs _) (hv.params _) with
          ⟨p', h1, h2, h3, h4⟩ | ⟨h1, -⟩
        swap
        · have := h1.symm.trans (show _ = Outcome.ok (some p) from hp)
          cases this
        have hpp := (show _ = Outcome.ok (some p) from hp).symm.trans h1
        simp only [Outcome.ok.injEq, Option.some.injEq] at hpp
        subst hpp
        have hfi := AMap.find?_of_mem h3 hx
        rw [h4] at hfi
        have hne : weightsAt p.dd.nObs p.dd.W p.dd.ev1 p.dd.ev2 p.dd.phSta e ph ≠ [] := by
          intro hnil; rw [hnil] at hfi; simp [statOf] at hfi
        rw [weightsAt_ne_nil] at hne
        obtain ⟨i, hi, hW, -, hev⟩ := hne
        obtain ⟨o, ho⟩ : ∃ o, (firstBy ObsArg.quad (obsOf ops))[i]? = some o :=
          ⟨_, List.getElem?_eq_getElem (by rw [← h.rows]; exact hi)⟩
        obtain ⟨e1, e2, ph', p1, p2, w, g1, g2, g3, g4, g5, g6, g7, -⟩ := h.observation i o ho
        rcases hev with hev | hev
        · rw [g6] at hev
          cases hf1 : p1.free with
          | false => rw [hf1] at hev; simp at hev
          | true => exact hno o.e1 ((active_iff_used hb h hd _).1 ⟨i, o, ho, hW, .inl ⟨rfl, p1, g4, hf1⟩⟩)
        · rw [g7] at hev
          cases hf1 : p2.free with
          | false => rw [hf1] at hev; simp at hev
          | true => exact hno o.e2 ((active_iff_used hb h hd _).1 ⟨i, o, ho, hW, .inr ⟨rfl, p2, g5, hf1⟩⟩)

end Verif.Iteration
