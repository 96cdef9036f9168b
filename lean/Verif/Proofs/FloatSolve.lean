import Verif.Spec.FloatSolve
import Verif.Props.LeastSquares
set_option linter.unusedSimpArgs false
set_option linter.unusedSectionVars false

/-!
# Values that are not numbers: how they spread (helpers of C119)
-/

namespace Verif.FloatSolve
open Verif.LeastSquares

variable {K : Type} [Add K] [Sub K] [Mul K] [Div K] [Neg K] [Zero K] [One K] [BEq K] [LT K] [LE K]
  [DecidableLT K] [DecidableLE K] {m n : Nat} {F : Fns K} {bad : K → Prop}

theorem nrmStep_bad (h : NaN F bad) (s : K × K) (x : K) (hb : bad s.2 ∨ bad x) : bad (nrmStep F s x).2 := by
  unfold nrmStep
  split
  · rename_i h0
    rcases hb with hb | hb
    · exact hb
    · rw [h.eq _ _ (.inl hb)] at h0
      cases h0
  · simp only
    split
    · rename_i h0
      rcases hb with hb | hb
      · exact h.add _ _ (.inl (h.mul _ _ (.inl hb)))
      · exact absurd h0 (h.lt _ _ (.inr (h.abs _ hb)))
    · rcases hb with hb | hb
      · exact h.add _ _ (.inl hb)
      · have hd := h.div (F.abs x) s.1 (.inl (h.abs _ hb))
        exact h.add _ _ (.inr (h.mul _ _ (.inl hd)))

theorem foldl_nrm_bad (h : NaN F bad) : ∀ (l : List K) (s : K × K), (bad s.2 ∨ ∃ x ∈ l, bad x) → bad (l.foldl (nrmStep F) s).2
  | [], s, hb => by rcases hb with hb | ⟨x, hx, -⟩; exact hb; cases hx
  | y :: l, s, hb => by
    refine foldl_nrm_bad h l _ ?_
    rcases hb with hb | ⟨x, hx, hb⟩
    · exact .inl (nrmStep_bad h _ _ (.inl hb))
    · rcases List.mem_cons.1 hx with rfl | hx
      · exact .inl (nrmStep_bad h _ _ (.inr hb))
      · exact .inr ⟨x, hx, hb⟩

theorem dnrm2_bad (h : NaN F bad) {x : Fin n → K} {i : Fin n} (hb : bad (x i)) : bad (dnrm2 F x) := by
  unfold dnrm2
  exact h.mul _ _ (.inr (h.sqrt _ (foldl_nrm_bad h _ _ (.inr ⟨x i, List.mem_ofFn.2 ⟨i, rfl⟩, hb⟩))))

theorem d2norm_bad (h : NaN F bad) {a b : K} (hb : bad a ∨ bad b) : bad (d2norm F a b) := by
  have hs : bad (F.abs a + F.abs b) := h.add _ _ (hb.imp (h.abs _) (h.abs _))
  unfold d2norm
  simp only
  rw [if_neg (by rw [h.eq _ _ (.inl hs)]; simp)]
  exact h.mul _ _ (.inl hs)

/-- the vectors spoil the next step: `beta` of the next vectors or `phibar` is not a number -/
theorem lsqr_step_bad (h : NaN F bad) {P : Products m n K} {o : Settings K} {s : Lsqr m n K}
    (hb : bad s.phibar ∨ bad s.rhobar ∨ bad (nextVectors F P s.vec).beta) (i : Fin n) : bad ((Lsqr.iterate F P o s).x i) := by
  unfold Lsqr.iterate
  simp only
  refine h.add _ _ (.inl (h.mul _ _ (.inl ?_)))
  have hr : bad s.phibar ∨ bad s.rhobar → bad (Lsqr.rotateDamp F o s).2.2 ∨ bad (Lsqr.rotateDamp F o s).1 := by
    intro hb
    unfold Lsqr.rotateDamp
    split
    · rcases hb with hb | hb
      · exact .inl (h.mul _ _ (.inr hb))
      · exact .inr (d2norm_bad h (.inl hb))
    · exact hb
  rcases hb with hb | hb | hb
  · rcases hr (.inl hb) with hr | hr
    · exact h.div _ _ (.inl (h.mul _ _ (.inr hr)))
    · exact h.div _ _ (.inr (d2norm_bad h (.inl hr)))
  · rcases hr (.inr hb) with hr | hr
    · exact h.div _ _ (.inl (h.mul _ _ (.inr hr)))
    · exact h.div _ _ (.inr (d2norm_bad h (.inl hr)))
  · exact h.div _ _ (.inr (d2norm_bad h (.inr hb)))

theorem lsqr_iterate_bad (h : NaN F bad) {P : Products m n K} {o : Settings K} {s : Lsqr m n K} {i : Fin n} (hb : bad (s.x i)) :
    bad ((Lsqr.iterate F P o s).x i) := by
  unfold Lsqr.iterate
  exact h.add _ _ (.inr hb)

theorem lsqr_loop_bad (h : NaN F bad) {P : Products m n K} {o : Settings K} : ∀ (fuel : Nat) (s t : Lsqr m n K),
    (∀ i, bad ((Lsqr.iterate F P o s).x i)) → Lsqr.loop F P o fuel s = some t → ∀ i, bad (t.x i)
  | 0, _, _, _, he => by cases he
  | fuel + 1, s, t, hb, he => by
    rw [Lsqr.loop] at he
    split at he
    · exact lsqr_loop_bad h fuel _ t (fun i => lsqr_iterate_bad h (hb i)) he
    · cases he
      exact hb

theorem lsqr_solve_bad (h : NaN F bad) {P : Products m n K} {o : Settings K} {b : Fin m → K} {fuel : Nat} {t : Lsqr m n K}
    (hb : ∀ i, bad ((Lsqr.iterate F P o (Lsqr.start F P b)).x i)) (he : Lsqr.solve F P o b fuel = some t) :
    ((Lsqr.start F P b).Arnorm == 0) = true ∧ (∀ i, t.x i = 0) ∨ ∀ i, bad (t.x i) := by
  unfold Lsqr.solve at he
  simp only at he
  split at he
  · rename_i h0
    cases he
    refine .inl ⟨h0, fun i => ?_⟩
    unfold Lsqr.finish
    split <;> rfl
  · obtain ⟨t', h1, rfl⟩ := Option.map_eq_some_iff.1 he
    refine .inr (fun i => ?_)
    have := lsqr_loop_bad h fuel _ t' hb h1 i
    unfold Lsqr.finish
    split <;> exact this

theorem lsmr_step_bad (h : NaN F bad) {P : Products m n K} {o : Settings K} {s : Lsmr m n K}
    (hb : bad s.zetabar ∨ bad (nextVectors F P s.vec).beta) (i : Fin n) : bad ((Lsmr.iterate F P o s).x i) := by
  unfold Lsmr.iterate
  simp only
  refine h.add _ _ (.inr (h.mul _ _ (.inl ?_)))
  rcases hb with hb | hb
  · exact h.div _ _ (.inl (h.mul _ _ (.inr hb)))
  · exact h.div _ _ (.inr (h.mul _ _ (.inl (d2norm_bad h (.inr hb)))))

theorem lsmr_iterate_bad (h : NaN F bad) {P : Products m n K} {o : Settings K} {s : Lsmr m n K} {i : Fin n} (hb : bad (s.x i)) :
    bad ((Lsmr.iterate F P o s).x i) := by
  unfold Lsmr.iterate
  exact h.add _ _ (.inl hb)

theorem lsmr_loop_bad (h : NaN F bad) {P : Products m n K} {o : Settings K} : ∀ (fuel : Nat) (s t : Lsmr m n K),
    (∀ i, bad ((Lsmr.iterate F P o s).x i)) → Lsmr.loop F P o fuel s = some t → ∀ i, bad (t.x i)
  | 0, _, _, _, he => by cases he
  | fuel + 1, s, t, hb, he => by
    rw [Lsmr.loop] at he
    split at he
    · exact lsmr_loop_bad h fuel _ t (fun i => lsmr_iterate_bad h (hb i)) he
    · cases he
      exact hb

theorem lsmr_solve_bad (h : NaN F bad) {P : Products m n K} {big : K} {o : Settings K} {b : Fin m → K} {fuel : Nat} {t : Lsmr m n K}
    (hb : ∀ i, bad ((Lsmr.iterate F P o (Lsmr.start F P big b)).x i)) (he : Lsmr.solve F P big o b fuel = some t) :
    ((Lsmr.start F P big b).normAr == 0) = true ∧ (∀ i, t.x i = 0) ∨ ∀ i, bad (t.x i) := by
  unfold Lsmr.solve at he
  simp only at he
  split at he
  · rename_i h0
    cases he
    exact .inl ⟨h0, fun i => rfl⟩
  · exact .inr (lsmr_loop_bad h fuel _ t hb he)

/-! ## The products -/

theorem aprod1_keeps (h : NaN F bad) (dd : DDSystem K) (x : Nat → K) (j : Nat) : ∀ (l : List Nat) (y : Nat → K), bad (y j) →
    bad (l.foldl (fun y ob => if dd.W ob == 0 then y else addAt y ob (dd.W ob * rowSum dd x ob)) y j)
  | [], _, hb => hb
  | ob :: l, y, hb => by
    refine aprod1_keeps h dd x j l _ ?_
    simp only
    split
    · exact hb
    · unfold addAt
      split
      · exact h.add _ _ (.inl hb)
      · exact hb

theorem aprod1_spoils (h : NaN F bad) (dd : DDSystem K) (x : Nat → K) (j : Nat) (hw : (dd.W j == 0) = false)
    (hr : bad (dd.W j * rowSum dd x j)) : ∀ (l : List Nat) (y : Nat → K), j ∈ l →
    bad (l.foldl (fun y ob => if dd.W ob == 0 then y else addAt y ob (dd.W ob * rowSum dd x ob)) y j)
  | ob :: l, y, hj => by
    rcases List.mem_cons.1 hj with rfl | hj
    · refine aprod1_keeps h dd x j l _ ?_
      simp only
      rw [if_neg (by rw [hw]; simp)]
      unfold addAt
      rw [if_pos rfl]
      exact h.add _ _ (.inr hr)
    · exact aprod1_spoils h dd x j hw hr l _ hj

theorem fold4_keeps (add : K → K → K) (hadd : ∀ a b, bad a ∨ bad b → bad (add a b)) (f : Nat → K) (s : K)
    (hb : bad s ∨ ∃ k, k < 4 ∧ bad (f k)) : bad ([0, 1, 2, 3].foldl (fun s k => add s (f k)) s) := by
  simp only [List.foldl_cons, List.foldl_nil]
  rcases hb with hb | ⟨k, hk, hb⟩
  · exact hadd _ _ (.inl (hadd _ _ (.inl (hadd _ _ (.inl (hadd _ _ (.inl hb)))))))
  · match k, hk, hb with
    | 0, _, hb => exact hadd _ _ (.inl (hadd _ _ (.inl (hadd _ _ (.inl (hadd _ _ (.inr hb)))))))
    | 1, _, hb => exact hadd _ _ (.inl (hadd _ _ (.inl (hadd _ _ (.inr hb)))))
    | 2, _, hb => exact hadd _ _ (.inl (hadd _ _ (.inr hb)))
    | 3, _, hb => exact hadd _ _ (.inr hb)

theorem rowSum_bad (h : NaN F bad) {dd : DDSystem K} {ob : Nat} (hb : BadDerivative bad dd ob) (x : Nat → K) : bad (rowSum dd x ob) := by
  obtain ⟨-, -, e, k, hk, he, hb⟩ := hb
  have hterm : bad (dd.G (idxG dd e ob) k * dd.scaler (e * 4 + k) * x (e * 4 + k)) := h.mul _ _ (.inl hb)
  unfold rowSum
  simp only
  rcases he with he | he
  · have h1 := fold4_keeps (bad := bad) (· + ·) h.add (fun k => dd.G (idxG dd e ob) k * dd.scaler (e * 4 + k) * x (e * 4 + k)) 0
      (.inr ⟨k, hk, hterm⟩)
    rw [he]
    simp only
    cases dd.ev2 ob with
    | none => exact h1
    | some e' =>
      exact fold4_keeps (bad := bad) (· - ·) h.sub (fun k => dd.G (idxG dd e' ob) k * dd.scaler (e' * 4 + k) * x (e' * 4 + k)) _ (.inl h1)
  · rw [he]
    simp only
    exact fold4_keeps (bad := bad) (· - ·) h.sub (fun k => dd.G (idxG dd e ob) k * dd.scaler (e * 4 + k) * x (e * 4 + k)) _
      (.inr ⟨k, hk, hterm⟩)

end Verif.FloatSolve
