import Verif.Spec.DDFile
import Verif.Proofs.SolverPrepare
import Verif.Props.PairFile

/-!
# Helper lemmas for C108
-/

set_option linter.unusedSimpArgs false
set_option linter.unusedSectionVars false

namespace Verif.DDFile
open Verif.Csv Verif.Catalog Verif.Solver Verif.PairFile Verif.IdToIndex

variable {K D : Type} [Field K] [LinearOrder K]

theorem positionOf_snoc (ops : List (SolverOp K)) (op : SolverOp K) (k : Nat) :
    positionOf (ops ++ [op]) k = (positionOf ops k).or (positionOf [op] k) := by
  unfold positionOf
  rw [List.findSome?_append]

theorem positionOf_none {ops : List (SolverOp K)} {k : Nat} (h : k ∉ evIds ops) : positionOf ops k = none := by
  unfold positionOf
  rw [List.findSome?_eq_none_iff]
  intro op hop
  cases op with
  | event id a b c =>
    simp only
    rw [if_neg]
    rintro rfl
    exact h (List.mem_flatMap.2 ⟨_, hop, by simp [evIdsOp]⟩)
  | station => rfl
  | obs => rfl
  | params => rfl

theorem positionOf_some {ops : List (SolverOp K)} {k : Nat} (h : k ∈ eventsOf ops) : ∃ x, positionOf ops k = some x := by
  rw [← Option.isSome_iff_exists]
  unfold positionOf
  rw [List.findSome?_isSome_iff]
  unfold eventsOf at h
  rw [List.mem_filterMap] at h
  obtain ⟨op, hop, he⟩ := h
  refine ⟨op, hop, ?_⟩
  cases op with
  | event id a b c =>
    simp only [Option.some.injEq] at he
    simp [he]
  | station => simp at he
  | obs => simp at he
  | params => simp at he

/-- the stored positions -/
theorem eventParams_run (ops : List (SolverOp K)) (hb : Fits ops) :
    (∀ k ∈ evIds ops, (run ops).eventParams.find? (ix (evIds ops) k) = positionOf ops k) ∧
    ∀ i, (firstUses (evIds ops)).length ≤ i → (run ops).eventParams.find? i = none := by
  induction ops using List.reverseRecOn with
  | nil => exact ⟨by simp [evIds], by simp [Solver.run, Solver.init]⟩
  | append_singleton ops op ih =>
    have hb' : Fits ops := by unfold Fits at hb ⊢; simp at hb; omega
    have inv := inv_run ops hb'
    obtain ⟨ih1, ih2⟩ := ih hb'
    have hrun : run (ops ++ [op]) = (run ops).step op := by simp [Solver.run, List.foldl_append]
    have hlen : (firstUses (evIds ops)).length ≤ (firstUses (evIds (ops ++ [op]))).length := by
      rw [evIds_snoc]
      obtain ⟨r, hr⟩ := firstUses_prefix (evIds ops) (evIdsOp op)
      rw [hr]; simp
    -- positions known before
    have hold : positionOf [op] = (fun _ => none) → ∀ k ∈ evIds (ops ++ [op]),
        (run ops).eventParams.find? (ix (evIds (ops ++ [op])) k) = positionOf (ops ++ [op]) k := by
      intro hn k hk
      rw [positionOf_snoc, hn, Option.or_none]
      by_cases hk' : k ∈ evIds ops
      · rw [evIds_snoc, ix_append hk', ih1 k hk']
      · rw [positionOf_none hk']
        apply ih2
        rw [evIds_snoc] at hk ⊢
        unfold ix
        obtain ⟨r, hr⟩ := firstUses_prefix (evIds ops) (evIdsOp op)
        rw [hr, List.idxOf_append_of_notMem (fun hc => hk' ((mem_firstUses _ _).1 hc))]
        omega
    have hsame : ∀ op', op = op' → (∀ id a b c, op' ≠ .event id a b c) → ((run ops).step op').eventParams = (run ops).eventParams := by
      intro op' _ hne
      cases op' with
      | event id a b c => exact absurd rfl (hne id a b c)
      | station => rfl
      | obs => rfl
      | params => rfl
    rw [hrun]
    cases hop : op with
    | event id a b c =>
      subst hop
      have hid : ((run ops).evConv.convert id).2 = ix (evIds ops ++ [id]) id := by
        rw [inv.evConv]
        apply convert_snd
        have := hb.ev
        rw [evIds_snoc] at this
        simpa [evIdsOp] using this
      have hstep : ((run ops).step (.event id a b c)).eventParams =
          (run ops).eventParams.insertNew (ix (evIds ops ++ [id]) id) (a, b, c) := by
        rw [← hid]; rfl
      have he : evIds (ops ++ [SolverOp.event id a b c]) = evIds ops ++ [id] := by rw [evIds_snoc]; rfl
      rw [hstep, he]
      constructor
      · intro k hk
        rw [AMap.find?_insertNew, positionOf_snoc]
        have hp1 : positionOf [SolverOp.event id a b c] k = if id = k then some (a, b, c) else none := by
          unfold positionOf; simp
        rw [hp1]
        by_cases hkid : k = id
        · subst hkid
          by_cases hmem : k ∈ evIds ops
          · rw [ix_append hmem, ih1 k hmem]
            cases positionOf ops k <;> simp
          · rw [positionOf_none hmem, ix_new hmem, ih2 _ (le_refl _)]
            simp
        · have hk' : k ∈ evIds ops := by
            rcases List.mem_append.1 hk with h | h
            · exact h
            · exact absurd (by simpa using h) hkid
          have hne : ix (evIds ops ++ [id]) k ≠ ix (evIds ops ++ [id]) id := fun hc =>
            hkid (ix_inj hk (by simp) hc)
          rw [if_neg (by tauto), if_neg (fun h => hkid h.symm), Option.or_none, ix_append hk', ih1 k hk']
      · intro i hi
        have h1 : ix (evIds ops ++ [id]) id < (firstUses (evIds ops ++ [id])).length := ix_lt (by simp)
        rw [AMap.find?_insertNew, if_neg (by omega)]
        apply ih2
        rw [he] at hlen
        omega
    | station s a b c =>
      have hn : positionOf [op] = fun _ => none := by subst hop; rfl
      rw [hsame _ hop (by simp), ← hop]
      exact ⟨hold hn, fun i hi => ih2 i (by omega)⟩
    | obs o =>
      have hn : positionOf [op] = fun _ => none := by subst hop; rfl
      rw [hsame _ hop (by simp), ← hop]
      exact ⟨hold hn, fun i hi => ih2 i (by omega)⟩
    | params q =>
      have hn : positionOf [op] = fun _ => none := by subst hop; rfl
      rw [hsame _ hop (by simp), ← hop]
      exact ⟨hold hn, fun i hi => ih2 i (by omega)⟩

theorem mapRows_ok {A B : Type} (f : A → Outcome B) (g : A → B) : ∀ (l : List A), (∀ x ∈ l, f x = .ok (g x)) →
    mapRows f l = .ok (l.map g)
  | [], _ => rfl
  | a :: l, h => by
    unfold mapRows
    rw [h a (by simp), mapRows_ok f g l (fun x hx => h x (by simp [hx]))]
    rfl

theorem mapRows_map {A B C : Type} {f : B → Outcome C} {h : A → B} {g : A → C} (l : List A)
    (hl : ∀ x ∈ l, f (h x) = .ok (g x)) : mapRows f (l.map h) = .ok (l.map g) := by
  induction l with
  | nil => rfl
  | cons a l ih =>
    rw [List.map_cons, List.map_cons]
    unfold mapRows
    rw [hl a (by simp), ih (fun x hx => hl x (by simp [hx]))]
    rfl

/-- the entry of a stored observation -/
theorem entry_ok {ops : List (SolverOp K)} (hb : Fits ops) (hs : NoSeparator ops) (hc : Complete ops)
    (dist : K × K × K → K × K × K → K) (p : Prepared K) {o : ObsArg K} (ho : o ∈ obsOf ops) {a b : K × K × K}
    (ha : positionOf ops o.e1 = some a) (hb2 : positionOf ops o.e2 = some b) (i : Nat) :
    (run ops).entry dist p (i, toObs ops o) = .ok ⟨o.e1, o.e2, o.sta, o.phase, p.dd.W i, o.xcorrUsed, o.xcorrCoeff, o.timeDiff,
      p.computed i, o.timeDiff - p.computed i, dist a b⟩ := by
  obtain ⟨h1, h2, -⟩ := mem_evIds_obs ho
  unfold entry
  rw [doubleDifference_toObs hb (Solver.inv_run ops hb) ho (hs.1 o ho)]
  have e : (run ops).interEventDistance dist (toObs ops o) = .ok (dist a b) := by
    unfold interEventDistance
    simp only [toObs]
    rw [(eventParams_run ops hb).1 _ h1, (eventParams_run ops hb).1 _ h2, ha, hb2]
    rfl
  simp only [Outcome.bind_ok, e]
  rfl

end Verif.DDFile
