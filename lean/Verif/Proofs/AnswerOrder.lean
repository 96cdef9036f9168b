import Verif.Proofs.PrepareOrder
import Verif.Proofs.RealSolver

/-! Helper lemmas for C107: the answers for the same calls in different orders. -/

set_option linter.unusedSectionVars false
set_option linter.unusedSimpArgs false

namespace Verif.LeastSquares

variable {dd dd' : DDSystem ℝ} {σ : Fin dd'.numRows ≃ Fin dd.numRows} {ε : Fin dd'.nEvts ≃ Fin dd.nEvts}

theorem SameSystem.symm (h : SameSystem dd dd' σ ε) : SameSystem dd' dd σ.symm ε.symm := by
  refine ⟨fun r => ?_, fun r => ?_, fun r e => ?_, fun r e => ?_, fun r e hu k hk => ?_, h.range', h.range⟩
  · have := h.W (σ.symm r); rw [Equiv.apply_symm_apply] at this; exact this.symm
  · have := h.d (σ.symm r); rw [Equiv.apply_symm_apply] at this; exact this.symm
  · have := h.ev1 (σ.symm r) (ε.symm e); rw [Equiv.apply_symm_apply, Equiv.apply_symm_apply] at this; exact this.symm
  · have := h.ev2 (σ.symm r) (ε.symm e); rw [Equiv.apply_symm_apply, Equiv.apply_symm_apply] at this; exact this.symm
  · have h1 := h.ev1 (σ.symm r) (ε.symm e)
    have h2 := h.ev2 (σ.symm r) (ε.symm e)
    have := h.G (σ.symm r) (ε.symm e)
    rw [h1, h2, Equiv.apply_symm_apply, Equiv.apply_symm_apply] at this
    exact (this hu k hk).symm

theorem degenerate_of (h : SameSystem dd dd' σ ε) (hd : Relocate.degenerate dd') : Relocate.degenerate dd := by
  obtain ⟨r, hr, hW, e, k, hk, hu, hc⟩ := hd
  have he := h.range' r hr e hu
  refine ⟨(σ ⟨r, hr⟩).val, (σ ⟨r, hr⟩).2, ?_, (ε ⟨e, he⟩).val, k, hk, ?_, ?_⟩
  · rw [← h.W ⟨r, hr⟩]; exact hW
  · rcases hu with hu | hu
    · exact .inl ((h.ev1 ⟨r, hr⟩ ⟨e, he⟩).1 hu)
    · exact .inr ((h.ev2 ⟨r, hr⟩ ⟨e, he⟩).1 hu)
  · rw [← colSq_same h ⟨e, he⟩ hk]; exact hc

theorem degenerate_same (h : SameSystem dd dd' σ ε) : Relocate.degenerate dd' ↔ Relocate.degenerate dd :=
  ⟨degenerate_of h, degenerate_of h.symm⟩

end Verif.LeastSquares

namespace Verif.Solver
open IdToIndex (firstUses)
open Verif.LeastSquares

variable {ops ops' : List (SolverOp ℝ)} {nth nth' : NthElement (id : ℝ → ℝ)} {ttc rdw : ℝ} {p p' : Prepared ℝ}

/-- the number of events of a prepared system -/
theorem prepare_nEvts {s : Solver ℝ} {io : List (Nat × Obs ℝ)} {ip : List ((Nat × Nat) × ObsParams ℝ)}
    (h : s.prepare nth ttc rdw io ip = .ok (some p)) : p.dd.nEvts = s.evConv.size := by
  unfold prepare at h
  simp only at h
  cases hG : fillG s.evConv.size s.phStaConv.size ip with
  | ok G =>
    rw [hG] at h
    simp only [Outcome.bind_ok] at h
    cases ha : io.foldlM (s.fillRow (s.observations.length + ttNum ttc ip)) Rows.init with
    | ok a =>
      rw [ha] at h
      simp only [Outcome.bind_ok] at h
      cases hd : downWeight nth s.observations.length rdw a with
      | none => rw [hd] at h; simp at h
      | some b =>
        rw [hd] at h
        simp only at h
        cases hc : s.constrain ttc s.observations.length (s.observations.length + ttNum ttc ip) ip b with
        | ok c =>
          rw [hc] at h
          simp only [Outcome.bind_ok] at h
          cases hi : s.interEventDistances io with
          | ok _ =>
            rw [hi] at h
            simp only [Outcome.bind_ok, Outcome.ok.injEq, Option.some.injEq] at h
            rw [← h]
          | throws => rw [hi] at h; cases h
          | ub => rw [hi] at h; cases h
        | throws => rw [hc] at h; cases h
        | ub => rw [hc] at h; cases h
    | throws => rw [ha] at h; cases h
    | ub => rw [ha] at h; cases h
  | throws => rw [hG] at h; cases h
  | ub => rw [hG] at h; cases h

/-- what is known of a prepared system -/
structure Ready (ops : List (SolverOp ℝ)) (nth : NthElement (id : ℝ → ℝ)) (ttc rdw : ℝ) (p : Prepared ℝ) : Prop where
  sys : IsSystemOf ops nth ttc rdw p
  nodup : p.stats.NodupKeys
  stats : ∀ e ph, p.stats.find? (e, ph) = statOf (weightsAt p.dd.nObs p.dd.W p.dd.ev1 p.dd.ev2 p.dd.phSta e ph)
  events : p.dd.nEvts = (firstUses (evIds ops)).length

theorem ready_of (hb : Fits ops) (hs : NoSeparator ops) (hc : Complete ops) {io : List (Nat × Obs ℝ)}
    {ip : List ((Nat × Nat) × ObsParams ℝ)} (hio : io.Perm (run ops).observations) (hip : ip.Perm (run ops).obsParams) :
    (∃ p, (run ops).prepare nth ttc rdw io ip = .ok (some p) ∧ Ready ops nth ttc rdw p) ∨
    ((run ops).prepare nth ttc rdw io ip = .ok none ∧ rdw > 0 ∧
      ∃ x ∈ residuals ops, ∀ w, residualWeight rdw (madOf nth ops) x ≠ .num w) := by
  rcases prepare_spec ops hb hs hc nth ttc rdw io ip hio hip with ⟨p, h1, h2, h3, h4⟩ | ⟨h1, h2, res, h3, h4, -, h6⟩
  · refine .inl ⟨p, h1, h2, h3, h4, ?_⟩
    rw [prepare_nEvts h1, (inv_run ops hb).evConv, run_size _ hb.ev]
  · refine .inr ⟨h1, h2, ?_⟩
    have : res = residuals ops := by
      apply List.ext_getElem?
      intro i
      unfold residuals
      rw [List.getElem?_map]
      cases ho : (firstBy ObsArg.quad (obsOf ops))[i]? with
      | none =>
        rw [List.getElem?_eq_none_iff] at ho
        rw [List.getElem?_eq_none (by omega)]; rfl
      | some o =>
        obtain ⟨-, -, ⟨q1, m1, t1⟩, ⟨q2, m2, t2⟩⟩ := hc o (firstBy_subset _ _ (List.mem_of_getElem? ho))
        have e1 : ∃ p1, paramsOf ops o.e1 o.sta o.phase = some p1 := by
          apply Option.isSome_iff_exists.1
          unfold paramsOf
          rw [List.find?_isSome]
          exact ⟨q1, m1, by simpa using t1⟩
        have e2 : ∃ p2, paramsOf ops o.e2 o.sta o.phase = some p2 := by
          apply Option.isSome_iff_exists.1
          unfold paramsOf
          rw [List.find?_isSome]
          exact ⟨q2, m2, by simpa using t2⟩
        obtain ⟨p1, e1⟩ := e1
        obtain ⟨p2, e2⟩ := e2
        rw [h4 i o p1 p2 ho e1 e2]
        simp only [Option.map_some, residOf, e1, e2]
    rw [this] at h6
    exact h6

/-- a prepared system has weights that are numbers -/
theorem ready_num (h : IsSystemOf ops nth ttc rdw p) (hr : rdw > 0) : ∀ x ∈ residuals ops, ∃ w, residualWeight rdw (madOf nth ops) x = .num w := by
  intro x hx
  unfold residuals at hx
  obtain ⟨o, ho, rfl⟩ := List.mem_map.1 hx
  obtain ⟨i, hi, ho⟩ := List.getElem_of_mem ho
  have ho : (firstBy ObsArg.quad (obsOf ops))[i]? = some o := by rw [List.getElem?_eq_getElem hi, ho]
  obtain ⟨e1, e2, ph, p1, p2, w, -, -, -, -, -, -, -, -, -, -, g11, -⟩ := h.observation i o ho
  unfold IsResidualWeight at g11
  rw [if_pos hr] at g11
  simp only [residuals_eq h, resid_row h ho] at g11
  exact ⟨w, g11⟩

/-- the two systems are the same up to the order -/
theorem same_system (hb : Fits ops) (hb' : Fits ops') (h : SameData ops ops')
    (hp : Ready ops nth ttc rdw p) (hp' : Ready ops' nth' ttc rdw p') :
    ∃ (σ : Fin p'.dd.numRows ≃ Fin p.dd.numRows) (ε : Fin p'.dd.nEvts ≃ Fin p.dd.nEvts), SameSystem p.dd p'.dd σ ε ∧
      ∀ x ∈ evIds ops, ∃ hx : ix (evIds ops') x < p'.dd.nEvts, (ε ⟨ix (evIds ops') x, hx⟩).val = ix (evIds ops) x := by
  obtain ⟨cs, hcs⟩ := constraints_of hb hp.sys
  obtain ⟨cs', hcs'⟩ := constraints_of hb' hp'.sys
  have hmemcs : ∀ q, q ∈ cs ↔ q ∈ cs' := by
    intro q
    rw [hcs.mem, hcs'.mem, h.par]
    have := usesOf_same nth nth' rdw h q.ev (phKeyP q)
    have e : usesOf nth rdw ops q.ev (phKeyP q) ≠ [] ↔ usesOf nth' rdw ops' q.ev (phKeyP q) ≠ [] := by
      rw [← List.length_pos_iff, ← List.length_pos_iff, this.length_eq]
    rw [e]
  have hlencs : cs.length = cs'.length := (perm_of_same hcs.nodup hcs'.nodup hmemcs).length_eq
  have hnTT : p.dd.nTT = p'.dd.nTT := by
    rw [hp.sys.constraints, hp'.sys.constraints]
    rw [((par_perm h).filter _).length_eq]
  have hmemR : ∀ x, x ∈ rowsOf ops' cs' p'.dd.nTT ↔ x ∈ rowsOf ops cs p.dd.nTT := by
    intro x
    rw [rows_mem, rows_mem]
    match x with
    | .inl o => exact (h.obs o).symm
    | .inr (.inl q) => exact (hmemcs q).symm
    | .inr (.inr i) => simp only [hlencs, hnTT]
  have hl := rows_length hp.sys hcs
  have hl' := rows_length hp'.sys hcs'
  have hmemE : ∀ x, x ∈ firstUses (evIds ops') ↔ x ∈ firstUses (evIds ops) := by
    intro x; rw [IdToIndex.mem_firstUses, IdToIndex.mem_firstUses]; exact (h.evIds x).symm
  let σ0 := place (rowsOf ops cs p.dd.nTT) (rowsOf ops' cs' p'.dd.nTT) (rows_nodup hcs.nodup _) (rows_nodup hcs'.nodup _) hmemR
  let ε0 := place (firstUses (evIds ops)) (firstUses (evIds ops')) (IdToIndex.nodup_firstUses _) (IdToIndex.nodup_firstUses _) hmemE
  let σ : Fin p'.dd.numRows ≃ Fin p.dd.numRows := (finCongr hl'.symm).trans (σ0.trans (finCongr hl))
  let ε : Fin p'.dd.nEvts ≃ Fin p.dd.nEvts := (finCongr hp'.events).trans (ε0.trans (finCongr hp.events.symm))
  have hε : ∀ x ∈ evIds ops, ∃ hx : ix (evIds ops') x < p'.dd.nEvts, (ε ⟨ix (evIds ops') x, hx⟩).val = ix (evIds ops) x := by
    intro x hx
    have hx' : x ∈ evIds ops' := (h.evIds x).1 hx
    have hlt : ix (evIds ops') x < p'.dd.nEvts := by rw [hp'.events]; exact ix_lt hx'
    refine ⟨hlt, ?_⟩
    have h1 := place_get (firstUses (evIds ops)) (firstUses (evIds ops')) (IdToIndex.nodup_firstUses _)
      (IdToIndex.nodup_firstUses _) hmemE ⟨ix (evIds ops') x, by rw [← hp'.events]; exact hlt⟩
    have h2 : (firstUses (evIds ops'))[ix (evIds ops') x]'(by rw [← hp'.events]; exact hlt) = x := List.getElem_idxOf _
    simp only [h2] at h1
    have h3 := getElem_ix hx
    show (ε0 ⟨ix (evIds ops') x, _⟩).val = ix (evIds ops) x
    have hnd : (firstUses (evIds ops)).Nodup := IdToIndex.nodup_firstUses _
    have l1 := (List.getElem?_eq_some_iff.1 h1)
    have l3 := (List.getElem?_eq_some_iff.1 h3)
    obtain ⟨a1, b1⟩ := l1
    obtain ⟨a3, b3⟩ := l3
    exact (List.Nodup.getElem_inj_iff hnd).1 (b1.trans b3.symm)
  have hrow : ∀ r : Fin p'.dd.numRows, ∃ c : Content ℝ, Holds ops p (σ r).val c ∧ Holds ops' p' r.val c := by
    intro r
    have hr : r.val < (rowsOf ops' cs' p'.dd.nTT).length := by rw [hl']; exact r.2
    have h1 := place_get (rowsOf ops cs p.dd.nTT) (rowsOf ops' cs' p'.dd.nTT) (rows_nodup hcs.nodup _)
      (rows_nodup hcs'.nodup _) hmemR ⟨r.val, hr⟩
    have h2 : (rowsOf ops' cs' p'.dd.nTT)[r.val]? = some ((rowsOf ops' cs' p'.dd.nTT)[r.val]'hr) := List.getElem?_eq_getElem hr
    refine ⟨_, rows_hold hb hp.sys hcs h1, ?_⟩
    rw [content_same nth nth' ttc rdw h]
    exact rows_hold hb' hp'.sys hcs' h2
  have hidx : ∀ (x : Nat), x ∈ evIds ops → ∀ e : Fin p'.dd.nEvts, ix (evIds ops') x = e.val ↔ ix (evIds ops) x = (ε e).val := by
    intro x hx e
    obtain ⟨hlt, he⟩ := hε x hx
    rw [← he]
    constructor
    · intro e1
      have : (⟨ix (evIds ops') x, hlt⟩ : Fin p'.dd.nEvts) = e := Fin.ext e1
      rw [this]
    · intro e1
      have := ε.injective (Fin.ext e1)
      exact congrArg Fin.val this
  refine ⟨σ, ε, ⟨?_, ?_, ?_, ?_, ?_, prepared_in_range hp.sys, prepared_in_range hp'.sys⟩, hε⟩
  · intro r; obtain ⟨c, h1, h2⟩ := hrow r; rw [h1.W, h2.W]
  · intro r; obtain ⟨c, h1, h2⟩ := hrow r; rw [h1.d, h2.d]
  · intro r e
    obtain ⟨c, h1, h2⟩ := hrow r
    rw [h1.ev1, h2.ev1]
    cases hc : c.id1 with
    | none => simp
    | some x =>
      have hx := (h1.g x (.inl hc)).1
      simp only [Option.map_some, Option.some.injEq]
      exact hidx x hx e
  · intro r e
    obtain ⟨c, h1, h2⟩ := hrow r
    rw [h1.ev2, h2.ev2]
    cases hc : c.id2 with
    | none => simp
    | some x =>
      have hx := (h1.g x (.inr hc)).1
      simp only [Option.map_some, Option.some.injEq]
      exact hidx x hx e
  · intro r e he k hk
    obtain ⟨c, h1, h2⟩ := hrow r
    have key : ∀ x, (c.id1 = some x ∨ c.id2 = some x) → ix (evIds ops') x = e.val →
        p'.dd.G (p'.dd.idxG e.val r.val) k = p.dd.G (p.dd.idxG (ε e).val (σ r).val) k := by
      intro x hx hxe
      obtain ⟨m1, g1⟩ := h1.g x hx
      obtain ⟨m2, g2⟩ := h2.g x hx
      rw [← hxe, g2 k hk, ← (hidx x m1 e).1 hxe, g1 k hk]
    rw [h2.ev1, h2.ev2] at he
    rcases he with he | he
    · cases hc : c.id1 with
      | none => rw [hc] at he; simp at he
      | some x =>
        rw [hc] at he
        simp only [Option.map_some, Option.some.injEq] at he
        exact key x (.inl hc) he
    · cases hc : c.id2 with
      | none => rw [hc] at he; simp at he
      | some x =>
        rw [hc] at he
        simp only [Option.map_some, Option.some.injEq] at he
        exact key x (.inr hc) he

end Verif.Solver

namespace Verif.Relocate
open Verif.Solver Verif.LeastSquares
open IdToIndex (firstUses)

variable {ops ops' : List (SolverOp ℝ)} {nth nth' : NthElement (id : ℝ → ℝ)} {ttc rdw : ℝ} {p p' : Prepared ℝ}

theorem toIdx_find {T : Type} [DecidableEq T] {ids : List T} (hb : ids.length ≤ IdToIndex.uintMod) (x : T) :
    (IdToIndex.run ids).fwd.find? x = if x ∈ ids then some (ix ids x) else none := by
  by_cases hx : x ∈ ids
  · rw [if_pos hx]; exact (toIdx_ok_iff _ _ _).1 (toIdx_ix hx hb)
  · rw [if_neg hx]
    have := (IdToIndex.inv_run ids (card_le_of_length hb)).fwd x
    rw [this, if_neg (fun hc => hx ((IdToIndex.mem_firstUses _ _).1 hc))]

/-- which phases are used -/
theorem used_eq (hb : Fits ops) (hp : Ready ops nth ttc rdw p) (k : Nat) (sta ph : List Char) :
    (run ops).isEventPhaseUsed p.stats k sta ph = true ↔
      k ∈ evIds ops ∧ phStaKey ph sta ∈ phKeys ops ∧ usesOf nth rdw ops k (phStaKey ph sta) ≠ [] := by
  have inv := inv_run ops hb
  unfold isEventPhaseUsed
  rw [inv.evConv, inv.phConv, toIdx_find hb.ev, toIdx_find hb.ph]
  by_cases h1 : k ∈ evIds ops
  · by_cases h2 : phStaKey ph sta ∈ phKeys ops
    · rw [if_pos h1, if_pos h2]
      simp only [hp.stats, weightsAt_uses hb hp.sys h1 h2, h1, h2, true_and]
      cases usesOf nth rdw ops k (phStaKey ph sta) <;> simp [statOf]
    · rw [if_pos h1, if_neg h2]; simp [h2]
  · rw [if_neg h1]; simp [h1]

/-- which events get a change -/
def HasUse (nth : NthElement (id : ℝ → ℝ)) (rdw : ℝ) (ops : List (SolverOp ℝ)) (k : Nat) : Prop :=
  k ∈ evIds ops ∧ ∃ key ∈ phKeys ops, usesOf nth rdw ops k key ≠ []

theorem stat_use (hb : Fits ops) (hp : Ready ops nth ttc rdw p) {e : Nat} (h : ∃ x ∈ p.stats, x.2.1 > 0 ∧ x.1.1 = e) :
    ∃ k, HasUse nth rdw ops k ∧ ix (evIds ops) k = e := by
  obtain ⟨⟨⟨e', ph⟩, v⟩, hx, hv, rfl⟩ := h
  have hf := AMap.find?_of_mem hp.nodup hx
  rw [hp.stats] at hf
  have hne : weightsAt p.dd.nObs p.dd.W p.dd.ev1 p.dd.ev2 p.dd.phSta e' ph ≠ [] := by
    intro hc; rw [hc] at hf; simp [statOf] at hf
  obtain ⟨i, hi, hW, hph, hev⟩ := weightsAt_ne_nil.1 hne
  have hi' : i < (firstBy ObsArg.quad (obsOf ops)).length := by rw [← hp.sys.rows]; exact hi
  have ho := List.getElem?_eq_getElem hi'
  generalize (firstBy ObsArg.quad (obsOf ops))[i] = o at ho
  obtain ⟨m1, m2, m3⟩ := mem_evIds_obs (firstBy_subset _ _ (List.mem_of_getElem? ho))
  obtain ⟨r1, r2, r3, r4, r5⟩ := row_of_obs hb hp.sys ho
  have key : ∀ x, x ∈ evIds ops → ix (evIds ops) x = e' → ∃ k, HasUse nth rdw ops k ∧ ix (evIds ops) k = e' := by
    intro x hx hxe
    refine ⟨x, ⟨hx, phKeyO o, m3, ?_⟩, hxe⟩
    rw [← weightsAt_uses hb hp.sys hx m3, hxe, ← r3, hph]
    exact hne
  rcases hev with hev | hev
  · rw [r1] at hev
    split at hev
    · simp only [Option.some.injEq] at hev; exact key o.e1 m1 hev
    · cases hev
  · rw [r2] at hev
    split at hev
    · simp only [Option.some.injEq] at hev; exact key o.e2 m2 hev
    · cases hev

theorem use_stat (hb : Fits ops) (hp : Ready ops nth ttc rdw p) {k : Nat} (h : HasUse nth rdw ops k) :
    ∃ x ∈ p.stats, x.2.1 > 0 ∧ x.1.1 = ix (evIds ops) k := by
  obtain ⟨h1, key, h2, h3⟩ := h
  have hs := hp.stats (ix (evIds ops) k) (ix (phKeys ops) key)
  rw [weightsAt_uses hb hp.sys h1 h2] at hs
  cases hu : usesOf nth rdw ops k key with
  | nil => exact absurd hu h3
  | cons w l =>
    rw [hu] at hs
    exact ⟨_, AMap.mem_of_find? hs, by simp [statOf], rfl⟩

theorem fetch_num (m : Nat → ℝ) (e : Nat) : fetchDelta (fun c => .num (m c)) e =
    some ⟨.num (m (e * 4 + 0)), .num (m (e * 4 + 1)), .num (m (e * 4 + 2)), .num (m (e * 4 + 3))⟩ := by
  unfold fetchDelta; simp [Fl.isFinite]

open Classical in
theorem changes_eq (hb : Fits ops) (hp : Ready ops nth ttc rdw p) (m : Nat → ℝ) (k : Nat) :
    changesOf (run ops) (loadSolutions p.stats (fun c => .num (m c))) k =
      if HasUse nth rdw ops k then
        some ⟨m (ix (evIds ops) k * 4 + 0), m (ix (evIds ops) k * 4 + 1), m (ix (evIds ops) k * 4 + 2), m (ix (evIds ops) k * 4 + 3)⟩
      else none := by
  have inv := inv_run ops hb
  unfold changesOf getEventChanges
  rw [inv.evConv, toIdx_find hb.ev]
  by_cases h1 : k ∈ evIds ops
  · rw [if_pos h1]
    simp only [loadSolutions_find?, fetch_num]
    by_cases hu : HasUse nth rdw ops k
    · rw [if_pos hu, if_pos (use_stat hb hp hu)]
    · rw [if_neg hu, if_neg]
      intro hc
      obtain ⟨k', hk', e⟩ := stat_use hb hp hc
      have := ix_inj hk'.1 h1 e
      subst this
      exact hu hk'
  · rw [if_neg h1, if_neg (fun hc => h1 hc.1)]

theorem deltas_empty (hb : Fits ops) (hp : Ready ops nth ttc rdw p) (m : Nat → ℝ) :
    (loadSolutions p.stats (fun c => .num (m c))).isEmpty = true ↔ ¬ ∃ k, HasUse nth rdw ops k := by
  constructor
  · rintro h ⟨k, hk⟩
    have he := List.isEmpty_iff.1 h
    have := loadSolutions_find? p.stats (fun c => Fl.num (m c)) (ix (evIds ops) k)
    rw [he, if_pos (use_stat hb hp hk), fetch_num] at this
    cases this
  · intro h
    rw [List.isEmpty_iff]
    cases hl : loadSolutions p.stats (fun c => Fl.num (m c)) with
    | nil => rfl
    | cons x l =>
      exfalso
      have := loadSolutions_find? p.stats (fun c => Fl.num (m c)) x.1
      rw [hl] at this
      have hf : AMap.find? (x :: l) x.1 = some x.2 := by rw [AMap.find?_cons, if_pos rfl]
      rw [hf] at this
      split at this
      · rename_i hs
        obtain ⟨k, hk, -⟩ := stat_use hb hp hs
        exact h ⟨k, hk⟩
      · cases this

theorem hasUse_same (h : SameData ops ops') (k : Nat) : HasUse nth rdw ops k ↔ HasUse nth' rdw ops' k := by
  unfold HasUse
  rw [h.evIds]
  have : ∀ key, usesOf nth rdw ops k key ≠ [] ↔ usesOf nth' rdw ops' k key ≠ [] := by
    intro key
    rw [← List.length_pos_iff, ← List.length_pos_iff, (usesOf_same nth nth' rdw h k key).length_eq]
  simp only [this, h.phKeys]

/-- the answers are the same -/
theorem answer_same (hb : Fits ops) (hb' : Fits ops') (h : SameData ops ops')
    (hp : Ready ops nth ttc rdw p) (hp' : Ready ops' nth' ttc rdw p') {m m' : Nat → ℝ}
    (hm : ∀ x ∈ evIds ops, ∀ k < 4, m' (ix (evIds ops') x * 4 + k) = m (ix (evIds ops) x * 4 + k)) :
    answerOf (run ops) p m = answerOf (run ops') p' m' := by
  unfold answerOf
  simp only
  have hE : (loadSolutions p.stats (fun c => Fl.num (m c))).isEmpty = (loadSolutions p'.stats (fun c => Fl.num (m' c))).isEmpty := by
    rw [Bool.eq_iff_iff, deltas_empty hb hp, deltas_empty hb' hp']
    simp only [hasUse_same (nth := nth) (nth' := nth') h]
  rw [hE]
  split
  · rfl
  · congr 1
    have e1 : changesOf (run ops) (loadSolutions p.stats (fun c => Fl.num (m c))) =
        changesOf (run ops') (loadSolutions p'.stats (fun c => Fl.num (m' c))) := by
      funext k
      rw [changes_eq hb hp, changes_eq hb' hp']
      by_cases hk : HasUse nth rdw ops k
      · rw [if_pos hk, if_pos ((hasUse_same h k).1 hk), hm k hk.1 0 (by omega), hm k hk.1 1 (by omega), hm k hk.1 2 (by omega),
          hm k hk.1 3 (by omega)]
      · rw [if_neg hk, if_neg (fun hc => hk ((hasUse_same h k).2 hc))]
    have e2 : (fun (k : Nat) (sta ph : String) => (run ops).isEventPhaseUsed p.stats k sta.toList ph.toList) =
        (fun (k : Nat) (sta ph : String) => (run ops').isEventPhaseUsed p'.stats k sta.toList ph.toList) := by
      funext k sta ph
      rw [Bool.eq_iff_iff, used_eq hb hp, used_eq hb' hp', h.evIds, h.phKeys, ← List.length_pos_iff, ← List.length_pos_iff,
        (usesOf_same nth nth' rdw h k _).length_eq]
    rw [e1, e2]

theorem firstBy_nil {α κ : Type} [DecidableEq κ] (key : α → κ) (l : List α) : firstBy key l = [] ↔ l = [] := by
  constructor
  · intro h0
    rw [List.eq_nil_iff_forall_not_mem]
    intro x hx
    have : key x ∈ (firstBy key l).map key := by
      rw [firstBy_map, IdToIndex.mem_firstUses]; exact List.mem_map.2 ⟨x, hx, rfl⟩
    rw [h0] at this; simp at this
  · rintro rfl
    rw [List.eq_nil_iff_forall_not_mem]
    intro x hx
    simpa using firstBy_subset _ _ hx

theorem observations_empty (hb : Fits ops) (hb' : Fits ops') (h : SameData ops ops') :
    (run ops).observations.isEmpty = (run ops').observations.isEmpty := by
  have key : ∀ {o : List (SolverOp ℝ)}, Fits o → ((run o).observations.isEmpty = true ↔ firstBy ObsArg.quad (obsOf o) = []) := by
    intro o ho
    rw [List.isEmpty_iff, ← List.length_eq_zero_iff, (inv_run o ho).obsLen, List.length_eq_zero_iff, firstBy_nil, firstBy_nil]
  rw [Bool.eq_iff_iff, key hb, key hb', ← List.length_eq_zero_iff, ← List.length_eq_zero_iff, (obs_perm h).length_eq]

theorem solved_same {su su' : SolverSetup} (e1 : su.method = su'.method) (e2 : su.iterations = su'.iterations)
    (e3 : su.normalize = su'.normalize) (hb : Fits ops) (hb' : Fits ops') (h : SameData ops ops')
    (hp : Ready ops nth ttc rdw p) (hp' : Ready ops' nth' ttc rdw p') (it : Nat) (hodd : su.odd it ops = su'.odd it ops')
    (damping : ℝ) : su.solved it ops p damping = su'.solved it ops' p' damping := by
  obtain ⟨σ, ε, hsame, hε⟩ := same_system hb hb' h hp hp'
  unfold SolverSetup.solved
  rw [observations_empty hb hb' h, ← e1, ← e2, ← e3]
  split
  · rfl
  · cases su.method with
    | none => rfl
    | some method =>
      simp only
      by_cases hd : su.normalize = true ∧ degenerate p.dd
      · rw [if_pos hd, if_pos ⟨hd.1, (degenerate_same hsame).2 hd.2⟩]; exact hodd
      · rw [if_neg hd, if_neg (fun hc => hd ⟨hc.1, (degenerate_same hsame).1 hc.2⟩)]
        have hs := solveDD_same hsame method su.iterations damping su.normalize
        generalize solveDD method p.dd su.iterations damping su.normalize = R at hs
        generalize solveDD method p'.dd su.iterations damping su.normalize = R' at hs
        match R, R', hs with
        | .ok (r, m), .ok (r', m'), hs =>
          refine answer_same hb hb' h hp hp' ?_
          intro x hx k hk
          obtain ⟨hlt, he⟩ := hε x hx
          rw [← he]
          exact hs.2 ⟨_, hlt⟩ k hk
        | .throws, .throws, _ => rfl
        | .ub, .ub, _ => rfl

/-- the solver gives the same answers -/
theorem solve_same {su su' : SolverSetup} (so : SolverOptions ℝ) (e1 : su.method = su'.method)
    (e2 : su.iterations = su'.iterations) (e3 : su.normalize = su'.normalize) (hv : su.Visits) (hv' : su'.Visits)
    (hb : Fits ops) (hb' : Fits ops') (hs : NoSeparator ops) (hs' : NoSeparator ops') (hc : Complete ops) (hc' : Complete ops')
    (h : SameData ops ops') (it : Nat) (hodd : su.odd it ops = su'.odd it ops') (damping : ℝ) :
    (realSolver su so).solve it ops damping = (realSolver su' so).solve it ops' damping := by
  unfold realSolver SolverSetup.prepared
  simp only
  generalize interpolate so.algoIterations it so.absLocConstraintStart so.absLocConstraintEnd = ttc
  generalize interpolate so.algoIterations it so.downWeightingByResidualStart so.downWeightingByResidualEnd = rdw
  have num : ∀ {a b : List (SolverOp ℝ)} {n n' : NthElement (id : ℝ → ℝ)} {p : Prepared ℝ}, SameData a b → IsSystemOf a n ttc rdw p →
      rdw > 0 → ¬ ∃ x ∈ residuals b, ∀ w, residualWeight rdw (madOf n' b) x ≠ .num w := by
    rintro a b n n' p hab hsys hr ⟨x, hx, hw⟩
    obtain ⟨w, hw'⟩ := ready_num hsys hr x ((residuals_same hab).mem_iff.2 hx)
    rw [madOf_same n n' hab] at hw'
    exact hw w hw'
  rcases ready_of (nth := su.nth) (ttc := ttc) (rdw := rdw) hb hs hc (hv.obs _) (hv.params _) with ⟨p, hp, hr⟩ | ⟨hp, hr⟩ <;>
  rcases ready_of (nth := su'.nth) (ttc := ttc) (rdw := rdw) hb' hs' hc' (hv'.obs _) (hv'.params _) with ⟨p', hp', hr'⟩ | ⟨hp', hr'⟩ <;>
  rw [hp, hp']
  · exact solved_same e1 e2 e3 hb hb' h hr hr' it hodd damping
  · exact absurd hr'.2 (num h hr.sys hr'.1)
  · exact absurd hr.2 (num h.symm hr'.sys hr.1)
  · exact hodd

end Verif.Relocate
