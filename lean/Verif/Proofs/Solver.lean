import Verif.Spec.Solver
import Verif.Proofs.IdToIndex
import Verif.Props.IdToIndex
import Mathlib.Data.List.Induction

set_option linter.unusedSectionVars false
set_option linter.unusedSimpArgs false

namespace Verif.Solver
open IdToIndex (firstUses)

/-! ## first elements by key -/

section firstBy
variable {α β γ : Type} [DecidableEq β] [DecidableEq γ]

theorem firstBy_snoc (key : α → β) (l : List α) (x : α) :
    firstBy key (l ++ [x]) =
      if key x ∈ (firstBy key l).map key then firstBy key l else firstBy key l ++ [x] := by
  unfold firstBy; rw [List.foldl_append]; rfl

theorem firstBy_map (key : α → β) (l : List α) : (firstBy key l).map key = firstUses (l.map key) := by
  induction l using List.reverseRecOn with
  | nil => rfl
  | append_singleton l x ih =>
    rw [firstBy_snoc, List.map_append, List.map_cons, List.map_nil, IdToIndex.firstUses_snoc, ← ih]
    by_cases h : key x ∈ (firstBy key l).map key
    · rw [if_pos h, if_pos h]
    · rw [if_neg h, if_neg h]; simp

theorem firstBy_subset (key : α → β) (l : List α) {x : α} (h : x ∈ firstBy key l) : x ∈ l := by
  induction l using List.reverseRecOn with
  | nil => simp [firstBy] at h
  | append_singleton l y ih =>
    rw [firstBy_snoc] at h
    by_cases hk : key y ∈ (firstBy key l).map key
    · rw [if_pos hk] at h; exact List.mem_append_left _ (ih h)
    · rw [if_neg hk] at h
      rcases List.mem_append.1 h with h | h
      · exact List.mem_append_left _ (ih h)
      · exact List.mem_append_right _ h

theorem firstBy_congr (key : α → β) (key' : α → γ) (l : List α)
    (h : ∀ x ∈ l, ∀ y ∈ l, key x = key y ↔ key' x = key' y) : firstBy key l = firstBy key' l := by
  induction l using List.reverseRecOn with
  | nil => rfl
  | append_singleton l x ih =>
    have ih := ih (fun a ha b hb => h a (by simp [ha]) b (by simp [hb]))
    rw [firstBy_snoc, firstBy_snoc, ih]
    have : key x ∈ (firstBy key' l).map key ↔ key' x ∈ (firstBy key' l).map key' := by
      simp only [List.mem_map]
      constructor
      · rintro ⟨a, ha, he⟩
        exact ⟨a, ha, (h a (by simp [firstBy_subset _ _ ha]) x (by simp)).1 he⟩
      · rintro ⟨a, ha, he⟩
        exact ⟨a, ha, (h a (by simp [firstBy_subset _ _ ha]) x (by simp)).2 he⟩
    by_cases hk : key x ∈ (firstBy key' l).map key
    · rw [if_pos hk, if_pos (this.1 hk)]
    · rw [if_neg hk, if_neg (fun h' => hk (this.2 h'))]

theorem firstBy_nodup (key : α → β) (l : List α) : ((firstBy key l).map key).Nodup := by
  rw [firstBy_map]; exact IdToIndex.nodup_firstUses _

end firstBy

/-! ## indices -/

section ix
variable {T : Type} [DecidableEq T]

/-- index of an id after the given conversions -/
def ix (ids : List T) (x : T) : Nat := (firstUses ids).idxOf x

theorem firstUses_prefix (ids more : List T) : ∃ rest, firstUses (ids ++ more) = firstUses ids ++ rest := by
  induction more using List.reverseRecOn with
  | nil => exact ⟨[], by simp⟩
  | append_singleton more x ih =>
    obtain ⟨rest, h⟩ := ih
    rw [← List.append_assoc, IdToIndex.firstUses_snoc, h]
    split
    · exact ⟨rest, rfl⟩
    · exact ⟨rest ++ [x], by simp⟩

theorem ix_append {ids more : List T} {x : T} (h : x ∈ ids) : ix (ids ++ more) x = ix ids x := by
  obtain ⟨rest, he⟩ := firstUses_prefix ids more
  unfold ix
  rw [he, List.idxOf_append_of_mem ((IdToIndex.mem_firstUses ids x).2 h)]

theorem ix_lt {ids : List T} {x : T} (h : x ∈ ids) : ix ids x < (firstUses ids).length :=
  List.idxOf_lt_length_of_mem ((IdToIndex.mem_firstUses ids x).2 h)

theorem ix_inj {ids : List T} {x y : T} (hx : x ∈ ids) (hy : y ∈ ids) (h : ix ids x = ix ids y) :
    x = y := by
  have h1 : (firstUses ids)[ix ids x]? = some x := by
    rw [List.getElem?_eq_getElem (ix_lt hx)]; exact congrArg some (List.getElem_idxOf (ix_lt hx))
  have h2 : (firstUses ids)[ix ids y]? = some y := by
    rw [List.getElem?_eq_getElem (ix_lt hy)]; exact congrArg some (List.getElem_idxOf (ix_lt hy))
  rw [h, h2] at h1
  exact (Option.some.inj h1).symm

theorem getElem_ix {ids : List T} {x : T} (h : x ∈ ids) : (firstUses ids)[ix ids x]? = some x := by
  rw [List.getElem?_eq_getElem (ix_lt h)]
  exact congrArg some (List.getElem_idxOf (ix_lt h))

/-- the index of a new id -/
theorem ix_new {ids : List T} {x : T} (h : x ∉ ids) : ix (ids ++ [x]) x = (firstUses ids).length := by
  have h' : x ∉ firstUses ids := fun hc => h ((IdToIndex.mem_firstUses _ _).1 hc)
  unfold ix
  rw [IdToIndex.firstUses_snoc, if_neg h', List.idxOf_append_of_notMem h']
  simp

theorem run_snoc (ids : List T) (x : T) :
    IdToIndex.run (ids ++ [x]) = ((IdToIndex.run ids).convert x).1 := by
  simp [IdToIndex.run, List.foldl_append]

theorem card_le_of_length {l : List T} {n : Nat} (h : l.length ≤ n) : l.toFinset.card ≤ n :=
  le_trans (List.toFinset_card_le l) h

theorem convert_snd (ids : List T) (x : T) (hb : (ids ++ [x]).length ≤ IdToIndex.uintMod) :
    ((IdToIndex.run ids).convert x).2 = ix (ids ++ [x]) x := by
  have h1 := IdToIndex.index_stable ids [] x (card_le_of_length hb)
  have h2 := (IdToIndex.inv_run (ids ++ [x]) (card_le_of_length hb)).fwd x
  unfold IdToIndex.toIdx at h1
  rw [h2, if_pos ((IdToIndex.mem_firstUses _ _).2 (by simp))] at h1
  simp only [Outcome.ok.injEq] at h1
  exact h1.symm

theorem run_size (ids : List T) (hb : ids.length ≤ IdToIndex.uintMod) :
    (IdToIndex.run ids).size = (firstUses ids).length :=
  (IdToIndex.inv_run ids (card_le_of_length hb)).size

end ix

variable {K : Type} [Field K] [LinearOrder K]

/-! ## ids used by a history -/

def phKeyO (o : ObsArg K) : List Char := phStaKey o.phase o.sta
def phKeyP (p : ParArg K) : List Char := phStaKey p.phase p.sta
def okey (o : ObsArg K) : List Char := obsKey o.e1 o.e2 (phKeyO o)

def evIdsOp : SolverOp K → List Nat
  | .event id _ _ _ => [id]
  | .station _ _ _ _ => []
  | .obs o => [o.e1, o.e2]
  | .params p => [p.ev]

def phKeysOp : SolverOp K → List (List Char)
  | .event _ _ _ _ => []
  | .station _ _ _ _ => []
  | .obs o => [phKeyO o]
  | .params p => [phKeyP p]

def evIds (ops : List (SolverOp K)) : List Nat := ops.flatMap evIdsOp
def phKeys (ops : List (SolverOp K)) : List (List Char) := ops.flatMap phKeysOp
def obsKeys (ops : List (SolverOp K)) : List (List Char) := (obsOf ops).map okey

theorem evIds_snoc (ops : List (SolverOp K)) (op) : evIds (ops ++ [op]) = evIds ops ++ evIdsOp op := by
  simp [evIds]
theorem phKeys_snoc (ops : List (SolverOp K)) (op) : phKeys (ops ++ [op]) = phKeys ops ++ phKeysOp op := by
  simp [phKeys]

theorem evIds_length (ops : List (SolverOp K)) : (evIds ops).length ≤ 2 * ops.length := by
  induction ops with
  | nil => simp [evIds]
  | cons op ops ih =>
    have : (evIdsOp op).length ≤ 2 := by cases op <;> simp [evIdsOp]
    simp only [evIds, List.flatMap_cons, List.length_append, List.length_cons] at ih ⊢
    omega

theorem phKeys_length (ops : List (SolverOp K)) : (phKeys ops).length ≤ ops.length := by
  induction ops with
  | nil => simp [phKeys]
  | cons op ops ih =>
    have : (phKeysOp op).length ≤ 1 := by cases op <;> simp [phKeysOp]
    simp only [phKeys, List.flatMap_cons, List.length_append, List.length_cons] at ih ⊢
    omega

theorem obsOf_length (ops : List (SolverOp K)) : (obsOf ops).length ≤ ops.length :=
  List.length_filterMap_le _ _

theorem mem_evIds_obs {ops : List (SolverOp K)} {o : ObsArg K} (h : o ∈ obsOf ops) :
    o.e1 ∈ evIds ops ∧ o.e2 ∈ evIds ops ∧ phKeyO o ∈ phKeys ops := by
  unfold obsOf at h
  rw [List.mem_filterMap] at h
  obtain ⟨op, hop, he⟩ := h
  cases op with
  | obs o' =>
    simp only [Option.some.injEq] at he
    subst he
    refine ⟨List.mem_flatMap.2 ⟨_, hop, by simp [evIdsOp]⟩, List.mem_flatMap.2 ⟨_, hop, by simp [evIdsOp]⟩,
      List.mem_flatMap.2 ⟨_, hop, by simp [phKeysOp]⟩⟩
  | event => simp at he
  | station => simp at he
  | params => simp at he

theorem mem_evIds_par {ops : List (SolverOp K)} {p : ParArg K} (h : p ∈ parOf ops) :
    p.ev ∈ evIds ops ∧ phKeyP p ∈ phKeys ops := by
  unfold parOf at h
  rw [List.mem_filterMap] at h
  obtain ⟨op, hop, he⟩ := h
  cases op with
  | params o' =>
    simp only [Option.some.injEq] at he
    subst he
    exact ⟨List.mem_flatMap.2 ⟨_, hop, by simp [evIdsOp]⟩, List.mem_flatMap.2 ⟨_, hop, by simp [phKeysOp]⟩⟩
  | event => simp at he
  | station => simp at he
  | obs => simp at he

theorem mem_evIds_event {ops : List (SolverOp K)} {e : Nat} (h : e ∈ eventsOf ops) : e ∈ evIds ops := by
  unfold eventsOf at h
  rw [List.mem_filterMap] at h
  obtain ⟨op, hop, he⟩ := h
  cases op with
  | event =>
    simp only [Option.some.injEq] at he
    subst he
    exact List.mem_flatMap.2 ⟨_, hop, by simp [evIdsOp]⟩
  | params => simp at he
  | station => simp at he
  | obs => simp at he

/-- stored observation -/
def toObs (ops : List (SolverOp K)) (o : ObsArg K) : Obs K :=
  ⟨ix (evIds ops) o.e1, ix (evIds ops) o.e2, ix (phKeys ops) (phKeyO o), o.timeDiff, o.weight,
    o.xcorrUsed, o.xcorrCoeff⟩

def toPar (p : ParArg K) : ObsParams K := ⟨p.free, p.tt, p.ttRes, p.dx, p.dy, p.dz⟩

/-- Invariant: what the maps contain after a history. -/
structure Inv (s : Solver K) (ops : List (SolverOp K)) : Prop where
  evConv : s.evConv = IdToIndex.run (evIds ops)
  phConv : s.phStaConv = IdToIndex.run (phKeys ops)
  obsConv : s.obsConv = IdToIndex.run (obsKeys ops)
  obs : ∀ i, s.observations.find? i = ((firstBy okey (obsOf ops))[i]?).map (toObs ops)
  obsNodup : s.observations.NodupKeys
  obsLen : s.observations.length = (firstBy okey (obsOf ops)).length
  par : ∀ i j, s.obsParams.find? (i, j) =
    ((parOf ops).find? (fun p => decide (ix (evIds ops) p.ev = i ∧ ix (phKeys ops) (phKeyP p) = j))).map toPar
  parNodup : s.obsParams.NodupKeys
  ev : ∀ e ∈ eventsOf ops, (s.eventParams.find? (ix (evIds ops) e)).isSome = true

theorem toObs_stable {ops : List (SolverOp K)} {o : ObsArg K} (h : o ∈ obsOf ops) (op : SolverOp K) :
    toObs (ops ++ [op]) o = toObs ops o := by
  obtain ⟨h1, h2, h3⟩ := mem_evIds_obs h
  unfold toObs
  rw [evIds_snoc, phKeys_snoc, ix_append h1, ix_append h2, ix_append h3]

theorem obsOf_snoc (ops : List (SolverOp K)) (op : SolverOp K) :
    obsOf (ops ++ [op]) = obsOf ops ++ (match op with | .obs o => [o] | _ => []) := by
  unfold obsOf; rw [List.filterMap_append]; cases op <;> rfl

theorem parOf_snoc (ops : List (SolverOp K)) (op : SolverOp K) :
    parOf (ops ++ [op]) = parOf ops ++ (match op with | .params p => [p] | _ => []) := by
  unfold parOf; rw [List.filterMap_append]; cases op <;> rfl

theorem eventsOf_snoc (ops : List (SolverOp K)) (op : SolverOp K) :
    eventsOf (ops ++ [op]) = eventsOf ops ++ (match op with | .event id _ _ _ => [id] | _ => []) := by
  unfold eventsOf; rw [List.filterMap_append]; cases op <;> rfl

theorem length_insertNew {A B : Type} [DecidableEq A] (m : AMap A B) (k : A) (v : B) :
    (m.insertNew k v).length = if (m.find? k).isSome then m.length else m.length + 1 := by
  unfold AMap.insertNew
  cases h : m.find? k <;> simp

/-- the parameters are not affected by later ids -/
theorem par_stable (ops : List (SolverOp K)) (op : SolverOp K) (i j : Nat) :
    (parOf ops).find? (fun p => decide (ix (evIds (ops ++ [op])) p.ev = i ∧
      ix (phKeys (ops ++ [op])) (phKeyP p) = j)) =
    (parOf ops).find? (fun p => decide (ix (evIds ops) p.ev = i ∧ ix (phKeys ops) (phKeyP p) = j)) := by
  apply List.find?_congr
  intro p hp
  obtain ⟨h1, h2⟩ := mem_evIds_par hp
  rw [evIds_snoc, phKeys_snoc, ix_append h1, ix_append h2]

theorem inv_run (ops : List (SolverOp K)) (hb : Fits ops) : Inv (run ops) ops := by
  induction ops using List.reverseRecOn with
  | nil =>
    refine ⟨rfl, rfl, rfl, ?_, List.nodup_nil, rfl, ?_, List.nodup_nil, ?_⟩
    · intro i; simp [run, init, firstBy, obsOf]
    · intro i j; simp [run, init, parOf]
    · intro e he; simp [eventsOf] at he
  | append_singleton ops op ih =>
    have hb' : Fits ops := by unfold Fits at hb ⊢; simp at hb; omega
    have ih := ih hb'
    have hrun : run (ops ++ [op]) = (run ops).step op := by simp [run, List.foldl_append]
    have hev := evIds_length (ops ++ [op])
    have hph := phKeys_length (ops ++ [op])
    have hob := obsOf_length (ops ++ [op])
    unfold Fits at hb
    rw [hrun]
    generalize run ops = s at ih
    have hobsSame : (∀ o, op ≠ .obs o) → ∀ i, s.observations.find? i =
        ((firstBy okey (obsOf (ops ++ [op])))[i]?).map (toObs (ops ++ [op])) := by
      intro hne i
      have e : obsOf (ops ++ [op]) = obsOf ops := by
        rw [obsOf_snoc]; cases op <;> simp_all
      rw [e, ih.obs]
      cases h : (firstBy okey (obsOf ops))[i]? with
      | none => rfl
      | some o =>
        have := firstBy_subset _ _ (List.mem_of_getElem? h)
        simp [toObs_stable this]
    have hparSame : (∀ p, op ≠ .params p) → ∀ i j, s.obsParams.find? (i, j) =
        ((parOf (ops ++ [op])).find? (fun p => decide (ix (evIds (ops ++ [op])) p.ev = i ∧
          ix (phKeys (ops ++ [op])) (phKeyP p) = j))).map toPar := by
      intro hne i j
      have e : parOf (ops ++ [op]) = parOf ops := by
        rw [parOf_snoc]; cases op <;> simp_all
      rw [e, ih.par, par_stable]
    have hevSame : (∀ a b c d, op ≠ .event a b c d) → ∀ e ∈ eventsOf (ops ++ [op]),
        (s.eventParams.find? (ix (evIds (ops ++ [op])) e)).isSome = true := by
      intro hne e he
      have e' : eventsOf (ops ++ [op]) = eventsOf ops := by
        rw [eventsOf_snoc]
        cases op with
        | event a b c d => exact absurd rfl (hne a b c d)
        | _ => simp
      rw [e'] at he
      rw [evIds_snoc, ix_append (mem_evIds_event he)]
      exact ih.ev e he
    have hkeys : (∀ o, op ≠ .obs o) → obsKeys (ops ++ [op]) = obsKeys ops := by
      intro hne
      unfold obsKeys; rw [obsOf_snoc]; cases op <;> simp_all
    have hlen : (∀ o, op ≠ .obs o) → s.observations.length = (firstBy okey (obsOf (ops ++ [op]))).length := by
      intro hne
      have e : obsOf (ops ++ [op]) = obsOf ops := by
        rw [obsOf_snoc]; cases op <;> simp_all
      rw [e, ih.obsLen]
    cases op with
    | event id lat lon dep =>
      have hidx : (s.evConv.convert id).2 = ix (evIds (ops ++ [.event id lat lon dep])) id := by
        rw [ih.evConv, evIds_snoc]
        apply convert_snd
        have : (evIds (ops ++ [SolverOp.event id lat lon dep])).length = (evIds ops ++ [id]).length := by
          rw [evIds_snoc]; rfl
        omega
      refine ⟨?_, ?_, ?_, hobsSame (by simp), ih.obsNodup, hlen (by simp), hparSame (by simp), ih.parNodup, ?_⟩
      · simp only [step, addEvent]
        rw [ih.evConv, evIds_snoc, evIdsOp, run_snoc]
      · simp only [step, addEvent]
        rw [ih.phConv, phKeys_snoc]; simp [phKeysOp]
      · rw [hkeys (by simp)]; exact ih.obsConv
      · intro e he
        simp only [step, addEvent]
        rw [AMap.find?_insertNew]
        split
        · rfl
        · rename_i hne
          rw [hidx] at hne
          rw [eventsOf_snoc] at he
          rcases List.mem_append.1 he with he | he
          · rw [evIds_snoc, ix_append (mem_evIds_event he)]
            exact ih.ev e he
          · simp only [List.mem_singleton] at he
            subst he
            rw [Option.isSome_iff_ne_none]
            intro hc
            exact hne ⟨rfl, hc⟩
    | station sta lat lon el =>
      refine ⟨?_, ?_, ?_, hobsSame (by simp), ih.obsNodup, hlen (by simp), hparSame (by simp), ih.parNodup,
        hevSame (by simp)⟩
      · simp only [step, addStation]; rw [ih.evConv, evIds_snoc]; simp [evIdsOp]
      · simp only [step, addStation]; rw [ih.phConv, phKeys_snoc]; simp [phKeysOp]
      · rw [hkeys (by simp)]; exact ih.obsConv
    | params p =>
      have hidx : (s.evConv.convert p.ev).2 = ix (evIds (ops ++ [.params p])) p.ev := by
        rw [ih.evConv, evIds_snoc]
        apply convert_snd
        have : (evIds (ops ++ [SolverOp.params p])).length = (evIds ops ++ [p.ev]).length := by
          rw [evIds_snoc]; rfl
        omega
      have hidp : (s.phStaConv.convert (phStaKey p.phase p.sta)).2 =
          ix (phKeys (ops ++ [.params p])) (phKeyP p) := by
        rw [ih.phConv, phKeys_snoc]
        apply convert_snd
        have : (phKeys (ops ++ [SolverOp.params p])).length = (phKeys ops ++ [phStaKey p.phase p.sta]).length := by
          rw [phKeys_snoc]; rfl
        simp only [List.length_append, List.length_cons, List.length_nil] at *
        omega
      refine ⟨?_, ?_, ?_, hobsSame (by simp), ih.obsNodup, hlen (by simp), ?_, ?_, hevSame (by simp)⟩
      · simp only [step, addObservationParams]
        rw [ih.evConv, evIds_snoc, evIdsOp, run_snoc]
      · simp only [step, addObservationParams]
        rw [ih.phConv, phKeys_snoc, phKeysOp, run_snoc]; rfl
      · rw [hkeys (by simp)]; exact ih.obsConv
      · intro i j
        simp only [step, addObservationParams]
        rw [AMap.find?_insertNew, hidx, hidp, ih.par, ih.par, parOf_snoc, List.find?_append, par_stable]
        simp only [Prod.mk.injEq]
        cases hf : (parOf ops).find? (fun p => decide (ix (evIds ops) p.ev = i ∧ ix (phKeys ops) (phKeyP p) = j)) with
        | some q =>
          simp only [Option.map_some, Option.some_or]
          by_cases hc : (i = ix (evIds (ops ++ [.params p])) p.ev ∧ j = ix (phKeys (ops ++ [.params p])) (phKeyP p))
          · rw [← hc.1, ← hc.2, hf]; simp
          · rw [if_neg (fun h => hc h.1)]
        | none =>
          simp only [Option.map_none, Option.none_or, List.find?_cons, List.find?_nil]
          by_cases hc : (i = ix (evIds (ops ++ [.params p])) p.ev ∧ j = ix (phKeys (ops ++ [.params p])) (phKeyP p))
          · rw [← hc.1, ← hc.2, hf]; simp [toPar]
          · rw [if_neg (fun h => hc h.1)]
            have : decide (ix (evIds (ops ++ [SolverOp.params p])) p.ev = i ∧
                ix (phKeys (ops ++ [SolverOp.params p])) (phKeyP p) = j) = false := by
              simp only [decide_eq_false_iff_not]
              exact fun h => hc ⟨h.1.symm, h.2.symm⟩
            rw [this]; rfl
      · simp only [step, addObservationParams]
        exact AMap.nodupKeys_insertNew ih.parNodup _ _
    | obs o =>
      have h2 : evIds (ops ++ [.obs o]) = (evIds ops ++ [o.e1]) ++ [o.e2] := by
        rw [evIds_snoc]; simp [evIdsOp]
      have hidx1 : (s.evConv.convert o.e1).2 = ix (evIds (ops ++ [.obs o])) o.e1 := by
        rw [ih.evConv, h2, ix_append (by simp)]
        apply convert_snd
        have := congrArg List.length h2
        simp only [List.length_append, List.length_cons, List.length_nil] at *
        omega
      have hev1 : (s.evConv.convert o.e1).1 = IdToIndex.run (evIds ops ++ [o.e1]) := by
        rw [ih.evConv, run_snoc]
      have hidx2 : ((s.evConv.convert o.e1).1.convert o.e2).2 = ix (evIds (ops ++ [.obs o])) o.e2 := by
        rw [hev1, h2]
        apply convert_snd
        rw [← h2]; omega
      have hidp : (s.phStaConv.convert (phStaKey o.phase o.sta)).2 =
          ix (phKeys (ops ++ [.obs o])) (phKeyO o) := by
        rw [ih.phConv, phKeys_snoc]
        apply convert_snd
        have : (phKeys (ops ++ [SolverOp.obs o])).length = (phKeys ops ++ [phStaKey o.phase o.sta]).length := by
          rw [phKeys_snoc]; rfl
        simp only [List.length_append, List.length_cons, List.length_nil] at *
        omega
      have hko : obsKeys (ops ++ [.obs o]) = obsKeys ops ++ [okey o] := by
        unfold obsKeys; rw [obsOf_snoc]; simp
      have hido : (s.obsConv.convert (obsKey o.e1 o.e2 (phStaKey o.phase o.sta))).2 =
          ix (obsKeys ops ++ [okey o]) (okey o) := by
        rw [ih.obsConv]
        apply convert_snd
        have h3 := congrArg List.length hko
        unfold obsKeys at h3 ⊢
        simp only [List.length_append, List.length_cons, List.length_nil, List.length_map] at *
        omega
      have hstep : (s.step (.obs o)).observations = s.observations.insertNew
          (ix (obsKeys ops ++ [okey o]) (okey o)) (toObs (ops ++ [.obs o]) o) := by
        simp only [step, addObservation]
        rw [hidx1, hidx2, hidp, hido]; rfl
      have hoo : obsOf (ops ++ [.obs o]) = obsOf ops ++ [o] := by rw [obsOf_snoc]
      have hmapEq : (firstBy okey (obsOf ops)).map okey = firstUses (obsKeys ops) := firstBy_map _ _
      have hlenEq : (firstUses (obsKeys ops)).length = (firstBy okey (obsOf ops)).length := by
        rw [← hmapEq]; simp
      have hst : ∀ i : Nat, ((firstBy okey (obsOf ops))[i]?).map (toObs (ops ++ [.obs o])) =
          ((firstBy okey (obsOf ops))[i]?).map (toObs ops) := by
        intro i
        cases h : (firstBy okey (obsOf ops))[i]? with
        | none => rfl
        | some q => simp [toObs_stable (firstBy_subset _ _ (List.mem_of_getElem? h))]
      -- is the key known?
      by_cases hk : okey o ∈ obsKeys ops
      · have hk' : okey o ∈ (firstBy okey (obsOf ops)).map okey := by
          rw [hmapEq]; exact (IdToIndex.mem_firstUses _ _).2 hk
        have hfb : firstBy okey (obsOf (ops ++ [.obs o])) = firstBy okey (obsOf ops) := by
          rw [hoo, firstBy_snoc, if_pos hk']
        have hix : ix (obsKeys ops ++ [okey o]) (okey o) = ix (obsKeys ops) (okey o) := ix_append hk
        have hsome : (s.observations.find? (ix (obsKeys ops) (okey o))).isSome = true := by
          rw [ih.obs]
          have : ix (obsKeys ops) (okey o) < (firstBy okey (obsOf ops)).length := by
            rw [← hlenEq]; exact ix_lt hk
          simp [this]
        have hsame : s.observations.insertNew (ix (obsKeys ops ++ [okey o]) (okey o))
            (toObs (ops ++ [.obs o]) o) = s.observations := by
          rw [hix]; unfold AMap.insertNew
          cases hf : s.observations.find? (ix (obsKeys ops) (okey o)) with
          | none => rw [hf] at hsome; cases hsome
          | some _ => rfl
        refine ⟨?_, ?_, ?_, ?_, ?_, ?_, hparSame (by simp), ih.parNodup, hevSame (by simp)⟩
        · simp only [step, addObservation]; rw [hev1, h2, ← run_snoc]
        · simp only [step, addObservation]; rw [ih.phConv, phKeys_snoc, phKeysOp, run_snoc]; rfl
        · simp only [step, addObservation]; rw [ih.obsConv, hko, run_snoc]; rfl
        · intro i; rw [hstep, hsame, hfb, hst, ih.obs]
        · rw [hstep, hsame]; exact ih.obsNodup
        · rw [hstep, hsame, hfb]; exact ih.obsLen
      · have hk' : okey o ∉ (firstBy okey (obsOf ops)).map okey := by
          rw [hmapEq]; exact fun h => hk ((IdToIndex.mem_firstUses _ _).1 h)
        have hfb : firstBy okey (obsOf (ops ++ [.obs o])) = firstBy okey (obsOf ops) ++ [o] := by
          rw [hoo, firstBy_snoc, if_neg hk']
        have hix : ix (obsKeys ops ++ [okey o]) (okey o) = (firstBy okey (obsOf ops)).length := by
          rw [ix_new hk, hlenEq]
        have hnone : s.observations.find? (firstBy okey (obsOf ops)).length = none := by
          rw [ih.obs]; simp
        refine ⟨?_, ?_, ?_, ?_, ?_, ?_, hparSame (by simp), ih.parNodup, hevSame (by simp)⟩
        · simp only [step, addObservation]; rw [hev1, h2, ← run_snoc]
        · simp only [step, addObservation]; rw [ih.phConv, phKeys_snoc, phKeysOp, run_snoc]; rfl
        · simp only [step, addObservation]; rw [ih.obsConv, hko, run_snoc]; rfl
        · intro i
          rw [hstep, hix, AMap.find?_insertNew, hfb]
          rcases lt_trichotomy i (firstBy okey (obsOf ops)).length with hi | hi | hi
          · rw [if_neg (by omega), List.getElem?_append_left hi, hst, ih.obs]
          · subst hi; rw [if_pos ⟨rfl, hnone⟩]; simp
          · have e1 : (firstBy okey (obsOf ops))[i]? = none := List.getElem?_eq_none (by omega)
            have e2 : (firstBy okey (obsOf ops) ++ [o])[i]? = none :=
              List.getElem?_eq_none (by simp; omega)
            rw [if_neg (by omega), ih.obs, e1, e2]
            rfl
        · rw [hstep]; exact AMap.nodupKeys_insertNew ih.obsNodup _ _
        · rw [hstep, hix, length_insertNew, hnone, hfb, ih.obsLen]; simp

end Verif.Solver
