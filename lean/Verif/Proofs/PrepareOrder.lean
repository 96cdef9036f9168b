import Verif.Spec.SolverOrder
import Verif.Proofs.SystemOrder
import Verif.Proofs.SolverPrepare
import Verif.Props.Solver
import Verif.Props.Stats
import Mathlib.Data.List.NodupEquivFin

/-! Helper lemmas for C107: the systems prepared for the same calls in different orders. -/

set_option linter.unusedSectionVars false
set_option linter.unusedSimpArgs false

namespace Verif.Solver
open IdToIndex (firstUses)
open Verif.LeastSquares

/-! ## lists with the same elements -/

section lists
variable {T : Type} [DecidableEq T]

/-- where the elements of one list are in another one with the same elements -/
noncomputable def place (l l' : List T) (h : l.Nodup) (h' : l'.Nodup) (hm : ∀ x, x ∈ l' ↔ x ∈ l) : Fin l'.length ≃ Fin l.length :=
  (List.Nodup.getEquiv l' h').trans ((Equiv.subtypeEquivRight hm).trans (List.Nodup.getEquiv l h).symm)

theorem place_get (l l' : List T) (h : l.Nodup) (h' : l'.Nodup) (hm : ∀ x, x ∈ l' ↔ x ∈ l) (i : Fin l'.length) :
    l[(place l l' h h' hm i).val]? = some l'[i.val] := by
  rw [List.getElem?_eq_getElem (place l l' h h' hm i).2]
  congr 1
  have := (List.Nodup.getEquiv l h).apply_symm_apply ((Equiv.subtypeEquivRight hm) ((List.Nodup.getEquiv l' h') i))
  exact congrArg Subtype.val this

theorem perm_of_same {l l' : List T} (h : l.Nodup) (h' : l'.Nodup) (hm : ∀ x, x ∈ l ↔ x ∈ l') : l.Perm l' :=
  (List.perm_ext_iff_of_nodup h h').2 hm

/-- with no two different elements of the same key, the first ones are all -/
theorem mem_firstBy_of {α β : Type} [DecidableEq β] {key : α → β} {l : List α}
    (hu : ∀ x ∈ l, ∀ y ∈ l, key x = key y → x = y) (x : α) : x ∈ firstBy key l ↔ x ∈ l := by
  constructor
  · exact firstBy_subset key l
  · intro hx
    have h1 : key x ∈ (firstBy key l).map key := by
      rw [firstBy_map, IdToIndex.mem_firstUses]
      exact List.mem_map.2 ⟨x, hx, rfl⟩
    obtain ⟨y, hy, e⟩ := List.mem_map.1 h1
    rw [hu x hx y (firstBy_subset key l hy) e.symm]
    exact hy

theorem find_same {α : Type} {l l' : List α} {p : α → Bool} (hm : ∀ x, x ∈ l ↔ x ∈ l')
    (hu : ∀ x ∈ l, ∀ y ∈ l, p x = true → p y = true → x = y) : l.find? p = l'.find? p := by
  cases h : l.find? p with
  | none =>
    symm
    rw [List.find?_eq_none] at h ⊢
    exact fun x hx => h x ((hm x).2 hx)
  | some x =>
    have hx := List.mem_of_find?_eq_some h
    have hpx := List.find?_some h
    cases h' : l'.find? p with
    | none =>
      rw [List.find?_eq_none] at h'
      exact absurd hpx (h' x ((hm x).1 hx))
    | some y =>
      rw [hu x hx y ((hm y).2 (List.mem_of_find?_eq_some h')) hpx (List.find?_some h')]

theorem flatMap_range {α β : Type} {l : List α} {n : Nat} (hn : n = l.length) {g : Nat → List β} {h : α → List β}
    (he : ∀ i x, l[i]? = some x → g i = h x) : (List.range n).flatMap g = l.flatMap h := by
  subst hn
  induction l using List.reverseRecOn with
  | nil => simp
  | append_singleton l a ih =>
    rw [List.length_append, List.length_singleton, List.range_succ, List.flatMap_append, List.flatMap_append]
    congr 1
    · apply ih
      intro i x hx
      apply he
      rw [List.getElem?_append_left (List.getElem?_eq_some_iff.1 hx).1]
      exact hx
    · simp [he l.length a (by simp)]

theorem map_range {α β : Type} {l : List α} {n : Nat} (hn : n = l.length) {g : Nat → β} {h : α → β}
    (he : ∀ i x, l[i]? = some x → g i = h x) : (List.range n).map g = l.map h := by
  subst hn
  apply List.ext_getElem?
  intro i
  simp only [List.getElem?_map]
  by_cases hi : i < l.length
  · rw [List.getElem?_range hi, List.getElem?_eq_getElem hi]
    simp [he i _ (List.getElem?_eq_getElem hi)]
  · rw [List.getElem?_eq_none (by simpa using hi), List.getElem?_eq_none (by simpa using hi)]
    rfl

end lists

/-! ## median and MAD -/

section stats
variable {K : Type} [Field K] [LinearOrder K] [IsStrictOrderedRing K]

theorem median_same (nth nth' : NthElement (id : K → K)) {l l' : List K} (h : l.Perm l') :
    Stats.computeMedian nth l = Stats.computeMedian nth' l' := by
  by_cases hl : l = []
  · subst hl
    rw [h.symm.eq_nil]
    rfl
  · have hl' : l' ≠ [] := fun hc => hl (by subst hc; exact h.eq_nil)
    have hs : Stats.SortedOf (l.insertionSort (· ≤ ·)) l :=
      ⟨List.pairwise_insertionSort _ _, List.perm_insertionSort _ _⟩
    have hs' : Stats.SortedOf (l.insertionSort (· ≤ ·)) l' := ⟨hs.1, hs.2.trans h⟩
    rw [Stats.median_is_middle nth l _ hs hl, Stats.median_is_middle nth' l' _ hs' hl', h.length_eq]

theorem mad_same (nth nth' : NthElement (id : K → K)) {l l' : List K} (h : l.Perm l') :
    Stats.computeMAD nth l (Stats.computeMedian nth l) = Stats.computeMAD nth' l' (Stats.computeMedian nth' l') := by
  rw [median_same nth nth' h]
  exact median_same nth nth' (h.map _)

end stats

/-! ## what the calls say -/

theorem mem_obsOf {K : Type} {ops : List (SolverOp K)} {o : ObsArg K} : o ∈ obsOf ops ↔ .obs o ∈ ops := by
  unfold obsOf
  rw [List.mem_filterMap]
  constructor
  · rintro ⟨op, h, e⟩
    cases op with
    | obs o' => simp only [Option.some.injEq] at e; rw [← e]; exact h
    | event => simp at e
    | station => simp at e
    | params => simp at e
  · intro h; exact ⟨_, h, rfl⟩

theorem mem_parOf {K : Type} {ops : List (SolverOp K)} {o : ParArg K} : o ∈ parOf ops ↔ .params o ∈ ops := by
  unfold parOf
  rw [List.mem_filterMap]
  constructor
  · rintro ⟨op, h, e⟩
    cases op with
    | params o' => simp only [Option.some.injEq] at e; rw [← e]; exact h
    | event => simp at e
    | station => simp at e
    | obs => simp at e
  · intro h; exact ⟨_, h, rfl⟩

section same
variable {K : Type} [Field K] [LinearOrder K] {ops ops' : List (SolverOp K)}

theorem SameCalls.symm (h : SameCalls ops ops') : SameCalls ops' ops := fun op => (h op).symm

theorem SameCalls.obsOf (h : SameCalls ops ops') (o : ObsArg K) : o ∈ obsOf ops ↔ o ∈ Solver.obsOf ops' := by
  rw [mem_obsOf, mem_obsOf]; exact h _

theorem SameCalls.parOf (h : SameCalls ops ops') (o : ParArg K) : o ∈ parOf ops ↔ o ∈ Solver.parOf ops' := by
  rw [mem_parOf, mem_parOf]; exact h _

theorem SameCalls.evIds (h : SameCalls ops ops') (x : Nat) : x ∈ evIds ops ↔ x ∈ Solver.evIds ops' := by
  unfold Solver.evIds
  simp only [List.mem_flatMap, h _]

theorem SameCalls.phKeys (h : SameCalls ops ops') (x : List Char) : x ∈ phKeys ops ↔ x ∈ Solver.phKeys ops' := by
  unfold Solver.phKeys
  simp only [List.mem_flatMap, h _]

theorem SameCalls.eventsOf (h : SameCalls ops ops') (x : Nat) : x ∈ eventsOf ops ↔ x ∈ Solver.eventsOf ops' := by
  unfold Solver.eventsOf
  simp only [List.mem_filterMap, h _]

theorem SameCalls.noSeparator (h : SameCalls ops ops') (hs : NoSeparator ops) : NoSeparator ops' :=
  ⟨fun o ho => hs.1 o ((h.obsOf o).2 ho), fun p hp => hs.2 p ((h.parOf p).2 hp)⟩

theorem SameCalls.complete (h : SameCalls ops ops') (hc : Complete ops) : Complete ops' := by
  intro o ho
  obtain ⟨h1, h2, ⟨p, hp, e⟩, ⟨q, hq, e'⟩⟩ := hc o ((h.obsOf o).2 ho)
  exact ⟨(h.eventsOf _).1 h1, (h.eventsOf _).1 h2, ⟨p, (h.parOf p).1 hp, e⟩, ⟨q, (h.parOf q).1 hq, e'⟩⟩

theorem SameCalls.unambiguous (h : SameCalls ops ops') (hu : Unambiguous ops) : Unambiguous ops' :=
  ⟨fun o o' ho ho' => hu.obs o o' ((h _).2 ho) ((h _).2 ho'), fun p p' hp hp' => hu.params p p' ((h _).2 hp) ((h _).2 hp')⟩

theorem Unambiguous.quad (hu : Unambiguous ops) : ∀ o ∈ obsOf ops, ∀ o' ∈ obsOf ops, o.quad = o'.quad → o = o' := by
  intro o ho o' ho' e
  simp only [ObsArg.quad, Prod.mk.injEq] at e
  exact hu.obs o o' (mem_obsOf.1 ho) (mem_obsOf.1 ho') e.1 e.2.1 e.2.2.1 e.2.2.2

theorem Unambiguous.triple (hu : Unambiguous ops) : ∀ o ∈ parOf ops, ∀ o' ∈ parOf ops, o.triple = o'.triple → o = o' := by
  intro o ho o' ho' e
  simp only [ParArg.triple, Prod.mk.injEq] at e
  exact hu.params o o' (mem_parOf.1 ho) (mem_parOf.1 ho') e.1 e.2.1 e.2.2

theorem obs_nodup (ops : List (SolverOp K)) : (firstBy ObsArg.quad (obsOf ops)).Nodup := List.Nodup.of_map _ (firstBy_nodup _ _)
theorem par_nodup (ops : List (SolverOp K)) : (firstBy ParArg.triple (parOf ops)).Nodup := List.Nodup.of_map _ (firstBy_nodup _ _)

theorem obs_same (h : SameCalls ops ops') (hu : Unambiguous ops) (o : ObsArg K) :
    o ∈ firstBy ObsArg.quad (obsOf ops) ↔ o ∈ firstBy ObsArg.quad (obsOf ops') := by
  rw [mem_firstBy_of hu.quad, mem_firstBy_of (h.unambiguous hu).quad, h.obsOf]

theorem par_same (h : SameCalls ops ops') (hu : Unambiguous ops) (o : ParArg K) :
    o ∈ firstBy ParArg.triple (parOf ops) ↔ o ∈ firstBy ParArg.triple (parOf ops') := by
  rw [mem_firstBy_of hu.triple, mem_firstBy_of (h.unambiguous hu).triple, h.parOf]

theorem paramsOf_same (h : SameCalls ops ops') (hu : Unambiguous ops) : paramsOf ops = paramsOf ops' := by
  funext e s ph
  unfold paramsOf
  refine find_same (h.parOf ·) ?_
  intro x hx y hy px py
  simp only [decide_eq_true_eq] at px py
  exact hu.triple x hx y hy (px.trans py.symm)

/-- what the solver keeps of the calls is the same -/
structure SameData (ops ops' : List (SolverOp K)) : Prop where
  evIds : ∀ x, x ∈ Solver.evIds ops ↔ x ∈ Solver.evIds ops'
  phKeys : ∀ x, x ∈ Solver.phKeys ops ↔ x ∈ Solver.phKeys ops'
  obs : ∀ o, o ∈ firstBy ObsArg.quad (obsOf ops) ↔ o ∈ firstBy ObsArg.quad (obsOf ops')
  par : ∀ o, o ∈ firstBy ParArg.triple (parOf ops) ↔ o ∈ firstBy ParArg.triple (parOf ops')
  params : Solver.paramsOf ops = Solver.paramsOf ops'

theorem SameData.refl (ops : List (SolverOp K)) : SameData ops ops :=
  ⟨fun _ => Iff.rfl, fun _ => Iff.rfl, fun _ => Iff.rfl, fun _ => Iff.rfl, rfl⟩

theorem SameData.symm (h : SameData ops ops') : SameData ops' ops :=
  ⟨fun x => (h.evIds x).symm, fun x => (h.phKeys x).symm, fun x => (h.obs x).symm, fun x => (h.par x).symm, h.params.symm⟩

theorem SameCalls.data (h : SameCalls ops ops') (hu : Unambiguous ops) : SameData ops ops' :=
  ⟨h.evIds, h.phKeys, obs_same h hu, par_same h hu, paramsOf_same h hu⟩

theorem obs_perm (h : SameData ops ops') :
    (firstBy ObsArg.quad (obsOf ops)).Perm (firstBy ObsArg.quad (obsOf ops')) :=
  perm_of_same (obs_nodup _) (obs_nodup _) h.obs

theorem par_perm (h : SameData ops ops') :
    (firstBy ParArg.triple (parOf ops)).Perm (firstBy ParArg.triple (parOf ops')) :=
  perm_of_same (par_nodup _) (par_nodup _) h.par

/-- the misfit of an observation -/
def residOf (ops : List (SolverOp K)) (o : ObsArg K) : K :=
  match paramsOf ops o.e1 o.sta o.phase, paramsOf ops o.e2 o.sta o.phase with
  | some p1, some p2 => o.timeDiff - (p1.tt - p2.tt)
  | _, _ => 0

def freeOf (ops : List (SolverOp K)) (e : Nat) (o : ObsArg K) : Bool :=
  match paramsOf ops e o.sta o.phase with
  | some p => p.free
  | none => false

def residuals (ops : List (SolverOp K)) : List K := (firstBy ObsArg.quad (obsOf ops)).map (residOf ops)

def madOf (nth : NthElement (id : K → K)) (ops : List (SolverOp K)) : K :=
  Stats.computeMAD nth (residuals ops) (Stats.computeMedian nth (residuals ops))

def weightOf (nth : NthElement (id : K → K)) (rdw : K) (ops : List (SolverOp K)) (o : ObsArg K) : K :=
  o.weight * (if rdw > 0 then (match residualWeight rdw (madOf nth ops) (residOf ops o) with | .num w => w | _ => 0) else 1)

/-- the weights of the observations of an event at a station and phase -/
def usesOf (nth : NthElement (id : K → K)) (rdw : K) (ops : List (SolverOp K)) (ev : Nat) (key : List Char) : List K :=
  (firstBy ObsArg.quad (obsOf ops)).flatMap (fun o =>
    if weightOf nth rdw ops o ≠ 0 ∧ phKeyO o = key then
      (if freeOf ops o.e1 o = true ∧ o.e1 = ev then [weightOf nth rdw ops o] else []) ++
      (if freeOf ops o.e2 o = true ∧ o.e2 = ev then [weightOf nth rdw ops o] else [])
    else [])

variable [IsStrictOrderedRing K]

theorem residOf_same (h : SameData ops ops') : residOf ops = residOf ops' := by
  funext o; unfold residOf; rw [h.params]

theorem freeOf_same (h : SameData ops ops') : freeOf ops = freeOf ops' := by
  funext e o; unfold freeOf; rw [h.params]

theorem residuals_same (h : SameData ops ops') : (residuals ops).Perm (residuals ops') := by
  unfold residuals; rw [residOf_same h]; exact (obs_perm h).map _

theorem madOf_same (nth nth' : NthElement (id : K → K)) (h : SameData ops ops') :
    madOf nth ops = madOf nth' ops' := mad_same nth nth' (residuals_same h)

theorem weightOf_same (nth nth' : NthElement (id : K → K)) (rdw : K) (h : SameData ops ops') :
    weightOf nth rdw ops = weightOf nth' rdw ops' := by
  funext o; unfold weightOf; rw [madOf_same nth nth' h, residOf_same h]

theorem usesOf_same (nth nth' : NthElement (id : K → K)) (rdw : K) (h : SameData ops ops')
    (ev : Nat) (key : List Char) : (usesOf nth rdw ops ev key).Perm (usesOf nth' rdw ops' ev key) := by
  unfold usesOf
  rw [weightOf_same nth nth' rdw h, freeOf_same h]
  exact (obs_perm h).flatMap_right _

/-! ## the prepared systems -/

/-- the row of an observation -/
structure ObsRow (nth : NthElement (id : K → K)) (rdw : K) (ops : List (SolverOp K)) (p : Prepared K) (i : Nat) (o : ObsArg K) : Prop where
  ev1 : p.dd.ev1 i = if freeOf ops o.e1 o then some (ix (evIds ops) o.e1) else none
  ev2 : p.dd.ev2 i = if freeOf ops o.e2 o then some (ix (evIds ops) o.e2) else none
  ph : p.dd.phSta i = ix (phKeys ops) (phKeyO o)
  d : p.dd.d i = residOf ops o
  W : p.dd.W i = weightOf nth rdw ops o

theorem toIdx_ev (hb : Fits ops) {x : Nat} (hx : x ∈ evIds ops) : (run ops).evConv.toIdx x = .ok (ix (evIds ops) x) := by
  rw [(inv_run ops hb).evConv]; exact toIdx_ix hx hb.ev

theorem toIdx_ph (hb : Fits ops) {x : List Char} (hx : x ∈ phKeys ops) :
    (run ops).phStaConv.toIdx x = .ok (ix (phKeys ops) x) := by
  rw [(inv_run ops hb).phConv]; exact toIdx_ix hx hb.ph

variable {nth : NthElement (id : K → K)} {ttc rdw : K} {p : Prepared K}

theorem resid_row (h : IsSystemOf ops nth ttc rdw p) {i : Nat} {o : ObsArg K}
    (ho : (firstBy ObsArg.quad (obsOf ops))[i]? = some o) : p.dd.d i = residOf ops o := by
  obtain ⟨e1, e2, ph, p1, p2, w, -, -, -, g4, g5, -, -, -, -, g10, -⟩ := h.observation i o ho
  unfold residOf
  rw [g4, g5]; exact g10

theorem residuals_eq (h : IsSystemOf ops nth ttc rdw p) : (List.range p.dd.nObs).map p.dd.d = residuals ops :=
  map_range h.rows (fun _ _ ho => resid_row h ho)

theorem row_of_obs (hb : Fits ops) (h : IsSystemOf ops nth ttc rdw p) {i : Nat} {o : ObsArg K}
    (ho : (firstBy ObsArg.quad (obsOf ops))[i]? = some o) : ObsRow nth rdw ops p i o := by
  obtain ⟨m1, m2, m3⟩ := mem_evIds_obs (firstBy_subset _ _ (List.mem_of_getElem? ho))
  have hd := resid_row h ho
  have hres := residuals_eq h
  obtain ⟨e1, e2, ph, p1, p2, w, g1, g2, g3, g4, g5, g6, g7, g8, g9, g10, g11, g12⟩ := h.observation i o ho
  rw [toIdx_ev hb m1] at g1
  rw [toIdx_ev hb m2] at g2
  rw [show phStaKey o.phase o.sta = phKeyO o from rfl, toIdx_ph hb m3] at g3
  simp only [Outcome.ok.injEq] at g1 g2 g3
  subst g1; subst g2; subst g3
  refine ⟨?_, ?_, g8, hd, ?_⟩
  · unfold freeOf; rw [g4]; exact g6
  · unfold freeOf; rw [g5]; exact g7
  · rw [g12]
    unfold weightOf
    unfold IsResidualWeight at g11
    by_cases hr : rdw > 0
    · rw [if_pos hr] at g11 ⊢
      simp only [hres, hd] at g11
      unfold madOf
      rw [g11]
    · rw [if_neg hr] at g11 ⊢
      rw [g11]

theorem weightsAt_uses (hb : Fits ops) (h : IsSystemOf ops nth ttc rdw p) {ev : Nat} {key : List Char} (hev : ev ∈ evIds ops)
    (hkey : key ∈ phKeys ops) :
    weightsAt p.dd.nObs p.dd.W p.dd.ev1 p.dd.ev2 p.dd.phSta (ix (evIds ops) ev) (ix (phKeys ops) key) =
      usesOf nth rdw ops ev key := by
  unfold weightsAt usesOf
  refine flatMap_range h.rows ?_
  intro i o ho
  obtain ⟨m1, m2, m3⟩ := mem_evIds_obs (firstBy_subset _ _ (List.mem_of_getElem? ho))
  obtain ⟨r1, r2, r3, r4, r5⟩ := row_of_obs hb h ho
  rw [r1, r2, r3, r5]
  have k1 : (ix (phKeys ops) (phKeyO o) = ix (phKeys ops) key) ↔ phKeyO o = key :=
    ⟨fun e => ix_inj m3 hkey e, fun e => by rw [e]⟩
  have k2 : ∀ x ∈ evIds ops, ∀ b : Bool, ((if b then some (ix (evIds ops) x) else none) = some (ix (evIds ops) ev)) ↔
      (b = true ∧ x = ev) := by
    intro x hx b
    cases b with
    | false => simp
    | true =>
      simp only [if_true, Option.some.injEq, true_and]
      exact ⟨fun e => ix_inj hx hev e, fun e => by rw [e]⟩
  simp only [k1, k2 _ m1, k2 _ m2]

/-! ## all rows -/

/-- the derivatives given by observation parameters -/
def gOf (q : ParArg K) (k : Nat) : K :=
  match k with
  | 0 => q.dx
  | 1 => q.dy
  | 2 => q.dz
  | _ => 1

theorem derivative_of (hb : Fits ops) (h : IsSystemOf ops nth ttc rdw p) {q : ParArg K}
    (hq : q ∈ firstBy ParArg.triple (parOf ops)) {k : Nat} (hk : k < 4) :
    p.dd.G (ix (evIds ops) q.ev * p.dd.nPhStas + ix (phKeys ops) (phKeyP q)) k = gOf q k := by
  obtain ⟨m1, m2⟩ := mem_evIds_par (firstBy_subset _ _ hq)
  obtain ⟨e, ph, g1, g2, -, -, g3, g4, g5, g6⟩ := h.derivatives q hq
  rw [toIdx_ev hb m1] at g1
  rw [show phStaKey q.phase q.sta = phKeyP q from rfl, toIdx_ph hb m2] at g2
  simp only [Outcome.ok.injEq] at g1 g2
  subst g1; subst g2
  match k, hk with
  | 0, _ => exact g3
  | 1, _ => exact g4
  | 2, _ => exact g5
  | 3, _ => exact g6

theorem paramsOf_mem {e : Nat} {sta phase : List Char} {q : ParArg K} (h : paramsOf ops e sta phase = some q) :
    q ∈ firstBy ParArg.triple (parOf ops) ∧ q.ev = e ∧ q.sta = sta ∧ q.phase = phase := by
  have ht := List.find?_some h
  simp only [decide_eq_true_eq] at ht
  refine ⟨?_, ?_⟩
  · rw [mem_firstBy_iff, ht]; exact h
  · simp only [ParArg.triple, Prod.mk.injEq] at ht; exact ht

/-- what the constraint rows hold -/
structure Constraints (nth : NthElement (id : K → K)) (ttc rdw : K) (ops : List (SolverOp K)) (p : Prepared K) (cs : List (ParArg K)) : Prop where
  mem : ∀ q, q ∈ cs ↔ ttc > 0 ∧ q ∈ firstBy ParArg.triple (parOf ops) ∧ q.free = true ∧ usesOf nth rdw ops q.ev (phKeyP q) ≠ []
  nodup : cs.Nodup
  le : cs.length ≤ p.dd.nTT
  row : ∀ j q, cs[j]? = some q → p.dd.ev1 (p.dd.nObs + j) = some (ix (evIds ops) q.ev) ∧ p.dd.ev2 (p.dd.nObs + j) = none ∧
    p.dd.phSta (p.dd.nObs + j) = ix (phKeys ops) (phKeyP q) ∧ p.dd.d (p.dd.nObs + j) = q.ttRes ∧
    p.dd.W (p.dd.nObs + j) = ttc * ((usesOf nth rdw ops q.ev (phKeyP q)).sum / (usesOf nth rdw ops q.ev (phKeyP q)).length)
  rest : ∀ r, p.dd.nObs + cs.length ≤ r → r < p.dd.numRows →
    p.dd.W r = 0 ∧ p.dd.d r = 0 ∧ p.dd.ev1 r = none ∧ p.dd.ev2 r = none

theorem constraints_of (hb : Fits ops) (h : IsSystemOf ops nth ttc rdw p) : ∃ cs, Constraints nth ttc rdw ops p cs := by
  by_cases ht : ttc > 0
  · obtain ⟨cs, c1, c2, c3, c4, c5⟩ := h.constraintRows ht
    have hix : ∀ q ∈ firstBy ParArg.triple (parOf ops), ∀ e ph, (run ops).evConv.toIdx q.ev = .ok e →
        (run ops).phStaConv.toIdx (phStaKey q.phase q.sta) = .ok ph →
        e = ix (evIds ops) q.ev ∧ ph = ix (phKeys ops) (phKeyP q) ∧
        weightsAt p.dd.nObs p.dd.W p.dd.ev1 p.dd.ev2 p.dd.phSta e ph = usesOf nth rdw ops q.ev (phKeyP q) := by
      intro q hq e ph g1 g2
      obtain ⟨m1, m2⟩ := mem_evIds_par (firstBy_subset _ _ hq)
      rw [toIdx_ev hb m1] at g1
      rw [show phStaKey q.phase q.sta = phKeyP q from rfl, toIdx_ph hb m2] at g2
      simp only [Outcome.ok.injEq] at g1 g2
      subst g1; subst g2
      exact ⟨rfl, rfl, weightsAt_uses hb h m1 m2⟩
    refine ⟨cs, ?_, List.Nodup.of_map _ c2, c3, ?_, c5⟩
    · intro q
      rw [c1]
      constructor
      · rintro ⟨a, b, e, ph, g1, g2, g3⟩
        rw [(hix q a e ph g1 g2).2.2] at g3
        exact ⟨ht, a, b, g3⟩
      · rintro ⟨-, a, b, g3⟩
        obtain ⟨m1, m2⟩ := mem_evIds_par (firstBy_subset _ _ a)
        refine ⟨a, b, _, _, toIdx_ev hb m1, toIdx_ph hb m2, ?_⟩
        rw [show phStaKey q.phase q.sta = phKeyP q from rfl, weightsAt_uses hb h m1 m2]; exact g3
    · intro j q hj
      have hq := ((c1 q).1 (List.mem_of_getElem? hj)).1
      obtain ⟨e, ph, g1, g2, g3, g4, g5, g6, g7⟩ := c4 j q hj
      obtain ⟨i1, i2, i3⟩ := hix q hq e ph g1 g2
      rw [i3] at g7
      subst i1; subst i2
      exact ⟨g3, g4, g5, g6, g7⟩
  · have h0 : p.dd.nTT = 0 := by rw [h.constraints, if_neg ht]
    refine ⟨[], ?_, List.nodup_nil, Nat.zero_le _, ?_, ?_⟩
    · intro q; simp [ht]
    · intro j q hj; simp at hj
    · intro r h1 h2
      unfold DDSystem.numRows at h2
      simp only [List.length_nil] at h1
      omega

/-- the rows: observations, constraints, empty rows -/
def rowsOf (ops : List (SolverOp K)) (cs : List (ParArg K)) (n : Nat) : List (ObsArg K ⊕ ParArg K ⊕ Nat) :=
  (firstBy ObsArg.quad (obsOf ops)).map .inl ++ (cs.map (fun q => .inr (.inl q)) ++ (List.range (n - cs.length)).map (fun i => .inr (.inr i)))

/-- what a row holds, in terms of event ids -/
structure Content (K : Type) where
  W : K
  d : K
  id1 : Option Nat
  id2 : Option Nat
  g : Nat → Nat → K

def content (nth : NthElement (id : K → K)) (ttc rdw : K) (ops : List (SolverOp K)) : ObsArg K ⊕ ParArg K ⊕ Nat → Content K
  | .inl o => ⟨weightOf nth rdw ops o, residOf ops o, if freeOf ops o.e1 o then some o.e1 else none,
      if freeOf ops o.e2 o then some o.e2 else none,
      fun e k => match paramsOf ops e o.sta o.phase with | some q => gOf q k | none => 0⟩
  | .inr (.inl q) => ⟨ttc * ((usesOf nth rdw ops q.ev (phKeyP q)).sum / (usesOf nth rdw ops q.ev (phKeyP q)).length), q.ttRes,
      some q.ev, none, fun _ k => gOf q k⟩
  | .inr (.inr _) => ⟨0, 0, none, none, fun _ _ => 0⟩

theorem content_same (nth nth' : NthElement (id : K → K)) (ttc rdw : K) (h : SameData ops ops') :
    content nth ttc rdw ops = content nth' ttc rdw ops' := by
  funext x
  match x with
  | .inl o =>
    unfold content
    simp only [weightOf_same nth nth' rdw h, residOf_same h, freeOf_same h, h.params]
  | .inr (.inl q) =>
    have := usesOf_same nth nth' rdw h q.ev (phKeyP q)
    unfold content
    simp only [this.sum_eq, this.length_eq]
  | .inr (.inr _) => rfl

/-- the row holds the content -/
structure Holds (ops : List (SolverOp K)) (p : Prepared K) (i : Nat) (c : Content K) : Prop where
  W : p.dd.W i = c.W
  d : p.dd.d i = c.d
  ev1 : p.dd.ev1 i = c.id1.map (ix (evIds ops))
  ev2 : p.dd.ev2 i = c.id2.map (ix (evIds ops))
  g : ∀ e, c.id1 = some e ∨ c.id2 = some e → e ∈ evIds ops ∧ ∀ k < 4, p.dd.G (p.dd.idxG (ix (evIds ops) e) i) k = c.g e k

theorem rows_length (h : IsSystemOf ops nth ttc rdw p) {cs : List (ParArg K)} (hc : Constraints nth ttc rdw ops p cs) :
    (rowsOf ops cs p.dd.nTT).length = p.dd.numRows := by
  unfold rowsOf DDSystem.numRows
  simp only [List.length_append, List.length_map, List.length_range]
  have := hc.le
  rw [h.rows]; omega

theorem rows_hold (hb : Fits ops) (h : IsSystemOf ops nth ttc rdw p) {cs : List (ParArg K)} (hc : Constraints nth ttc rdw ops p cs)
    {i : Nat} {x : ObsArg K ⊕ ParArg K ⊕ Nat} (hx : (rowsOf ops cs p.dd.nTT)[i]? = some x) :
    Holds ops p i (content nth ttc rdw ops x) := by
  have hlen := rows_length h hc
  have hi : i < p.dd.numRows := by rw [← hlen]; exact (List.getElem?_eq_some_iff.1 hx).1
  unfold rowsOf at hx
  by_cases h1 : i < (firstBy ObsArg.quad (obsOf ops)).length
  · rw [List.getElem?_append_left (by simpa using h1), List.getElem?_map, List.getElem?_eq_getElem h1] at hx
    simp only [Option.map_some, Option.some.injEq] at hx
    subst hx
    have ho := List.getElem?_eq_getElem h1
    obtain ⟨m1, m2, m3⟩ := mem_evIds_obs (firstBy_subset _ _ (List.mem_of_getElem? ho))
    generalize (firstBy ObsArg.quad (obsOf ops))[i] = o at *
    obtain ⟨r1, r2, r3, r4, r5⟩ := row_of_obs hb h ho
    refine ⟨r5, r4, ?_, ?_, ?_⟩
    · rw [r1]; simp only [content]; split <;> rfl
    · rw [r2]; simp only [content]; split <;> rfl
    · intro e he
      simp only [content] at he
      have key : ∀ e', e' ∈ evIds ops → freeOf ops e' o = true → e = e' → e ∈ evIds ops ∧ ∀ k < 4,
          p.dd.G (p.dd.idxG (ix (evIds ops) e) i) k = (content nth ttc rdw ops (.inl o)).g e k := by
        intro e' hm hf e1
        subst e1
        refine ⟨hm, fun k hk => ?_⟩
        unfold freeOf at hf
        simp only [content]
        cases hp : paramsOf ops e o.sta o.phase with
        | none => rw [hp] at hf; simp at hf
        | some q =>
          obtain ⟨q1, q2, q3, q4⟩ := paramsOf_mem hp
          have := derivative_of hb h q1 hk
          unfold DDSystem.idxG
          rw [r3, show phKeyO o = phKeyP q by unfold phKeyO phKeyP; rw [q3, q4], ← q2]
          exact this
      rcases he with he | he
      · split at he
        · rename_i hf; simp only [Option.some.injEq] at he; exact key o.e1 m1 hf he.symm
        · cases he
      · split at he
        · rename_i hf; simp only [Option.some.injEq] at he; exact key o.e2 m2 hf he.symm
        · cases he
  · have h1 := Nat.le_of_not_lt h1
    rw [List.getElem?_append_right (by simpa using h1)] at hx
    simp only [List.length_map] at hx
    by_cases h2 : i - (firstBy ObsArg.quad (obsOf ops)).length < cs.length
    · rw [List.getElem?_append_left (by simpa using h2), List.getElem?_map, List.getElem?_eq_getElem h2] at hx
      simp only [Option.map_some, Option.some.injEq] at hx
      subst hx
      have ho := List.getElem?_eq_getElem h2
      generalize cs[i - (firstBy ObsArg.quad (obsOf ops)).length] = q at *
      obtain ⟨r1, r2, r3, r4, r5⟩ := hc.row _ q ho
      have hq := ((hc.mem q).1 (List.mem_of_getElem? ho)).2.1
      obtain ⟨m1, m2⟩ := mem_evIds_par (firstBy_subset _ _ hq)
      rw [h.rows, show (firstBy ObsArg.quad (obsOf ops)).length + (i - (firstBy ObsArg.quad (obsOf ops)).length) = i by omega] at r1 r2 r3 r4 r5
      refine ⟨r5, r4, r1, r2, ?_⟩
      intro e he
      simp only [content, Option.some.injEq, reduceCtorEq, or_false] at he
      subst he
      refine ⟨m1, fun k hk => ?_⟩
      unfold DDSystem.idxG
      rw [r3]
      exact derivative_of hb h hq hk
    · have h2 := Nat.le_of_not_lt h2
      rw [List.getElem?_append_right (by simpa using h2), List.getElem?_map] at hx
      have hne : ∃ j, x = .inr (.inr j) := by
        cases hj : (List.range (p.dd.nTT - cs.length))[i - (firstBy ObsArg.quad (obsOf ops)).length - (cs.map (fun q => (.inr (.inl q) : ObsArg K ⊕ ParArg K ⊕ Nat))).length]? with
        | none => rw [hj] at hx; cases hx
        | some j => rw [hj] at hx; simp only [Option.map_some, Option.some.injEq] at hx; exact ⟨j, hx.symm⟩
      obtain ⟨j, rfl⟩ := hne
      obtain ⟨r1, r2, r3, r4⟩ := hc.rest i (by rw [h.rows]; omega) hi
      refine ⟨r1, r2, r3, r4, ?_⟩
      intro e he
      simp [content] at he

theorem rows_nodup {cs : List (ParArg K)} (hc : cs.Nodup) (n : Nat) : (rowsOf ops cs n).Nodup := by
  unfold rowsOf
  rw [List.nodup_append, List.nodup_append]
  refine ⟨(obs_nodup ops).map Sum.inl_injective, ⟨hc.map (Sum.inr_injective.comp Sum.inl_injective),
    List.nodup_range.map (Sum.inr_injective.comp Sum.inr_injective), ?_⟩, ?_⟩
  · intro a ha b hb' e
    obtain ⟨x, -, rfl⟩ := List.mem_map.1 ha
    obtain ⟨y, -, rfl⟩ := List.mem_map.1 hb'
    simp at e
  · intro a ha b hb' e
    obtain ⟨x, -, rfl⟩ := List.mem_map.1 ha
    rcases List.mem_append.1 hb' with hb' | hb'
    · obtain ⟨y, -, rfl⟩ := List.mem_map.1 hb'; cases e
    · obtain ⟨y, -, rfl⟩ := List.mem_map.1 hb'; cases e

theorem rows_mem {cs : List (ParArg K)} (n : Nat) (x : ObsArg K ⊕ ParArg K ⊕ Nat) : x ∈ rowsOf ops cs n ↔
    (match x with
    | .inl o => o ∈ firstBy ObsArg.quad (obsOf ops)
    | .inr (.inl q) => q ∈ cs
    | .inr (.inr i) => i < n - cs.length) := by
  unfold rowsOf
  match x with
  | .inl o => simp
  | .inr (.inl q) => simp
  | .inr (.inr i) => simp

end same
end Verif.Solver
