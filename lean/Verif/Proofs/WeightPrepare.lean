import Verif.Proofs.WeightFactor
import Verif.Proofs.AnswerOrder
import Verif.Proofs.Renumber
import Verif.Spec.WeightFactor

/-! Helper lemmas for C136: the solver's system when all weights are multiplied by a factor. -/

set_option linter.unusedSectionVars false
set_option linter.unusedSimpArgs false

namespace Verif.Solver
open Verif.TimeShift (foldlM_map_comm foldlM_map_comm₂)
open Verif.LeastSquares
open Verif.Weights (call obs)
open Verif.Relocate

variable {c : ℝ}

theorem find?_mapVal {A V W : Type} [DecidableEq A] (f : V → W) (m : AMap A V) (k : A) :
    AMap.find? (m.map (fun x => (x.1, f x.2))) k = (AMap.find? m k).map f := by
  induction m with
  | nil => rfl
  | cons x m ih =>
    rw [List.map_cons, AMap.find?_cons, AMap.find?_cons, ih]
    split <;> rfl

theorem set_mapVal {A V W : Type} [DecidableEq A] (f : V → W) (m : AMap A V) (k : A) (v : V) :
    AMap.set (m.map (fun x => (x.1, f x.2))) k (f v) = (AMap.set m k v).map (fun x => (x.1, f x.2)) := by
  unfold AMap.set AMap.erase
  rw [List.map_cons, List.filter_map]
  rfl

theorem insertNew_mapVal {A V W : Type} [DecidableEq A] (f : V → W) (m : AMap A V) (k : A) (v : V) :
    AMap.insertNew (m.map (fun x => (x.1, f x.2))) k (f v) = (AMap.insertNew m k v).map (fun x => (x.1, f x.2)) := by
  unfold AMap.insertNew
  rw [find?_mapVal]
  cases AMap.find? m k with
  | none => rfl
  | some _ => rfl

/-- the observations of a solver with their weights multiplied -/
def obsMapBy (c : ℝ) (m : AMap Nat (Obs ℝ)) : AMap Nat (Obs ℝ) := m.map (fun x => (x.1, obs c x.2))

/-- a solver with the weights of its observations multiplied -/
def solverBy (c : ℝ) (s : Solver ℝ) : Solver ℝ := { s with observations := obsMapBy c s.observations }

theorem step_by (s : Solver ℝ) (op : SolverOp ℝ) : step (solverBy c s) (call c op) = solverBy c (step s op) := by
  cases op with
  | obs o =>
    unfold call step addObservation solverBy
    simp only
    congr 1
    exact insertNew_mapVal (obs c) s.observations _ ⟨(s.evConv.convert o.e1).2, ((s.evConv.convert o.e1).1.convert o.e2).2,
      (s.phStaConv.convert (phStaKey o.phase o.sta)).2, o.timeDiff, o.weight, o.xcorrUsed, o.xcorrCoeff⟩
  | event => rfl
  | station => rfl
  | params => rfl

theorem run_by (ops : List (SolverOp ℝ)) : run (ops.map (call c)) = solverBy c (run ops) := by
  have : ∀ (s : Solver ℝ), (ops.map (call c)).foldl step (solverBy c s) = solverBy c (ops.foldl step s) := by
    induction ops with
    | nil => intro s; rfl
    | cons op ops ih =>
      intro s
      rw [List.map_cons, List.foldl_cons, List.foldl_cons, step_by, ih]
  exact this init

/-- rows with their weights multiplied -/
def rowsBy (c : ℝ) (a : Rows ℝ) : Rows ℝ := { a with W := fun i => c * a.W i }

theorem update_by (W : Nat → ℝ) (i : Nat) (w : ℝ) :
    Function.update (fun j => c * W j) i (c * w) = fun j => c * Function.update W i w j := by
  funext j
  by_cases h : j = i
  · subst h; simp
  · simp [h]

theorem fillRow_by (s : Solver ℝ) (numRows : Nat) (a : Rows ℝ) (x : Nat × Obs ℝ) :
    fillRow (solverBy c s) numRows (rowsBy c a) (x.1, obs c x.2) = (fillRow s numRows a x).map (rowsBy c) := by
  unfold fillRow
  rw [show (solverBy c s).paramsAt (obs c x.2).ev1 (obs c x.2).ph = s.paramsAt x.2.ev1 x.2.ph from rfl,
    show (solverBy c s).paramsAt (obs c x.2).ev2 (obs c x.2).ph = s.paramsAt x.2.ev2 x.2.ph from rfl]
  cases s.paramsAt x.2.ev1 x.2.ph with
  | throws => rfl
  | ub => rfl
  | ok p1 =>
    cases s.paramsAt x.2.ev2 x.2.ph with
    | throws => rfl
    | ub => rfl
    | ok p2 =>
      simp only [Outcome.bind_ok]
      unfold write
      by_cases h : x.1 < numRows
      · simp only [if_pos h, Outcome.bind_ok]
        show Outcome.ok (Rows.mk (Function.update (fun j => c * a.W j) x.1 (c * x.2.weight)) _ _ _ _ _) = _
        rw [update_by]
        rfl
      · simp only [if_neg h]
        rfl

/-- statistics with their weights multiplied -/
def statsBy (c : ℝ) (st : StatsMap ℝ) : StatsMap ℝ := st.map (fun x => (x.1, (x.2.1, c * x.2.2)))

theorem find?_statsBy (st : StatsMap ℝ) (k : Nat × Nat) :
    AMap.find? (statsBy c st) k = (AMap.find? st k).map (fun x => (x.1, c * x.2)) :=
  find?_mapVal (fun x : Nat × ℝ => (x.1, c * x.2)) st k

theorem set_statsBy (st : StatsMap ℝ) (k : Nat × Nat) (x : Nat × ℝ) :
    AMap.set (statsBy c st) k (x.1, c * x.2) = statsBy c (AMap.set st k x) :=
  set_mapVal (fun x : Nat × ℝ => (x.1, c * x.2)) st k x

theorem bump_by (st : StatsMap ℝ) (o : Option Nat) (ph : Nat) (w : ℝ) :
    bump (statsBy c st) o ph (c * w) = statsBy c (bump st o ph w) := by
  unfold bump
  cases o with
  | none => rfl
  | some e =>
    simp only
    rw [find?_statsBy]
    cases AMap.find? st (e, ph) with
    | none => exact set_statsBy st (e, ph) (1, w)
    | some x =>
      have := set_statsBy (c := c) st (e, ph) (x.1 + 1, x.2 + w)
      rw [mul_add] at this
      exact this

theorem statStep_by (hc : 0 < c) (s : Solver ℝ) (a : Rows ℝ) (st : StatsMap ℝ) (ob : Nat) :
    statStep (solverBy c s) (rowsBy c a) (statsBy c st) ob = (statStep s a st ob).map (statsBy c) := by
  unfold statStep
  have e : AMap.find? (solverBy c s).observations ob = (AMap.find? s.observations ob).map (obs c) := find?_mapVal _ _ _
  rw [e]
  cases AMap.find? s.observations ob with
  | none => rfl
  | some o =>
    simp only [Option.map_some]
    have h : (rowsBy c a).W ob = 0 ↔ a.W ob = 0 := by
      show c * a.W ob = 0 ↔ _
      simp [hc.ne']
    by_cases h0 : a.W ob = 0
    · rw [if_pos (h.2 h0), if_pos h0]; rfl
    · rw [if_neg (fun hh => h0 (h.1 hh)), if_neg h0]
      show Outcome.ok (bump (bump (statsBy c st) (a.ev1 ob) (a.phSta ob) (c * a.W ob)) (a.ev2 ob) (a.phSta ob) (c * a.W ob)) = _
      rw [bump_by, bump_by]
      rfl

theorem ttStep_by (numRows : Nat) (ttc : ℝ) (st : StatsMap ℝ) (acc : Rows ℝ × Nat) (x : (Nat × Nat) × ObsParams ℝ) :
    ttStep numRows ttc (statsBy c st) (rowsBy c acc.1, acc.2) x = (ttStep numRows ttc st acc x).map (fun y => (rowsBy c y.1, y.2)) := by
  unfold ttStep
  split
  · rw [find?_statsBy]
    cases AMap.find? st x.1 with
    | none => rfl
    | some stat =>
      simp only [Option.map_some]
      split
      · rfl
      · rename_i h
        have h : acc.2 < numRows := by omega
        unfold write
        simp only [if_pos h, Outcome.bind_ok]
        have e : ttc * (if stat.1 > 0 then c * stat.2 / (stat.1 : ℝ) else 0) = c * (ttc * (if stat.1 > 0 then stat.2 / (stat.1 : ℝ) else 0)) := by
          split <;> ring
        show Outcome.ok (Rows.mk (Function.update (fun j => c * acc.1.W j) acc.2 _) _ _ _ _ _, _) = _
        rw [e, update_by]
        rfl
  · rfl

theorem emptyRows_by (numRows i : Nat) (a : Rows ℝ) : emptyRows numRows i (rowsBy c a) = rowsBy c (emptyRows numRows i a) := by
  unfold emptyRows rowsBy
  simp only [Rows.mk.injEq, and_self, and_true]
  funext j
  split <;> simp

theorem downWeight_by (nth : NthElement (id : ℝ → ℝ)) (nObs : Nat) (rdw : ℝ) (a : Rows ℝ) :
    downWeight nth nObs rdw (rowsBy c a) = (downWeight nth nObs rdw a).map (rowsBy c) := by
  unfold downWeight
  split
  · show (allNumbers (computeResidualWeights nth ((List.range nObs).map a.d) rdw)).map _ = _
    rw [Option.map_map]
    congr 1
    funext ws
    unfold rowsBy
    simp only [Function.comp, Rows.mk.injEq, and_self, and_true]
    funext j
    split <;> ring
  · rfl

theorem constrain_by (hc : 0 < c) (s : Solver ℝ) (ttc : ℝ) (nObs numRows : Nat) (ip : List ((Nat × Nat) × ObsParams ℝ)) (a : Rows ℝ) :
    constrain (solverBy c s) ttc nObs numRows ip (rowsBy c a) =
      (constrain s ttc nObs numRows ip a).map (fun y => (rowsBy c y.1, statsBy c y.2)) := by
  unfold constrain
  have e : (List.range nObs).foldlM (statStep (solverBy c s) (rowsBy c a)) [] =
      ((List.range nObs).foldlM (statStep s a) []).map (statsBy c) :=
    foldlM_map_comm (γ := Unit) (statsBy c) _ _ (fun b k => statStep_by hc s a b k) (List.range nObs) []
  rw [e]
  cases (List.range nObs).foldlM (statStep s a) [] with
  | throws => rfl
  | ub => rfl
  | ok st =>
    show (do
      if ttc > 0 then do
        let (a, i) ← ip.foldlM (ttStep numRows ttc (statsBy c st)) (rowsBy c a, nObs)
        let a := emptyRows numRows i a
        if ttNum ttc ip ≠ numRows - nObs then .throws
        else .ok (a, statsBy c st)
      else .ok (rowsBy c a, statsBy c st)) = Outcome.map _ (do
      if ttc > 0 then do
        let (a, i) ← ip.foldlM (ttStep numRows ttc st) (a, nObs)
        let a := emptyRows numRows i a
        if ttNum ttc ip ≠ numRows - nObs then .throws
        else .ok (a, st)
      else .ok (a, st))
    split
    · have e2 : ip.foldlM (ttStep numRows ttc (statsBy c st)) (rowsBy c a, nObs) =
          (ip.foldlM (ttStep numRows ttc st) (a, nObs)).map (fun y => (rowsBy c y.1, y.2)) :=
        foldlM_map_comm (γ := Unit) (fun y : Rows ℝ × Nat => (rowsBy c y.1, y.2)) _ _ (fun b k => ttStep_by numRows ttc st b k) ip (a, nObs)
      rw [e2]
      cases ip.foldlM (ttStep numRows ttc st) (a, nObs) with
      | throws => rfl
      | ub => rfl
      | ok y =>
        show (if ttNum ttc ip ≠ numRows - nObs then Outcome.throws else .ok (emptyRows numRows y.2 (rowsBy c y.1), statsBy c st)) =
          Outcome.map _ (if ttNum ttc ip ≠ numRows - nObs then Outcome.throws else .ok (emptyRows numRows y.2 y.1, st))
        rw [emptyRows_by]
        split <;> rfl
    · rfl

theorem interEvent_by (s : Solver ℝ) (io : List (Nat × Obs ℝ)) :
    interEventDistances (solverBy c s) (io.map (fun x => (x.1, obs c x.2))) = interEventDistances s io := by
  unfold interEventDistances
  rw [List.foldlM_map]
  rfl

/-- a prepared system with its weights multiplied -/
def preparedBy (c : ℝ) (p : Prepared ℝ) : Prepared ℝ := ⟨weighted c p.dd, statsBy c p.stats, p.computed⟩

theorem prepare_by (hc : 0 < c) (s : Solver ℝ) (nth : NthElement (id : ℝ → ℝ)) (ttc rdw : ℝ) (io : List (Nat × Obs ℝ))
    (ip : List ((Nat × Nat) × ObsParams ℝ)) :
    prepare (solverBy c s) nth ttc rdw (io.map (fun x => (x.1, obs c x.2))) ip =
      (prepare s nth ttc rdw io ip).map (Option.map (preparedBy c)) := by
  unfold prepare
  have hl : (solverBy c s).observations.length = s.observations.length := List.length_map _
  rw [hl, interEvent_by]
  simp only
  show (do
    let G ← fillG s.evConv.size s.phStaConv.size ip
    _) = _
  cases fillG s.evConv.size s.phStaConv.size ip with
  | throws => rfl
  | ub => rfl
  | ok G =>
    simp only [Outcome.bind_ok]
    have hi : rowsBy c Rows.init = Rows.init := by
      unfold rowsBy Rows.init
      simp
    have e : ∀ k, (io.map (fun x => (x.1, obs c x.2))).foldlM (fillRow (solverBy c s) k) Rows.init =
        (io.foldlM (fillRow s k) Rows.init).map (rowsBy c) := by
      intro k
      have := foldlM_map_comm₂ (rowsBy c) (fun x : Nat × Obs ℝ => (x.1, obs c x.2)) (fillRow (solverBy c s) k) (fillRow s k)
        (fun b a => fillRow_by s k b a) io Rows.init
      rw [hi] at this
      exact this
    rw [e]
    cases io.foldlM (fillRow s (s.observations.length + ttNum ttc ip)) Rows.init with
    | throws => rfl
    | ub => rfl
    | ok a =>
      simp only [Outcome.map, Outcome.bind_ok]
      rw [downWeight_by]
      cases downWeight nth s.observations.length rdw a with
      | none => rfl
      | some a =>
        simp only [Option.map_some]
        rw [constrain_by hc]
        cases constrain s ttc s.observations.length (s.observations.length + ttNum ttc ip) ip a with
        | throws => rfl
        | ub => rfl
        | ok y =>
          simp only [Outcome.map, Outcome.bind_ok]
          cases interEventDistances s io with
          | throws => rfl
          | ub => rfl
          | ok _ => rfl

theorem load_by (st : StatsMap ℝ) (m : Nat → Fl ℝ) : loadSolutions (statsBy c st) m = loadSolutions st m := by
  unfold loadSolutions statsBy
  rw [List.foldl_map]

theorem used_by (s : Solver ℝ) (st : StatsMap ℝ) (k : Nat) (sta ph : List Char) :
    isEventPhaseUsed (solverBy c s) (statsBy c st) k sta ph = isEventPhaseUsed s st k sta ph := by
  unfold isEventPhaseUsed
  rw [show (solverBy c s).evConv = s.evConv from rfl, show (solverBy c s).phStaConv = s.phStaConv from rfl]
  cases s.evConv.fwd.find? k with
  | none => rfl
  | some e =>
    cases s.phStaConv.fwd.find? (phStaKey ph sta) with
    | none => rfl
    | some p =>
      simp only
      rw [find?_statsBy]
      cases AMap.find? st (e, p) <;> rfl

theorem answerOf_by (s : Solver ℝ) (p : Prepared ℝ) (m : Nat → ℝ) : answerOf (solverBy c s) (preparedBy c p) m = answerOf s p m := by
  unfold answerOf
  simp only
  rw [show (preparedBy c p).stats = statsBy c p.stats from rfl, load_by]
  simp only [used_by]
  rfl

theorem degenerate_by (hc : 0 < c) (dd : DDSystem ℝ) : degenerate (weighted c dd) ↔ degenerate dd := by
  unfold degenerate
  have h1 : ∀ r, (weighted c dd).W r ≠ 0 ↔ dd.W r ≠ 0 := by
    intro r
    show c * dd.W r ≠ 0 ↔ _
    simp [hc.ne']
  have h2 : ∀ i, (weighted c dd).colSq i = 0 ↔ dd.colSq i = 0 := by
    intro i
    rw [colSq_weighted]
    simp [hc.ne']
  simp only [h1, h2]
  exact Iff.rfl

theorem prepared_by (hc : 0 < c) {su : SolverSetup} (hv : Verif.Weights.VisitsAlike c su) (ops : List (SolverOp ℝ)) (absLoc down : ℝ) :
    su.prepared (ops.map (call c)) absLoc down = (su.prepared ops absLoc down).map (Option.map (preparedBy c)) := by
  unfold SolverSetup.prepared
  rw [run_by, show (solverBy c (run ops)).observations = (run ops).observations.map (fun x => (x.1, obs c x.2)) from rfl, hv]
  exact prepare_by hc _ _ _ _ _ _

theorem differences_by (s : Solver ℝ) (io : List (Nat × Obs ℝ)) :
    getDoubleDifferences (solverBy c s) (io.map (fun x => (x.1, obs c x.2))) = getDoubleDifferences s io := by
  unfold getDoubleDifferences
  induction io with
  | nil => rfl
  | cons x io ih =>
    rw [List.map_cons, List.mapM_cons, List.mapM_cons, ih]
    rfl

theorem realSolver_ignores (hc : 0 < c) {su : SolverSetup} (so : SolverOptions ℝ) (hm : su.method = some .lsmr) (hn : su.normalize = true)
    (hv : Verif.Weights.VisitsAlike c su) (hodd : ∀ it ops, su.odd it (ops.map (call c)) = su.odd it ops) :
    Verif.Weights.SolverIgnores c (realSolver su so) := by
  constructor
  · intro it ops absLoc down
    unfold realSolver
    simp only
    rw [prepared_by hc hv, run_by, show (solverBy c (run ops)).observations = (run ops).observations.map (fun x => (x.1, obs c x.2)) from rfl, hv, differences_by]
    cases su.prepared ops absLoc down <;> rfl
  · intro it ops damping
    unfold realSolver
    simp only
    rw [prepared_by hc hv]
    cases su.prepared ops _ _ with
    | throws => rfl
    | ub => rfl
    | ok p =>
      cases p with
      | none => exact hodd it ops
      | some p =>
        simp only [Outcome.map, Option.map_some]
        unfold SolverSetup.solved
        rw [run_by, hm, hn]
        have he : (solverBy c (run ops)).observations.isEmpty = (run ops).observations.isEmpty := List.isEmpty_map
        have hd : degenerate (preparedBy c p).dd ↔ degenerate p.dd := degenerate_by hc p.dd
        rw [he, hodd]
        simp only [show solveDD .lsmr (preparedBy c p).dd su.iterations damping true = solveDD .lsmr p.dd su.iterations damping true from
          solveDD_weighted hc _ _ _, answerOf_by]
        split
        · rfl
        · by_cases h : degenerate p.dd
          · rw [if_pos ⟨rfl, hd.2 h⟩, if_pos ⟨rfl, h⟩]
          · rw [if_neg (fun hh => h (hd.1 hh.2)), if_neg (fun hh => h hh.2)]

end Verif.Solver
