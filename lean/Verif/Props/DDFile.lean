import Verif.Proofs.DDFile
import Verif.Proofs.DumpWaveforms
import Verif.Proofs.DDFileRun
import Verif.Props.RelocateOrder

/-!
# C108: the double-difference files
-/

set_option linter.unusedSimpArgs false
set_option linter.unusedSectionVars false

namespace Verif.DDFile
open Verif.Csv Verif.Catalog Verif.Solver Verif.PairFile

section
variable {K D : Type} [Field K] [LinearOrder K] [IsStrictOrderedRing K]

/-- **C108a.** For every complete history of calls whose residual weights are numbers, the double differences are fetched and
written without an exception, whatever the order in which the observations are visited; the file has the header and one line
for each distinct observation: events, station, phase, the weight after down-weighting, the coefficient, measured minus
computed time difference, and the distance of the two events as given to the solver. -/
theorem file_written (ops : List (SolverOp K)) (hb : Fits ops) (hs : NoSeparator ops) (hc : Complete ops)
    (nth : NthElement (id : K → K)) (ttConstraint residualDownWeight : K)
    (io : List (Nat × Obs K)) (ip : List ((Nat × Nat) × ObsParams K))
    (hio : io.Perm (run ops).observations) (hip : ip.Perm (run ops).obsParams) (p : Prepared K)
    (hp : (run ops).prepare nth ttConstraint residualDownWeight io ip = .ok (some p))
    (num : K → List Char) (hnum : ∀ x, Bare (num x)) (dist : K × K × K → K × K × K → K)
    (stations : AMap String (Station D)) (hw : Writable stations ops) :
    ∃ es text, (run ops).entries dist p io = .ok es ∧ write num stations es = .ok text ∧
      IsFile nth residualDownWeight num dist stations ops text := by
  have inv := inv_run ops hb
  obtain ⟨p', hp', hsys⟩ : ∃ p', (run ops).prepare nth ttConstraint residualDownWeight io ip = .ok (some p') ∧
      IsSystemOf ops nth ttConstraint residualDownWeight p' := by
    rcases system_prepared ops hb hs hc nth ttConstraint residualDownWeight io ip hio hip with h | ⟨h, -⟩
    · exact h
    · rw [hp] at h; simp at h
  rw [hp] at hp'
  simp only [Outcome.ok.injEq, Option.some.injEq] at hp'
  subst hp'
  have hF := firstBy_quad hs
  set F := firstBy ObsArg.quad (obsOf ops) with hFd
  have hsub : ∀ o ∈ F, o ∈ obsOf ops := fun o ho => firstBy_subset _ _ ho
  -- the order of the visit
  have hperm : io.Perm (F.zipIdx.map (fun x => (x.2, toObs ops x.1))) := by
    refine (hio.trans (perm_obsList inv)).trans (List.Perm.of_eq ?_)
    unfold obsList
    rw [← hF, List.mapIdx_eq_zipIdx_map]
  obtain ⟨l, hl, rfl⟩ := perm_map_exists _ hperm
  have hmem : ∀ x ∈ l, F[x.2]? = some x.1 := by
    intro x hx
    have := hl.mem_iff.1 hx
    obtain ⟨o, i⟩ := x
    rw [List.mem_zipIdx_iff_getElem?] at this
    exact this
  let pos : Nat → K × K × K := fun k => (positionOf ops k).getD (0, 0, 0)
  have hpos : ∀ o ∈ obsOf ops, positionOf ops o.e1 = some (pos o.e1) ∧ positionOf ops o.e2 = some (pos o.e2) := by
    intro o ho
    obtain ⟨h1, h2, -⟩ := hc o ho
    obtain ⟨a, ha⟩ := positionOf_some h1
    obtain ⟨b, hb'⟩ := positionOf_some h2
    simp only [pos, ha, hb', Option.getD_some, and_self]
  let E : ObsArg K × Nat → Entry K := fun x => ⟨x.1.e1, x.1.e2, x.1.sta, x.1.phase, p.dd.W x.2, x.1.xcorrUsed, x.1.xcorrCoeff,
    x.1.timeDiff, p.computed x.2, x.1.timeDiff - p.computed x.2, dist (pos x.1.e1) (pos x.1.e2)⟩
  have hent : (run ops).entries dist p (l.map (fun x => (x.2, toObs ops x.1))) = .ok (l.map E) := by
    unfold entries
    rw [List.mapM_map]
    apply mapM_ok
    intro x hx
    have ho := hsub _ (List.mem_of_getElem? (hmem x hx))
    exact entry_ok hb hs hc dist p ho (hpos _ ho).1 (hpos _ ho).2 x.2
  -- the lines
  let C : ObsArg K → String × String × String := fun o =>
    ((stations.find? (String.ofList o.sta)).map (fun s => (s.networkCode, s.stationCode, s.locationCode))).getD ("", "", "")
  let L : ObsArg K × Nat → List Str := fun x => [decimal x.1.e1, decimal x.1.e2, (C x.1).1.toList, (C x.1).2.1.toList,
    (C x.1).2.2.toList, x.1.phase, num (p.dd.W x.2), (if x.1.xcorrUsed then "true".toList else "false".toList),
    num x.1.xcorrCoeff, num (x.1.timeDiff - p.computed x.2), num (dist (pos x.1.e1) (pos x.1.e2))]
  have hrows : mapRows (row num stations) (l.map E) = .ok (l.map L) := by
    apply mapRows_map
    intro x hx
    have ho := hsub _ (List.mem_of_getElem? (hmem x hx))
    obtain ⟨-, sta, hsta, -⟩ := hw _ ho
    unfold row
    simp only [E, L, C, hsta, Option.map_some, Option.getD_some]
  have hread : read (fileText (header :: l.map L)) = header :: l.map L := by
    have hclean : ∀ r ∈ header :: l.map L, r ≠ [] ∧ ∀ f ∈ r, Clean f := by
      intro r hr
      rcases List.mem_cons.1 hr with rfl | hr
      · refine ⟨by simp [header], ?_⟩
        unfold Clean
        decide +kernel
      · obtain ⟨x, hx, rfl⟩ := List.mem_map.1 hr
        have ho := hsub _ (List.mem_of_getElem? (hmem x hx))
        obtain ⟨hph, sta, hsta, h1, h2, h3⟩ := hw _ ho
        refine ⟨by simp [L], ?_⟩
        intro f hf
        have hb1 : Clean ("true".toList) := by unfold Clean; decide
        have hb2 : Clean ("false".toList) := by unfold Clean; decide
        simp only [L, C, hsta, Option.map_some, Option.getD_some, List.mem_cons, List.not_mem_nil, or_false] at hf
        rcases hf with rfl | rfl | rfl | rfl | rfl | rfl | rfl | rfl | rfl | rfl | rfl
        · exact clean_decimal _
        · exact clean_decimal _
        · exact h1
        · exact h2
        · exact h3
        · exact hph
        · exact hnum _
        · split
          · exact hb1
          · exact hb2
        · exact hnum _
        · exact hnum _
        · exact hnum _
    exact csv_table_round_trip (tableText_fileText _ hclean)
      (fun r hr f hf => ⟨fun h => ((hclean r hr).2 f hf _ h).2.2.1 rfl, fun h => ((hclean r hr).2 f hf _ h).2.2.2 rfl⟩)
  refine ⟨l.map E, _, hent, by unfold write; rw [hrows]; rfl, l.map L, F.zipIdx.map L, p.dd.d, hread, hl.map L, by simp [hFd], ?_⟩
  intro i o hio'
  have ho := hsub _ (List.mem_of_getElem? hio')
  obtain ⟨e1, e2, ph, p1, p2, w, -, -, -, h1, h2, -, -, -, h3, h4, h5, h6⟩ := hsys.observation i o hio'
  refine ⟨⟨p1, p2, h1, h2, h4⟩, L (o, i), w, by simp [hFd, hio'], by rw [← hsys.rows]; exact h5, ?_⟩
  obtain ⟨-, sta, hsta, -⟩ := hw _ ho
  refine ⟨sta, _, _, hsta, (hpos o ho).1, (hpos o ho).2, ?_⟩
  simp only [L, C, hsta, Option.map_some, Option.getD_some, h6, h4, h3, Dump.toString_nat]
  cases o.xcorrUsed <;> rfl

end

open Verif.Relocate

/-- **C108b.** Whatever iteration of a relocation the double differences are taken from, they are written as a table with one
line for each distinct observation of that iteration; the position used for the distance is that of the event at the beginning
of the iteration, unless it was restored.  Only residual weights that are not numbers are left out. -/
theorem iteration_file {a : Args ℝ} (hg : GoodArgs a) {su : SolverSetup} (hv : su.Visits) {cat r : Catalog ℝ} (hs : cat.Sound)
    (hn : NoAt cat) (hpr : ClusterFiles.Printable cat) {log : List (IterLog ℝ)} (h : relocate a cat = .ok (r, log))
    (num : ℝ → List Char) (hnum : ∀ x, Bare (num x)) (dist : ℝ × ℝ × ℝ → ℝ × ℝ × ℝ → ℝ)
    {i : Nat} {x : IterLog ℝ} (hx : log[i]? = some x) :
    ((∃ es text, ofIteration su dist x = .ok (some es) ∧ write num cat.stations es = .ok text ∧
        IsFile su.nth x.downWeighting num dist cat.stations x.ops text) ∨
      (ofIteration su dist x = .ok none ∧ 0 < x.downWeighting)) ∧
    ∀ k pos, positionOf x.ops k = some pos → k ∉ x.reverted →
      ∃ ev, x.before.events.find? k = some ev ∧ pos = (ev.latitude, ev.longitude, ev.depth) := by
  obtain ⟨h1, h2, h3, -⟩ := iteration_ops hg hs hn h hx
  refine ⟨?_, fun k pos hp hk => iteration_position hg hs hn h hx hp hk⟩
  have hw := iteration_writable hg hs hn hpr h hx
  rcases system_prepared x.ops h1 h2 h3 su.nth x.absLoc x.downWeighting _ _ (hv.obs _) (hv.params _) with
    ⟨p, hp, -⟩ | ⟨hp, hd, -⟩
  · obtain ⟨es, text, e1, e2, e3⟩ := file_written x.ops h1 h2 h3 su.nth x.absLoc x.downWeighting _ _ (hv.obs _) (hv.params _) p hp
      num hnum dist cat.stations hw
    refine .inl ⟨es, text, ?_, e2, e3⟩
    unfold ofIteration SolverSetup.prepared
    rw [hp]
    simp only [e1]
    rfl
  · refine .inr ⟨?_, hd⟩
    unfold ofIteration SolverSetup.prepared
    rw [hp]

/-- **C108c.** Of a relocation the file of the initial double differences is that of the first iteration, and the file of the
final ones is that of the iteration after the last solution, provided all systems could be solved: then there is one iteration
more than configured, and it is not solved. -/
theorem relocation_files {a : Args ℝ} (hg : GoodArgs a) {su : SolverSetup} (hv : su.Visits) {cat r : Catalog ℝ} (hs : cat.Sound)
    (hn : NoAt cat) (hpr : ClusterFiles.Printable cat) {log : List (IterLog ℝ)} (h : relocate a cat = .ok (r, log))
    (num : ℝ → List Char) (hnum : ∀ x, Bare (num x)) (dist : ℝ × ℝ × ℝ → ℝ × ℝ × ℝ → ℝ) :
    (∃ x, log.head? = some x ∧ x.before = cat ∧
      ((∃ es text, startDDs su dist log = .ok (some es) ∧ write num cat.stations es = .ok text ∧
        IsFile su.nth x.downWeighting num dist cat.stations x.ops text) ∨
      (startDDs su dist log = .ok none ∧ 0 < x.downWeighting))) ∧
    (∀ x, log.getLast? = some x → log.length = a.so.algoIterations + 1 →
      ((∃ es text, finalDDs su a.so dist log = .ok (some es) ∧ write num cat.stations es = .ok text ∧
        IsFile su.nth x.downWeighting num dist cat.stations x.ops text) ∨
      (finalDDs su a.so dist log = .ok none ∧ 0 < x.downWeighting))) := by
  obtain ⟨n, last, h1, h2, -⟩ := relocation_iterations h
  constructor
  · have h0 : ∃ x, log[0]? = some x := ⟨log[0], List.getElem?_eq_getElem (by omega)⟩
    obtain ⟨x, hx⟩ := h0
    obtain ⟨prev, -, -, hc⟩ := entry_facts hg hs hn h hx
    have hb : x.before = cat := by
      rcases hc with ⟨-, -, h⟩ | ⟨_, _, h, -⟩
      · exact h
      · exact absurd h (lt_irrefl _)
    refine ⟨x, by rw [List.head?_eq_getElem?]; exact hx, hb, ?_⟩
    have hs' : startDDs su dist log = ofIteration su dist x := by unfold startDDs; rw [hx]
    rw [hs']
    exact (iteration_file hg hv hs hn hpr h num hnum dist hx).1
  · intro x hx hl
    rw [List.getLast?_eq_getElem?, hl, Nat.add_sub_cancel] at hx
    have hs' : finalDDs su a.so dist log = ofIteration su dist x := by unfold finalDDs; rw [hx]
    rw [hs']
    exact (iteration_file hg hv hs hn hpr h num hnum dist hx).1

/-- **C108d, the condition is needed.** If a system could not be solved, the file of the final double differences has only the
header, whatever was relocated before. -/
theorem no_final_file {a : Args ℝ} {su : SolverSetup} {cat r : Catalog ℝ} {log : List (IterLog ℝ)}
    (h : relocate a cat = .ok (r, log)) (hl : log.length ≠ a.so.algoIterations + 1)
    (num : ℝ → List Char) (dist : ℝ × ℝ × ℝ → ℝ × ℝ × ℝ → ℝ) :
    (∃ x, log[log.length - 1]? = some x ∧ log.length - 1 < a.so.algoIterations ∧
      a.sol.solve (log.length - 1) x.ops x.damping = none) ∧
    ∃ text, finalDDs su a.so dist log = .ok (some []) ∧ write num cat.stations [] = .ok text ∧
      read text = [columns.map String.toList] := by
  obtain ⟨n, last, h1, h2, -, h3, -⟩ := relocation_iterations h
  have hn : n < a.so.algoIterations ∧ a.sol.solve n last.ops last.damping = none := by
    rcases h3 with h3 | h3
    · omega
    · exact h3
  refine ⟨⟨last, by rw [h1, Nat.add_sub_cancel]; exact h2, by rw [h1, Nat.add_sub_cancel]; exact hn.1,
    by rw [h1, Nat.add_sub_cancel]; exact hn.2⟩, fileText [header], ?_, rfl, by decide +kernel⟩
  unfold finalDDs
  rw [List.getElem?_eq_none (by omega)]

/-! ## Concrete cases -/

namespace Example
open Verif.Iteration.Example Verif.LeastSquares

theorem printable : ClusterFiles.Printable RealExample.bg := by
  constructor
  · intro id s hs
    have : ∀ kv ∈ RealExample.bg.stations, ClusterFiles.Plain kv.2.networkCode ∧ ClusterFiles.Plain kv.2.stationCode ∧
        ClusterFiles.Plain kv.2.locationCode := by
      unfold ClusterFiles.Plain
      decide +kernel
    exact this _ (AMap.mem_of_find? hs)
  · unfold ClusterFiles.Plain
    decide +kernel

/-- the first file of a relocation of two events: one line, for the one observation, whose weight is not reduced -/
example (method : Method) (num : ℝ → List Char) (hnum : ∀ x, Bare (num x)) (dist : ℝ × ℝ × ℝ → ℝ × ℝ × ℝ → ℝ) :
    ∃ r log es text, relocate (args method) RealExample.bg = .ok (r, log) ∧
      startDDs (setup method) dist log = .ok (some es) ∧ write num RealExample.bg.stations es = .ok text ∧
      IsFile (setup method).nth 0 num dist RealExample.bg.stations ops text := by
  obtain ⟨⟨r, log⟩, h⟩ := relocate_total (args_good method) RealExample.bg_sound RealExample.bg_noAt (args_pairable method)
    (realSolver_prepares (setup_visits method) options)
  obtain ⟨⟨x, hx, hb, h1⟩, -⟩ := relocation_files (args_good method) (setup_visits method) RealExample.bg_sound RealExample.bg_noAt
    printable h num hnum dist
  rw [List.head?_eq_getElem?] at hx
  obtain ⟨prev, hok, -, hc⟩ := entry_facts (args_good method) RealExample.bg_sound RealExample.bg_noAt h hx
  have hp : prev = Catalog.init := by
    rcases hc with ⟨-, h, -⟩ | ⟨_, _, h, -⟩
    · exact h
    · exact absurd h (lt_irrefl _)
  have hd : x.downWeighting = 0 := by
    rw [hok.down]
    simp [args, options, interpolate]
  have ho : x.ops = ops := by
    obtain ⟨ob, o1, o2, -⟩ := hok.observe
    obtain ⟨ob', o3, o4⟩ := first_ops method
    rw [hp, hb] at o1
    have : ob = ob' := by
      have := o1.symm.trans o3
      simpa using this
    rw [← o2, this, o4]
  rw [hd, ho] at h1
  rcases h1 with ⟨es, text, e1, e2, e3⟩ | ⟨-, h1⟩
  · exact ⟨r, log, es, text, h, e1, e2, e3⟩
  · exact absurd h1 (lt_irrefl _)

/-- one solution, then the solver gives up -/
noncomputable def giveUp (method : Method) : Args ℝ :=
  { args method with
    so := { options with algoIterations := 5 }
    sol := ⟨fun _ _ _ _ => .ok (), fun it _ _ => if it = 0 then
      some ⟨fun k => if k = 1 then some ⟨0, 0, 0, 0⟩ else none, fun _ _ _ => true⟩ else none⟩ }

/-- an event is relocated, but the file of the final double differences has only the header -/
example (method : Method) (su : SolverSetup) (num : ℝ → List Char) (dist : ℝ × ℝ × ℝ → ℝ × ℝ × ℝ → ℝ) :
    ∃ r log text, relocate (giveUp method) RealExample.bg = .ok (r, log) ∧ (r.events.find? 1).isSome = true ∧
      finalDDs su (giveUp method).so dist log = .ok (some []) ∧ write num RealExample.bg.stations [] = .ok text ∧
      read text = [columns.map String.toList] := by
  have hg : GoodArgs (giveUp method) := ⟨(args_good method).cluster, (args_good method).fits⟩
  obtain ⟨⟨r, log⟩, h⟩ := relocate_total hg RealExample.bg_sound RealExample.bg_noAt (args_pairable method)
    (fun _ _ _ _ _ _ _ => rfl)
  obtain ⟨n, last, h1, h2, -, h3, h4⟩ := relocation_iterations h
  have hn : n = 1 := by
    rcases Nat.lt_trichotomy n 1 with h | h | h
    · exfalso
      have : n = 0 := by omega
      subst this
      rcases h3 with h3 | ⟨-, h3⟩
      · simp [giveUp] at h3
      · simp [giveUp] at h3
    · exact h
    · exfalso
      obtain ⟨x, ans, -, -, h5⟩ := h4 1 h
      simp [giveUp] at h5
  subst hn
  obtain ⟨x, ans, k1, k2, k3⟩ := h4 0 (by omega)
  have hrev := nothing_restored (a := giveUp method) rfl hg (fun _ _ _ => rfl) RealExample.bg_sound RealExample.bg_noAt (args_pairable method) h
  obtain ⟨-, text, e1, e2, e3⟩ := no_final_file (su := su) h (by rw [h1]; simp [giveUp]) num dist
  refine ⟨r, log, text, h, ?_, e1, e2, e3⟩
  refine (relocate_returns_solved_partial hg RealExample.bg_sound RealExample.bg_noAt ?_ h 1).2 ⟨?_, 0, x, ans, k1, k2, ?_, ?_⟩
  · rintro k ⟨e, he, hm⟩
    have : ∀ kv ∈ RealExample.bg.events, kv.2.isRelocated = false := by decide +kernel
    have := this _ (AMap.mem_of_find? he)
    rw [hm] at this
    cases this
  · show 1 ∈ RealExample.pair.map (·.1)
    decide
  · simp only [giveUp, if_true, Option.some.injEq] at k3
    rw [← k3]; rfl
  · intro y hy
    rw [hrev y (List.mem_of_getElem? hy)]
    simp

end Example

end Verif.DDFile
