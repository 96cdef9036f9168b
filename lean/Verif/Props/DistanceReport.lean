import Verif.Proofs.DistanceReport

/-!
# C109: the summary by inter-event distance
-/

set_option linter.unusedSimpArgs false
set_option linter.unusedSectionVars false

namespace Verif.DistanceReport
open Verif.Solver Verif.DDFile Verif.Stats

variable {K : Type} [Field K] [LinearOrder K] [IsStrictOrderedRing K]

theorem bindOk {A B : Type} {x : Outcome A} {f : A → Outcome B} {b : B} :
    (x >>= f) = .ok b ↔ ∃ a, x = .ok a ∧ f a = .ok b := by
  cases x <;> simp [bind, Outcome.bind]

/-- the groups and their lines -/
theorem report_groups {ops : List (SolverOp K)} (hb : Fits ops) (hs : NoSeparator ops) (hc : Complete ops)
    (nth : NthElement (id : K → K)) (p : Prepared K) {io : List (Nat × Obs K)} (hio : io.Perm (run ops).observations) (dist : K × K × K → K × K × K → K) :
    ∃ (l : List (ObsArg K × Nat)) (D : ObsArg K × Nat → K), l.Perm (firstBy ObsArg.quad (obsOf ops)).zipIdx ∧
      l.Pairwise (fun a b => D a ≤ D b) ∧ (∀ x ∈ l, At ops x ∧ IsDistance dist ops x.1 (D x)) ∧
      report (run ops) nth dist p io =
        ((groups (l.length / 20) l).map (List.map (stored D ops))).mapM (lineOf nth p) := by
  have inv := Solver.inv_run ops hb
  have hF := firstBy_quad hs
  set F := firstBy ObsArg.quad (obsOf ops) with hFd
  have hperm : io.Perm (F.zipIdx.map (fun x => (x.2, toObs ops x.1))) := by
    refine (hio.trans (perm_obsList inv)).trans (List.Perm.of_eq ?_)
    unfold obsList
    rw [← hF, List.mapIdx_eq_zipIdx_map]
  obtain ⟨l, hl, rfl⟩ := perm_map_exists _ hperm
  have hmem : ∀ x ∈ l, F[x.2]? = some x.1 := by
    intro x hx
    have := hl.mem_iff.1 hx
    obtain ⟨o, i⟩ := x
    rw [List.mem_zipIdx_iff_getElem?] at this
    exact this
  have hobs : ∀ x ∈ l, x.1 ∈ obsOf ops := fun x hx => firstBy_subset _ _ (List.mem_of_getElem? (hmem x hx))
  let pos : Nat → K × K × K := fun k => (positionOf ops k).getD (0, 0, 0)
  have hpos : ∀ o ∈ obsOf ops, positionOf ops o.e1 = some (pos o.e1) ∧ positionOf ops o.e2 = some (pos o.e2) := by
    intro o ho
    obtain ⟨h1, h2, -⟩ := hc o ho
    obtain ⟨a, ha⟩ := positionOf_some h1
    obtain ⟨b, hb'⟩ := positionOf_some h2
    simp only [pos, ha, hb', Option.getD_some, and_self]
  let D : ObsArg K × Nat → K := fun x => dist (pos x.1.e1) (pos x.1.e2)
  have hdist : distances (run ops) dist (l.map (fun x => (x.2, toObs ops x.1))) = .ok (l.map (stored D ops)) := by
    unfold distances
    rw [List.mapM_map]
    apply mapM_ok
    intro x hx
    have ho := hobs x hx
    obtain ⟨h1, h2, -⟩ := mem_evIds_obs ho
    have e : (run ops).interEventDistance dist (toObs ops x.1) = .ok (D x) := by
      unfold interEventDistance
      simp only [toObs]
      rw [(eventParams_run ops hb).1 _ h1, (eventParams_run ops hb).1 _ h2, (hpos _ ho).1, (hpos _ ho).2]
      rfl
    rw [Function.comp_apply, e]
    rfl
  have hsp : ((l.map (stored D ops)).insertionSort (fun a b => a.1 ≤ b.1)).Perm (l.map (stored D ops)) :=
    List.perm_insertionSort _ _
  have hss : ((l.map (stored D ops)).insertionSort (fun a b => a.1 ≤ b.1)).Pairwise (fun a b => a.1 ≤ b.1) := by
    have : Std.Total (fun a b : K × Nat × Obs K => a.1 ≤ b.1) := ⟨fun a b => le_total a.1 b.1⟩
    have : IsTrans (K × Nat × Obs K) (fun a b => a.1 ≤ b.1) := ⟨fun a b c h1 h2 => le_trans h1 h2⟩
    exact List.pairwise_insertionSort _ _
  obtain ⟨l', hl', heq⟩ := perm_map_exists _ hsp
  rw [heq] at hss
  refine ⟨l', D, hl'.trans hl, by rw [List.pairwise_map] at hss; exact hss, ?_, ?_⟩
  · intro x hx
    have hx' := hl'.mem_iff.1 hx
    exact ⟨hmem x hx', pos x.1.e1, pos x.1.e2, (hpos _ (hobs x hx')).1, (hpos _ (hobs x hx')).2, rfl⟩
  · unfold report
    simp only [hdist, Outcome.bind_ok]
    rw [heq, List.length_map, groups_map]

theorem system_of {ops : List (SolverOp K)} (hb : Fits ops) (hs : NoSeparator ops) (hc : Complete ops)
    {nth : NthElement (id : K → K)} {ttConstraint residualDownWeight : K} {p : Prepared K}
    {io : List (Nat × Obs K)} (hio : io.Perm (run ops).observations)
    {ip : List ((Nat × Nat) × ObsParams K)} (hip : ip.Perm (run ops).obsParams)
    (hp : (run ops).prepare nth ttConstraint residualDownWeight io ip = .ok (some p)) :
    IsSystemOf ops nth ttConstraint residualDownWeight p := by
  rcases system_prepared ops hb hs hc nth ttConstraint residualDownWeight io ip hio hip with ⟨p', h, h'⟩ | ⟨h, -⟩
  · rw [hp] at h; cases h; exact h'
  · rw [hp] at h; cases h

/-- **C109d.** Exactly when the summary is printed: the observations, sorted by distance, are cut into groups; if every group has at
least four observations, of which none or at least four have a coefficient, the lines describe the groups; otherwise the behaviour is
undefined. -/
theorem report_exact {ops : List (SolverOp K)} (hb : Fits ops) (hs : NoSeparator ops) (hc : Complete ops)
    {nth : NthElement (id : K → K)} {ttConstraint residualDownWeight : K} {p : Prepared K}
    {io : List (Nat × Obs K)} (hio : io.Perm (run ops).observations)
    {ip : List ((Nat × Nat) × ObsParams K)} (hip : ip.Perm (run ops).obsParams)
    (hp : (run ops).prepare nth ttConstraint residualDownWeight io ip = .ok (some p)) (dist : K × K × K → K × K × K → K) :
    ∃ gs, IsGrouping dist ops gs ∧
      ((∀ g ∈ gs, Describable g) ∧ (∃ lines, report (run ops) nth dist p io = .ok lines ∧ List.Forall₂ (IsGroup dist ops) gs lines) ∨
        (∃ g ∈ gs, ¬ Describable g) ∧ report (run ops) nth dist p io = .ub) := by
  have hsys := system_of hb hs hc hio hip hp
  obtain ⟨l, D, hl, hsort, hgood, heq⟩ := report_groups hb hs hc nth p hio dist
  rw [heq]
  have hlen : l.length = (firstBy ObsArg.quad (obsOf ops)).length := by rw [hl.length_eq]; simp
  have hsub : ∀ g ∈ groups (l.length / 20) l, ∀ x ∈ g, x ∈ l := by
    intro g hg x hx
    rw [← groups_flatten (l.length / 20) l]
    exact List.mem_flatten.2 ⟨g, hg, hx⟩
  have := mapM_cases (f := lineOf nth p) (R := fun _ _ => True)
    ((groups (l.length / 20) l).map (List.map (stored D ops))) (by
      intro g' hg'
      obtain ⟨g, hg, rfl⟩ := List.mem_map.1 hg'
      rcases lineOf_cases (nth := nth) hsys (dist := dist) (groups_ne _ _ g hg) (fun x hx => hgood x (hsub g hg x hx)) with
        ⟨h, -⟩ | ⟨-, y, h, hy⟩
      · exact .inl h
      · exact .inr ⟨y, h, trivial⟩)
  refine ⟨(groups (l.length / 20) l).map (List.map Prod.fst), ⟨?_, ?_, ?_, ?_, ?_, ?_⟩, ?_⟩
  · rw [← List.map_flatten, groups_flatten]
    have := hl.map Prod.fst
    rwa [List.zipIdx_map_fst] at this
  · rw [← List.map_flatten, groups_flatten, List.pairwise_map]
    refine List.Pairwise.imp_of_mem ?_ hsort
    rintro x y hx hy hxy da db ⟨a1, a2, h1, h2, rfl⟩ ⟨b1, b2, h3, h4, rfl⟩
    obtain ⟨-, c1, c2, g1, g2, g3⟩ := hgood x hx
    obtain ⟨-, d1, d2, g4, g5, g6⟩ := hgood y hy
    rw [h1] at g1; rw [h2] at g2; rw [h3] at g4; rw [h4] at g5
    simp only [Option.some.injEq] at g1 g2 g4 g5
    subst g1 g2 g4 g5
    rw [← g3, ← g6]; exact hxy
  · rw [List.length_map]
    have h1 := groups_count (l.length / 20) l
    have h2 := Nat.div_add_mod l.length 20
    have h3 := Nat.mod_lt l.length (show 0 < 20 by norm_num)
    by_contra hcon
    have h4 : 21 * (l.length / 20 + 1) ≤ (groups (l.length / 20) l).length * (l.length / 20 + 1) :=
      Nat.mul_le_mul_right _ (by omega)
    omega
  · intro g' hg'
    obtain ⟨g, hg, rfl⟩ := List.mem_map.1 hg'
    simpa using groups_ne _ _ g hg
  · intro g' hg'
    rw [← List.map_dropLast] at hg'
    obtain ⟨g, hg, rfl⟩ := List.mem_map.1 hg'
    rw [List.length_map, groups_full _ _ g hg, hlen]
  · intro g' hg'
    obtain ⟨g, hg, rfl⟩ := List.mem_map.1 hg'
    rw [List.length_map, ← hlen]; exact groups_le _ _ g hg
  · have key : ∀ (gs : List (List (ObsArg K × Nat))) (ls : List (Line K)),
        (∀ g ∈ gs, g ≠ [] ∧ ∀ x ∈ g, x ∈ l) → (gs.map (List.map (stored D ops))).mapM (lineOf nth p) = .ok ls →
        List.Forall₂ (IsGroup dist ops) (gs.map (List.map Prod.fst)) ls := by
      intro gs
      induction gs with
      | nil =>
        intro ls _ h
        simp only [List.map_nil, List.mapM_nil, Outcome.pure_eq, Outcome.ok.injEq] at h
        subst h; exact .nil
      | cons g gs ih =>
        intro ls hgs h
        rw [List.map_cons, List.mapM_cons, bindOk] at h
        obtain ⟨y, h1, h⟩ := h
        rw [bindOk] at h
        obtain ⟨ys, h2, h3⟩ := h
        simp only [Outcome.pure_eq, Outcome.ok.injEq] at h3
        subst h3
        rw [List.map_cons]
        refine .cons ?_ (ih ys (fun g hg => hgs g (by simp [hg])) h2)
        rcases lineOf_cases (nth := nth) hsys (dist := dist) (hgs g (by simp)).1
          (fun x hx => hgood x ((hgs g (by simp)).2 x hx)) with ⟨h, -⟩ | ⟨-, y', h, hy⟩
        · rw [h1] at h; cases h
        · rw [h1] at h; cases h; exact hy
    have coef : ∀ g : List (ObsArg K), (g.filter (fun o => o.xcorrCoeff ≠ 0)).length = 0 ↔ ∀ o ∈ g, o.xcorrCoeff = 0 := by
      intro g
      rw [List.length_eq_zero_iff, List.filter_eq_nil_iff]
      simp
    rcases this with ⟨h, g', hg', hub⟩ | ⟨lines, h, -⟩
    · right
      obtain ⟨g, hg, rfl⟩ := List.mem_map.1 hg'
      refine ⟨⟨g.map Prod.fst, List.mem_map_of_mem hg, ?_⟩, h⟩
      rintro ⟨d1, d2⟩
      rw [List.length_map] at d1
      rw [← coef] at d2
      rcases lineOf_cases (nth := nth) hsys (dist := dist) (groups_ne _ _ g hg) (fun x hx => hgood x (hsub g hg x hx)) with
        ⟨-, h3 | h3⟩ | ⟨-, y, h', -⟩
      · omega
      · omega
      · rw [hub] at h'; cases h'
    · left
      refine ⟨?_, lines, h, key _ lines (fun g hg => ⟨groups_ne _ _ g hg, hsub g hg⟩) h⟩
      intro g' hg'
      obtain ⟨g, hg, rfl⟩ := List.mem_map.1 hg'
      have hok : ∀ (gs : List (List (K × Nat × Obs K))) (ls : List (Line K)), gs.mapM (lineOf nth p) = .ok ls →
          ∀ g ∈ gs, lineOf nth p g ≠ .ub := by
        intro gs
        induction gs with
        | nil => simp
        | cons g gs ih =>
          intro ls h g' hg'
          rw [List.mapM_cons, bindOk] at h
          obtain ⟨y, h1, h⟩ := h
          rw [bindOk] at h
          obtain ⟨ys, h2, -⟩ := h
          rcases List.mem_cons.1 hg' with rfl | hg'
          · rw [h1]; simp
          · exact ih ys h2 g' hg'
      rcases lineOf_cases (nth := nth) hsys (dist := dist) (groups_ne _ _ g hg) (fun x hx => hgood x (hsub g hg x hx)) with
        ⟨h', -⟩ | ⟨⟨d1, d2⟩, -⟩
      · exact absurd h' (hok _ _ h _ (List.mem_map_of_mem hg))
      · exact ⟨by rw [List.length_map]; exact d1, by rw [← coef]; exact d2⟩


/-- **C109a.** Whatever the order in which the observations are visited, the summary of a prepared system either has undefined
behaviour or is right: the observations sorted by distance, cut into at most twenty groups, for each group its range of
distances, its number of observations, the quartiles of the double differences and the five-number summary of the coefficients
that are not zero.  It never throws. -/
theorem report_correct {ops : List (SolverOp K)} (hb : Fits ops) (hs : NoSeparator ops) (hc : Complete ops)
    {nth : NthElement (id : K → K)} {ttConstraint residualDownWeight : K} {p : Prepared K}
    {io : List (Nat × Obs K)} (hio : io.Perm (run ops).observations)
    {ip : List ((Nat × Nat) × ObsParams K)} (hip : ip.Perm (run ops).obsParams)
    (hp : (run ops).prepare nth ttConstraint residualDownWeight io ip = .ok (some p)) (dist : K × K × K → K × K × K → K) :
    report (run ops) nth dist p io = .ub ∨
      ∃ lines, report (run ops) nth dist p io = .ok lines ∧ IsReport dist ops lines := by
  obtain ⟨gs, hgs, ⟨-, lines, h1, h2⟩ | ⟨-, h⟩⟩ := report_exact hb hs hc hio hip hp dist
  · exact .inr ⟨lines, h1, gs, hgs, h2⟩
  · exact .inl h

/-- **C109e.** If no two observations have the same distance the groups do not depend on the order in which the observations are
visited, and any way of forming them tells whether the summary is printed. -/
theorem report_printed_iff {ops : List (SolverOp K)} (hb : Fits ops) (hs : NoSeparator ops) (hc : Complete ops)
    {nth : NthElement (id : K → K)} {ttConstraint residualDownWeight : K} {p : Prepared K}
    {io : List (Nat × Obs K)} (hio : io.Perm (run ops).observations)
    {ip : List ((Nat × Nat) × ObsParams K)} (hip : ip.Perm (run ops).obsParams)
    (hp : (run ops).prepare nth ttConstraint residualDownWeight io ip = .ok (some p)) (dist : K × K × K → K × K × K → K)
    (hd : DistinctDistances dist ops) {gs : List (List (ObsArg K))} (hgs : IsGrouping dist ops gs) :
    (∃ lines, report (run ops) nth dist p io = .ok lines) ↔ ∀ g ∈ gs, Describable g := by
  obtain ⟨gs', hgs', hcase⟩ := report_exact hb hs hc hio hip hp dist
  have hflat : gs.flatten = gs'.flatten := by
    refine List.Perm.eq_of_pairwise ?_ hgs.2.1 hgs'.2.1 (hgs.1.trans hgs'.1.symm)
    intro a b ha hb' hab hba
    have ha' := hgs.1.subset ha
    have hb'' := hgs'.1.subset hb'
    have hex : ∀ o ∈ firstBy ObsArg.quad (obsOf ops), ∃ d, IsDistance dist ops o d := by
      intro o ho
      obtain ⟨h1, h2, -⟩ := hc o (firstBy_subset _ _ ho)
      obtain ⟨x, hx⟩ := positionOf_some h1
      obtain ⟨y, hy⟩ := positionOf_some h2
      exact ⟨_, x, y, hx, hy, rfl⟩
    obtain ⟨da, hda⟩ := hex a ha'
    obtain ⟨db, hdb⟩ := hex b hb''
    have := le_antisymm (hab da db hda hdb) (hba db da hdb hda)
    exact hd a ha' b hb'' da hda (this ▸ hdb)
  have e : gs = gs' := by
    rw [groups_unique _ gs hgs.2.2.2.1 hgs.2.2.2.2.1 hgs.2.2.2.2.2, hflat,
      ← groups_unique _ gs' hgs'.2.2.2.1 hgs'.2.2.2.2.1 hgs'.2.2.2.2.2]
  subst e
  rcases hcase with ⟨h1, lines, h2, -⟩ | ⟨⟨g, hg, h1⟩, h2⟩
  · exact ⟨fun _ => h1, fun _ => ⟨lines, h2⟩⟩
  · rw [h2]
    exact ⟨fun h => (by obtain ⟨_, h⟩ := h; cases h), fun h => absurd (h g hg) h1⟩

/-- **C109b, undefined behaviour.** With 1 to 59 observations, and whenever the last group has 1 to 3 observations, the summary
has undefined behaviour, whatever the observations are: `nth_element` is called with a position before the range. -/
theorem report_ub {ops : List (SolverOp K)} (hb : Fits ops) (hs : NoSeparator ops) (hc : Complete ops)
    {nth : NthElement (id : K → K)} {ttConstraint residualDownWeight : K} {p : Prepared K}
    {io : List (Nat × Obs K)} (hio : io.Perm (run ops).observations)
    {ip : List ((Nat × Nat) × ObsParams K)} (hip : ip.Perm (run ops).obsParams)
    (hp : (run ops).prepare nth ttConstraint residualDownWeight io ip = .ok (some p)) (dist : K × K × K → K × K × K → K)
    {n : Nat} (hn : n = (firstBy ObsArg.quad (obsOf ops)).length)
    (hsmall : (1 ≤ n ∧ n ≤ 59) ∨ (n % (n / 20 + 1) ≠ 0 ∧ n % (n / 20 + 1) ≤ 3)) :
    report (run ops) nth dist p io = .ub := by
  have hsys := system_of hb hs hc hio hip hp
  obtain ⟨l, D, hl, hsort, hgood, heq⟩ := report_groups hb hs hc nth p hio dist
  rw [heq]
  have hlen : l.length = n := by rw [hl.length_eq, hn]; simp
  have hsub : ∀ g ∈ groups (l.length / 20) l, ∀ x ∈ g, x ∈ l := by
    intro g hg x hx
    rw [← groups_flatten (l.length / 20) l]
    exact List.mem_flatten.2 ⟨g, hg, hx⟩
  have hcase : ∀ g ∈ groups (l.length / 20) l, lineOf nth p (g.map (stored D ops)) = .ub ∨
      (4 ≤ g.length ∧ ∃ y, lineOf nth p (g.map (stored D ops)) = .ok y) := by
    intro g hg
    rcases lineOf_cases (nth := nth) hsys (dist := dist) (groups_ne _ _ g hg) (fun x hx => hgood x (hsub g hg x hx)) with
      ⟨h, -⟩ | ⟨⟨h4, -⟩, y, h, -⟩
    · exact .inl h
    · exact .inr ⟨h4, y, h⟩
  obtain ⟨g, hg, hg3⟩ : ∃ g ∈ groups (l.length / 20) l, g.length ≤ 3 := by
    rcases hsmall with ⟨h1, h2⟩ | ⟨h1, h2⟩
    · have hne : groups (l.length / 20) l ≠ [] := by
        intro h
        have := groups_eq_nil h
        rw [this] at hlen; simp at hlen; omega
      obtain ⟨g, hg⟩ := List.exists_mem_of_ne_nil _ hne
      refine ⟨g, hg, le_trans (groups_le _ _ g hg) ?_⟩
      rw [hlen]; omega
    · rw [← hlen] at h1 h2
      obtain ⟨g, hg, h⟩ := groups_last _ l h1
      exact ⟨g, hg, h ▸ h2⟩
  have := mapM_cases (f := lineOf nth p) (R := fun _ _ => True)
    ((groups (l.length / 20) l).map (List.map (stored D ops))) (by
      intro g' hg'
      obtain ⟨g, hg, rfl⟩ := List.mem_map.1 hg'
      rcases hcase g hg with h | ⟨-, y, h⟩
      · exact .inl h
      · exact .inr ⟨y, h, trivial⟩)
  rcases this with ⟨h, -⟩ | ⟨lines, h, -⟩
  · exact h
  · exfalso
    have hub : lineOf nth p (g.map (stored D ops)) = .ub := by
      rcases hcase g hg with h | ⟨h4, -⟩
      · exact h
      · omega
    have : ∀ (gs : List (List (K × Nat × Obs K))) (ls : List (Line K)), gs.mapM (lineOf nth p) = .ok ls →
        ∀ g ∈ gs, lineOf nth p g ≠ .ub := by
      intro gs
      induction gs with
      | nil => simp
      | cons g gs ih =>
        intro ls h g' hg'
        rw [List.mapM_cons, bindOk] at h
        obtain ⟨y, h1, h⟩ := h
        rw [bindOk] at h
        obtain ⟨ys, h2, -⟩ := h
        rcases List.mem_cons.1 hg' with rfl | hg'
        · rw [h1]; simp
        · exact ih ys h2 g' hg'
    exact this _ lines h _ (List.mem_map_of_mem hg) hub

/-- **C109c.** Without cross-correlation (all coefficients zero), or with a coefficient for every observation, the summary is
printed if there are at least 60 observations and the last group does not have 1 to 3 of them. -/
theorem report_printed_partial {ops : List (SolverOp K)} (hb : Fits ops) (hs : NoSeparator ops) (hc : Complete ops)
    {nth : NthElement (id : K → K)} {ttConstraint residualDownWeight : K} {p : Prepared K}
    {io : List (Nat × Obs K)} (hio : io.Perm (run ops).observations)
    {ip : List ((Nat × Nat) × ObsParams K)} (hip : ip.Perm (run ops).obsParams)
    (hp : (run ops).prepare nth ttConstraint residualDownWeight io ip = .ok (some p)) (dist : K × K × K → K × K × K → K)
    {n : Nat} (hn : n = (firstBy ObsArg.quad (obsOf ops)).length)
    (hbig : n = 0 ∨ (60 ≤ n ∧ (n % (n / 20 + 1) = 0 ∨ 4 ≤ n % (n / 20 + 1))))
    (hco : (∀ o ∈ obsOf ops, o.xcorrCoeff = 0) ∨ (∀ o ∈ obsOf ops, o.xcorrCoeff ≠ 0)) :
    ∃ lines, report (run ops) nth dist p io = .ok lines ∧ IsReport dist ops lines := by
  have hsys := system_of hb hs hc hio hip hp
  rcases report_correct hb hs hc hio hip hp dist with hub | h
  · exfalso
    obtain ⟨l, D, hl, hsort, hgood, heq⟩ := report_groups hb hs hc nth p hio dist
    rw [heq] at hub
    have hlen : l.length = n := by rw [hl.length_eq, hn]; simp
    have hsub : ∀ g ∈ groups (l.length / 20) l, ∀ x ∈ g, x ∈ l := by
      intro g hg x hx
      rw [← groups_flatten (l.length / 20) l]
      exact List.mem_flatten.2 ⟨g, hg, hx⟩
    have hobs : ∀ x ∈ l, x.1 ∈ obsOf ops := by
      intro x hx
      exact firstBy_subset _ _ (List.mem_of_getElem? (hgood x hx).1)
    have hsize : ∀ g ∈ groups (l.length / 20) l, 4 ≤ g.length := by
      intro g hg
      rw [hlen] at hg
      have h1 := groups_sizes (n / 20) l g hg
      rw [hlen] at h1
      have h0 := List.length_pos_iff.2 (groups_ne _ _ g hg)
      rcases hbig with h | ⟨h60, h⟩
      · subst h
        rw [List.length_eq_zero_iff.1 hlen, groups] at hg
        cases hg
      · rcases h1 with h1 | ⟨h1, h2⟩
        · omega
        · omega
    have := mapM_cases (f := lineOf nth p) (R := fun _ _ => True)
      ((groups (l.length / 20) l).map (List.map (stored D ops))) (by
        intro g' hg'
        obtain ⟨g, hg, rfl⟩ := List.mem_map.1 hg'
        rcases lineOf_cases (nth := nth) hsys (dist := dist) (groups_ne _ _ g hg) (fun x hx => hgood x (hsub g hg x hx)) with
          ⟨h, -⟩ | ⟨-, y, h, -⟩
        · exact .inl h
        · exact .inr ⟨y, h, trivial⟩)
    rcases this with ⟨-, g', hg', h⟩ | ⟨lines, h, -⟩
    · obtain ⟨g, hg, rfl⟩ := List.mem_map.1 hg'
      rcases lineOf_cases (nth := nth) hsys (dist := dist) (groups_ne _ _ g hg) (fun x hx => hgood x (hsub g hg x hx)) with
        ⟨-, h3 | ⟨c1, c3⟩⟩ | ⟨-, y, h', -⟩
      · have := hsize g hg; omega
      · rcases hco with hco | hco
        · have : (g.map Prod.fst).filter (fun o => decide (o.xcorrCoeff ≠ 0)) = [] := by
            rw [List.filter_eq_nil_iff]
            intro o ho
            obtain ⟨x, hx, rfl⟩ := List.mem_map.1 ho
            simpa using hco _ (hobs x (hsub g hg x hx))
          rw [this] at c1; simp at c1
        · have : (g.map Prod.fst).filter (fun o => decide (o.xcorrCoeff ≠ 0)) = g.map Prod.fst := by
            rw [List.filter_eq_self]
            intro o ho
            obtain ⟨x, hx, rfl⟩ := List.mem_map.1 ho
            simpa using hco _ (hobs x (hsub g hg x hx))
          rw [this, List.length_map] at c3
          have := hsize g hg; omega
      · rw [h] at h'; cases h'
    · rw [hub] at h; cases h
  · exact h

section Example

/-- `n` observations at one station of successive events, in the order of the events -/
def chain (n : Nat) (coeff : Nat → ℚ) : List (SolverOp ℚ) :=
  (List.range (n + 1)).map (fun i => .event i 0 0 (i * i : ℚ)) ++
  (List.range (n + 1)).map (fun i => .params ⟨i, "A".toList, "P".toList, true, i, 0, 0, 0, 0⟩) ++
  (List.range n).map (fun i => .obs ⟨i, i + 1, "A".toList, "P".toList, i, 1, false, coeff i⟩)

theorem chain_obs (n : Nat) (coeff : Nat → ℚ) :
    obsOf (chain n coeff) = (List.range n).map (fun i => ⟨i, i + 1, "A".toList, "P".toList, i, 1, false, coeff i⟩) := by
  simp [chain, obsOf, List.filterMap_append, List.filterMap_map, Function.comp_def]

theorem chain_good (n : Nat) (coeff : Nat → ℚ) (hn : n ≤ 1000000) :
    Fits (chain n coeff) ∧ NoSeparator (chain n coeff) ∧ Complete (chain n coeff) := by
  have ho := chain_obs n coeff
  have hp : parOf (chain n coeff) =
      (List.range (n + 1)).map (fun i => ⟨i, "A".toList, "P".toList, true, i, 0, 0, 0, 0⟩) := by
    simp [chain, parOf, List.filterMap_append, List.filterMap_map, Function.comp_def]
  have he : eventsOf (chain n coeff) = List.range (n + 1) := by
    simp [chain, eventsOf, List.filterMap_append, List.filterMap_map, Function.comp_def]
  refine ⟨?_, ⟨?_, ?_⟩, ?_⟩
  · unfold Fits IdToIndex.uintMod
    simp [chain]; omega
  · rw [ho]; intro o h
    obtain ⟨i, -, rfl⟩ := List.mem_map.1 h
    show '@' ∉ "P".toList
    decide
  · rw [hp]; intro o h
    obtain ⟨i, -, rfl⟩ := List.mem_map.1 h
    show '@' ∉ "P".toList
    decide
  · unfold Complete
    rw [ho, hp, he]
    intro o h
    obtain ⟨i, hi, rfl⟩ := List.mem_map.1 h
    have hi' := List.mem_range.1 hi
    exact ⟨List.mem_range.2 (by simp; omega), List.mem_range.2 (by simp; omega),
      ⟨_, List.mem_map.2 ⟨i, List.mem_range.2 (by omega), rfl⟩, rfl⟩,
      ⟨_, List.mem_map.2 ⟨i + 1, List.mem_range.2 (by omega), rfl⟩, rfl⟩⟩

/-- sixty observations: the summary is printed, for every way of selecting the order statistics -/
example (nth : NthElement (id : ℚ → ℚ)) (dist : ℚ × ℚ × ℚ → ℚ × ℚ × ℚ → ℚ) : ∃ p lines,
    (run (chain 60 (fun _ => 9/10))).prepare nth 0 0 (run (chain 60 (fun _ => 9/10))).observations (run (chain 60 (fun _ => 9/10))).obsParams = .ok (some p) ∧
    report (run (chain 60 (fun _ => 9/10))) nth dist p (run (chain 60 (fun _ => 9/10))).observations = .ok lines ∧
    IsReport dist (chain 60 (fun _ => 9/10)) lines := by
  obtain ⟨h1, h2, h3⟩ := chain_good 60 (fun _ => 9/10) (by norm_num)
  obtain ⟨p, hp, -⟩ := system_prepared_unweighted _ h1 h2 h3 nth 0 _ _ (.refl _) (.refl _)
  have hn : 60 = (firstBy ObsArg.quad (obsOf (chain 60 (fun _ => 9/10)))).length := by decide +kernel
  obtain ⟨lines, h4, h5⟩ := report_printed_partial h1 h2 h3 (.refl _) (.refl _) hp dist hn (.inr ⟨le_refl _, .inl rfl⟩) (.inr (by
    rw [chain_obs]
    intro o h
    obtain ⟨i, -, rfl⟩ := List.mem_map.1 h
    norm_num))
  exact ⟨p, lines, hp, h4, h5⟩

/-- two observations, or sixty-one of them, the last group having one -/
example (nth : NthElement (id : ℚ → ℚ)) (dist : ℚ × ℚ × ℚ → ℚ × ℚ × ℚ → ℚ) : ∀ n ∈ [2, 61], ∃ p,
    (run (chain n (fun _ => 0))).prepare nth 0 0 (run (chain n (fun _ => 0))).observations (run (chain n (fun _ => 0))).obsParams = .ok (some p) ∧
    report (run (chain n (fun _ => 0))) nth dist p (run (chain n (fun _ => 0))).observations = .ub := by
  intro n hn
  have hn' : n = (firstBy ObsArg.quad (obsOf (chain n (fun _ => 0)))).length := by
    have : ∀ n ∈ [2, 61], n = (firstBy ObsArg.quad (obsOf (chain n (fun _ => 0)))).length := by decide +kernel
    exact this n hn
  have hle : n ≤ 1000000 := by
    simp at hn; omega
  obtain ⟨h1, h2, h3⟩ := chain_good n (fun _ => 0) hle
  obtain ⟨p, hp, -⟩ := system_prepared_unweighted _ h1 h2 h3 nth 0 _ _ (.refl _) (.refl _)
  refine ⟨p, hp, report_ub h1 h2 h3 (.refl _) (.refl _) hp dist hn' ?_⟩
  simp only [List.mem_cons, List.not_mem_nil, or_false] at hn
  rcases hn with rfl | rfl
  · exact .inl ⟨by norm_num, by norm_num⟩
  · exact .inr ⟨by norm_num, by norm_num⟩

/-- the distance of two events in depth -/
def apart (a b : ℚ × ℚ × ℚ) : ℚ := |a.2.2 - b.2.2|

/-- sixty observations, the first `k` of them with a coefficient -/
def mixed (k : Nat) : List (SolverOp ℚ) := chain 60 (fun i => if i < k then 9/10 else 0)

theorem mixed_first {k : Nat} (hk : k = 8 ∨ k = 9) : firstBy ObsArg.quad (obsOf (mixed k)) = obsOf (mixed k) := by
  rcases hk with rfl | rfl <;> decide +kernel

theorem mixed_position {k : Nat} (hk : k = 8 ∨ k = 9) (i : Nat) (h : i < 61) : positionOf (mixed k) i = some (0, 0, (i * i : ℚ)) := by
  have : ∀ i < 61, positionOf (mixed k) i = some (0, 0, (i * i : ℚ)) := by
    rcases hk with rfl | rfl <;> decide +kernel
  exact this i h

theorem mixed_distance {k : Nat} (hk : k = 8 ∨ k = 9) {o : ObsArg ℚ} (ho : o ∈ obsOf (mixed k)) {d : ℚ} (h : IsDistance apart (mixed k) o d) :
    d = 2 * o.e1 + 1 := by
  obtain ⟨a, b, h1, h2, rfl⟩ := h
  rw [mixed, chain_obs] at ho
  obtain ⟨i, hi, rfl⟩ := List.mem_map.1 ho
  have hi' := List.mem_range.1 hi
  rw [mixed_position hk i (by omega)] at h1
  rw [mixed_position hk (i + 1) (by omega)] at h2
  cases h1; cases h2
  simp only [apart]
  push_cast
  rw [abs_sub_comm, abs_of_nonneg (by nlinarith [(Nat.cast_nonneg i : (0 : ℚ) ≤ i)])]
  ring

theorem mixed_distinct {k : Nat} (hk : k = 8 ∨ k = 9) : DistinctDistances apart (mixed k) := by
  intro a ha b hb d h1 h2
  rw [mixed_first hk] at ha hb
  have e : a.e1 = b.e1 := by
    have := (mixed_distance hk ha h1).symm.trans (mixed_distance hk hb h2)
    have : (a.e1 : ℚ) = b.e1 := by linarith
    exact_mod_cast this
  rw [mixed, chain_obs] at ha hb
  obtain ⟨i, hi, rfl⟩ := List.mem_map.1 ha
  obtain ⟨j, hj, rfl⟩ := List.mem_map.1 hb
  simp only at e
  rw [e]

theorem mixed_grouping {k : Nat} (hk : k = 8 ∨ k = 9) : IsGrouping apart (mixed k) (groups 3 (obsOf (mixed k))) := by
  have hl : (obsOf (mixed k)).length = 60 := by rw [mixed, chain_obs]; simp
  unfold IsGrouping
  rw [mixed_first hk, groups_flatten]
  simp only [hl]
  refine ⟨.refl _, ?_, ?_, groups_ne _ _, groups_full _ _, groups_le _ _⟩
  · have : (obsOf (mixed k)).Pairwise (fun a b => a.e1 < b.e1) := by
      rw [mixed, chain_obs, List.pairwise_map]
      exact List.pairwise_lt_range
    refine List.Pairwise.imp_of_mem ?_ this
    intro a b ha hb hab da db h1 h2
    rw [mixed_distance hk ha h1, mixed_distance hk hb h2]
    have : (a.e1 : ℚ) < b.e1 := by exact_mod_cast hab
    linarith
  · have := groups_count 3 (obsOf (mixed k))
    omega

/-- with coefficients for the first eight of sixty observations the summary is printed; with coefficients for the first nine the third
group has one, and the behaviour is undefined -/
example (nth : NthElement (id : ℚ → ℚ)) : ∀ k, k = 8 ∨ k = 9 → ∃ p,
    (run (mixed k)).prepare nth 0 0 (run (mixed k)).observations (run (mixed k)).obsParams = .ok (some p) ∧
    ((∃ lines, report (run (mixed k)) nth apart p (run (mixed k)).observations = .ok lines) ↔ k = 8) := by
  intro k hk
  obtain ⟨h1, h2, h3⟩ := chain_good 60 (fun i => if i < k then 9/10 else 0) (by norm_num)
  obtain ⟨p, hp, -⟩ := system_prepared_unweighted _ h1 h2 h3 nth 0 _ _ (.refl _) (.refl _)
  refine ⟨p, hp, ?_⟩
  rw [report_printed_iff (ops := mixed k) h1 h2 h3 (.refl _) (.refl _) hp apart (mixed_distinct hk) (mixed_grouping hk)]
  rcases hk with rfl | rfl
  · unfold Describable
    decide +kernel
  · unfold Describable
    decide +kernel

end Example

end Verif.DistanceReport
