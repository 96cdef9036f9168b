import Verif.Proofs.RelocateLoop

/-! Helper lemmas for C47–C50: the iterations of a relocation. -/

set_option linter.unusedSectionVars false
set_option linter.unusedSimpArgs false

namespace Verif.Relocate
open Verif.Catalog Verif.Solver

variable {K : Type} [Field K] [LinearOrder K]

/-- What the entry `x` of iteration `it` says. -/
structure IterOk (a : Args K) (it : Nat) (prev cur : Catalog K) (x : IterLog K) : Prop where
  before : x.before = cur
  damping : x.damping = interpolate a.so.algoIterations it a.so.dampingFactorStart a.so.dampingFactorEnd
  down : x.downWeighting = interpolate a.so.algoIterations it a.so.downWeightingByResidualStart
    a.so.downWeightingByResidualEnd
  absLoc : x.absLoc = interpolate a.so.algoIterations it a.so.absLocConstraintStart a.so.absLocConstraintEnd
  observe : ∃ ob, observe a.env a.o a.xc a.cluster prev cur = .ok ob ∧ ob.ops = x.ops ∧ ob.reverted = x.reverted ∧
    computeEventResiduals a.env a.o.usePickUncertainties (decide (it = 0)) ob.ops a.cluster ob.cur = .ok x.after
  prepare : a.sol.prepare it x.ops x.absLoc x.downWeighting = .ok ()
  answer : ∀ ans, x.answer = some ans → it < a.so.algoIterations ∧ a.sol.solve it x.ops x.damping = some ans

/-- The iterations from `it` on. -/
inductive Run (a : Args K) : Nat → Catalog K → Catalog K → List (IterLog K) → Prop
  | last {it prev cur x} : it ≤ a.so.algoIterations → IterOk a it prev cur x → x.answer = none →
      (it < a.so.algoIterations → a.sol.solve it x.ops x.damping = none) → Run a it prev cur [x]
  | step {it prev cur x ans new l} : IterOk a it prev cur x → x.answer = some ans →
      updateRelocatedEvents a.env (decide (it = 0)) ans a.cluster x.after = .ok new →
      Run a (it + 1) x.after new l → Run a it prev cur (x :: l)

theorem loop_run (a : Args K) (n it : Nat) (hn : n + it = a.so.algoIterations + 1) (hn0 : 0 < n)
    (s s' : LoopState K) (h : loop a n it s = .ok s') :
    ∃ l last, s'.log = s.log ++ l ∧ Run a it s.prev s.cur l ∧ l.getLast? = some last ∧ last.after = s'.cur := by
  induction n generalizing it s with
  | zero => omega
  | succ n ih =>
    unfold loop at h
    rw [Outcome.bind_eq_ok] at h
    obtain ⟨⟨s1, goOn⟩, h1, h2⟩ := h
    simp only at h2
    unfold iteration at h1
    simp only at h1
    rw [Outcome.bind_eq_ok] at h1
    obtain ⟨ob, hob, h1⟩ := h1
    rw [Outcome.bind_eq_ok] at h1
    obtain ⟨cur, hcur, h1⟩ := h1
    rw [Outcome.bind_eq_ok] at h1
    obtain ⟨_, hprep, h1⟩ := h1
    by_cases hlast : it = a.so.algoIterations
    · rw [if_pos hlast] at h1
      simp only [Outcome.ok.injEq, Prod.mk.injEq] at h1
      obtain ⟨rfl, rfl⟩ := h1
      simp only [Bool.false_eq_true, if_false, Outcome.ok.injEq] at h2
      subst h2
      refine ⟨[_], _, rfl, Run.last (le_of_eq hlast) ⟨rfl, rfl, rfl, rfl, ⟨ob, hob, rfl, rfl, hcur⟩, hprep, by simp⟩ rfl
        (fun hc => by omega), rfl, rfl⟩
    · rw [if_neg hlast] at h1
      cases hs : a.sol.solve it ob.ops
          (interpolate a.so.algoIterations it a.so.dampingFactorStart a.so.dampingFactorEnd) with
      | none =>
        rw [hs] at h1
        simp only [Outcome.ok.injEq, Prod.mk.injEq] at h1
        obtain ⟨rfl, rfl⟩ := h1
        simp only [Bool.false_eq_true, if_false, Outcome.ok.injEq] at h2
        subst h2
        exact ⟨[_], _, rfl, Run.last (by omega) ⟨rfl, rfl, rfl, rfl, ⟨ob, hob, rfl, rfl, hcur⟩, hprep, by simp⟩ rfl
          (fun _ => hs), rfl, rfl⟩
      | some ans =>
        rw [hs] at h1
        simp only at h1
        rw [Outcome.bind_eq_ok] at h1
        obtain ⟨new, hnew, h1⟩ := h1
        simp only [Outcome.ok.injEq, Prod.mk.injEq] at h1
        obtain ⟨rfl, rfl⟩ := h1
        simp only [if_true] at h2
        obtain ⟨l, last, e1, e2, e3, e4⟩ := ih (it + 1) (by omega) (by omega) _ h2
        refine ⟨⟨s.cur, cur, interpolate a.so.algoIterations it a.so.dampingFactorStart a.so.dampingFactorEnd,
            interpolate a.so.algoIterations it a.so.downWeightingByResidualStart a.so.downWeightingByResidualEnd,
            interpolate a.so.algoIterations it a.so.absLocConstraintStart a.so.absLocConstraintEnd, ob.ops, ob.reverted,
            some ans⟩ :: l, last, by rw [e1]; simp, Run.step ⟨rfl, rfl, rfl, rfl, ⟨ob, hob, rfl, rfl, hcur⟩, hprep, ?_⟩ rfl hnew e2, ?_, e4⟩
        · intro ans' ha
          simp only [Option.some.injEq] at ha
          subst ha
          exact ⟨by omega, hs⟩
        · rw [List.getLast?_cons, e3]; rfl

theorem relocate_run {a : Args K} {cat r : Catalog K} {log : List (IterLog K)}
    (h : relocate a cat = .ok (r, log)) :
    Run a 0 Catalog.init cat log ∧ ∃ last, log.getLast? = some last ∧
      returnedLoop last.after Catalog.init last.after.eventsSorted = .ok r := by
  unfold relocate at h
  rw [Outcome.bind_eq_ok] at h
  obtain ⟨s, h1, h⟩ := h
  rw [Outcome.bind_eq_ok] at h
  obtain ⟨r', h2, h⟩ := h
  simp only [Outcome.ok.injEq, Prod.mk.injEq] at h
  obtain ⟨rfl, rfl⟩ := h
  obtain ⟨l, last, e1, e2, e3, e4⟩ := loop_run a _ 0 (by omega) (by omega) _ _ h1
  simp only [List.nil_append] at e1
  rw [e1]
  refine ⟨e2, last, e3, ?_⟩
  rw [e4]; exact h2

/-! ## What never changes -/

/-- `c` is a state of the relocation of `cat`: same stations and events; events outside the cluster
are untouched; events of the cluster keep id, magnitude and picks. -/
structure Rel (cluster : Cluster) (cat c : Catalog K) : Prop where
  sound : c.Sound
  noAt : NoAt c
  stations : ∀ s, c.stations.find? s = cat.stations.find? s
  others : ∀ k, k ∉ cluster.map (·.1) → c.events.find? k = cat.events.find? k ∧ c.phasesOf k = cat.phasesOf k
  events : ∀ k, (c.events.find? k).map (fun e => (e.id, e.magnitude)) =
    (cat.events.find? k).map (fun e => (e.id, e.magnitude))
  picks : ∀ k, (c.phasesOf k).map pick0 = (cat.phasesOf k).map pick0

theorem Rel.refl {cluster : Cluster} {cat : Catalog K} (h : cat.Sound) (hn : NoAt cat) : Rel cluster cat cat :=
  ⟨h, hn, fun _ => rfl, fun _ _ => ⟨rfl, rfl⟩, fun _ => rfl, fun _ => rfl⟩

theorem noAt_of_picks {c c' : Catalog K} (h : NoAt c) (hp : ∀ k, (c'.phasesOf k).map pick0 = (c.phasesOf k).map pick0) :
    NoAt c' := by
  intro k p hpm
  have : pick0 p ∈ (c.phasesOf k).map pick0 := by rw [← hp]; exact List.mem_map_of_mem hpm
  obtain ⟨p', h1, h2⟩ := List.mem_map.1 this
  have h3 : p.type = p'.type := by
    have := congrArg Phase.type h2
    simpa [pick0, pickOf] using this.symm
  rw [h3]; exact h k p' h1

theorem pick0_of_pickOf {l l' : List (Phase K)} (h : l.map pickOf = l'.map pickOf) : l.map pick0 = l'.map pick0 := by
  have : ∀ l : List (Phase K), l.map pick0 = (l.map pickOf).map (fun p => { p with isRelocated := false }) := by
    intro l; rw [List.map_map]; rfl
  rw [this, this, h]

theorem place_fixed {x y : Option (Event K)} (h : x.map place = y.map place) :
    x.map (fun e => (e.id, e.magnitude)) = y.map (fun e => (e.id, e.magnitude)) := by
  cases x <;> cases y <;> simp [place] at h ⊢
  exact ⟨h.1, h.2.2.2.2.2.1⟩

/-- an observed state is related to the input -/
theorem Rel.observed {cluster : Cluster} (hg : GoodCluster cluster) {env : Env K} {fixed : Bool} {cat prev cur : Catalog K} (h : Rel cluster cat cur)
    (hp : prev = Catalog.init ∨ Rel cluster cat prev) {s : ObserveState K}
    (hi : ObserveInv env fixed prev cur cluster s) : Rel cluster cat s.cur := by
  have hpick : ∀ k, (s.cur.phasesOf k).map pick0 = (cat.phasesOf k).map pick0 := by
    intro k
    by_cases hk : k ∈ s.reverted
    · obtain ⟨h1, h2, h3⟩ := hi.restored k hk
      rw [h3]
      rcases hp with rfl | hp
      · simp [Catalog.init] at h2
      · exact hp.picks k
    · rw [hi.keep.phases k hk]; exact h.picks k
  refine ⟨hi.sound, hi.noAt, fun x => (hi.keep.stations x).trans (h.stations x), ?_, ?_, hpick⟩
  · intro k hk
    have hk' : k ∉ s.reverted := fun hc => hk (hi.sub k hc)
    exact ⟨by rw [hi.keep.events k hk']; exact (h.others k hk).1, by rw [hi.keep.phases k hk']; exact (h.others k hk).2⟩
  · intro k
    by_cases hk : k ∈ s.reverted
    · obtain ⟨h1, h2, h3⟩ := hi.restored k hk
      rw [h1]
      rcases hp with rfl | hp
      · simp [Catalog.init] at h2
      · exact hp.events k
    · rw [hi.keep.events k hk]; exact h.events k

theorem refIds_eq {cluster : Cluster} (hg : GoodCluster cluster) : cluster.map (·.2.refId) = cluster.map (·.1) :=
  List.map_congr_left (fun kv h => hg.key kv h)

theorem Rel.residuals {cluster : Cluster} (hg : GoodCluster cluster) {env : Env K} {u first : Bool}
    {ops : List (SolverOp K)} {cat cur c' : Catalog K} (h : Rel cluster cat cur)
    (hr : computeEventResiduals env u first ops cluster cur = .ok c') : Rel cluster cat c' := by
  obtain ⟨h1, h2⟩ := computeEventResiduals_spec h.sound hr
  have hpick : ∀ k, (c'.phasesOf k).map pick0 = (cur.phasesOf k).map pick0 := fun k => pick0_of_pickOf (h1.phases k)
  refine ⟨h1.sound, noAt_of_picks h.noAt hpick, fun x => (h1.stations x).trans (h.stations x), ?_, ?_, ?_⟩
  · intro k hk
    have : ∀ kv ∈ cluster, k ≠ kv.2.refId := by
      rintro kv hkv rfl
      exact hk (by rw [hg.key kv hkv]; exact List.mem_map_of_mem hkv)
    exact ⟨(h2.events k this).trans (h.others k hk).1, (h2.phases k this).trans (h.others k hk).2⟩
  · intro k; rw [← h.events k]; exact place_fixed (h1.events k)
  · intro k; rw [hpick, h.picks]

theorem Rel.updated {cluster : Cluster} (hg : GoodCluster cluster) {env : Env K} {first : Bool} {ans : Answer K}
    {cat cur c' : Catalog K} (h : Rel cluster cat cur)
    (hr : updateRelocatedEvents env first ans cluster cur = .ok c') : Rel cluster cat c' := by
  obtain ⟨h1, h2, h3⟩ := updateRelocatedEvents_spec h.sound (by rw [refIds_eq hg]; exact hg.nodup) hr
  rw [refIds_eq hg] at h2 h3
  have hpick : ∀ k, (c'.phasesOf k).map pick0 = (cur.phasesOf k).map pick0 := by
    intro k
    by_cases hk : k ∈ cluster.map (·.1)
    · exact (h3 k hk).picks
    · rw [h2.phases k hk]
  refine ⟨h1, noAt_of_picks h.noAt hpick, fun x => (h2.stations x).trans (h.stations x), ?_, ?_, ?_⟩
  · intro k hk
    exact ⟨(h2.events k hk).trans (h.others k hk).1, (h2.phases k hk).trans (h.others k hk).2⟩
  · intro k
    rw [← h.events k]
    by_cases hk : k ∈ cluster.map (·.1)
    · obtain ⟨e, he⟩ := Option.isSome_iff_exists.1 (h3 k hk).exists_
      rw [(h3 k hk).event e he, he]
      cases ans.changes k <;> simp [moveEvent]
    · rw [h2.events k hk]
  · intro k; rw [hpick, h.picks]

theorem prev_ok {cluster : Cluster} {cat prev cur : Catalog K} (h : Rel cluster cat cur)
    (hp : prev = Catalog.init ∨ Rel cluster cat prev) :
    prev.Sound ∧ NoAt prev ∧ (isEmpty prev = true ∨ ∀ s, prev.stations.find? s = cur.stations.find? s) := by
  rcases hp with rfl | hp
  · exact ⟨⟨⟨List.nodup_nil, by simp [Catalog.init], List.nodup_nil, by simp [Catalog.init],
      by simp [Catalog.init]⟩, by simp [Catalog.init], by simp [Catalog.init]⟩,
      by simp [NoAt, Catalog.init, Catalog.phasesOf], Or.inl rfl⟩
  · exact ⟨hp.sound, hp.noAt, Or.inr (fun s => (hp.stations s).trans (h.stations s).symm)⟩

/-- one iteration: the observed state, and what is known about it -/
theorem IterOk.spec {a : Args K} (hg : GoodArgs a) {it : Nat} {cat prev cur : Catalog K} {x : IterLog K}
    (h : IterOk a it prev cur x) (hc : Rel a.cluster cat cur) (hp : prev = Catalog.init ∨ Rel a.cluster cat prev) :
    Rel a.cluster cat x.after ∧ ∃ s : ObserveState K, ObserveInv a.env a.o.keepNeighboursFixed prev cur a.cluster s ∧
      s.reverted = x.reverted ∧ s.ops = x.ops ∧ Residuals s.cur x.after := by
  obtain ⟨ob, h1, h2, h3, h4⟩ := h.observe
  obtain ⟨p1, p2, p3⟩ := prev_ok hc hp
  have hi := observe_inv hc.sound hc.noAt p1 p2 p3 hg.cluster hg.fits h1
  have hrel := hc.observed hg.cluster hp hi
  exact ⟨hrel.residuals hg.cluster h4, ob, hi, h3, h2, (computeEventResiduals_spec hi.sound h4).1⟩

/-- every state of the run is related to the input -/
theorem Run.rel {a : Args K} (hg : GoodArgs a) {it : Nat} {cat prev cur : Catalog K} {l : List (IterLog K)}
    (h : Run a it prev cur l) (hc : Rel a.cluster cat cur) (hp : prev = Catalog.init ∨ Rel a.cluster cat prev) :
    ∀ x ∈ l, Rel a.cluster cat x.before ∧ Rel a.cluster cat x.after := by
  induction h with
  | last _ hi _ _ =>
    intro y hy
    simp only [List.mem_singleton] at hy
    subst hy
    rw [hi.before]
    exact ⟨hc, (hi.spec hg hc hp).1⟩
  | step hi ha hu _ ih =>
    have h1 := (hi.spec hg hc hp).1
    intro y hy
    rw [List.mem_cons] at hy
    rcases hy with rfl | hy
    · rw [hi.before]; exact ⟨hc, h1⟩
    · exact ih (h1.updated hg.cluster hu) (Or.inr h1) y hy

/-- consecutive entries of the log -/
theorem Run.link {a : Args K} {it : Nat} {prev cur : Catalog K} {l : List (IterLog K)}
    (h : Run a it prev cur l) : ∀ i x y, l[i]? = some x → l[i + 1]? = some y →
      IterOk a (it + i + 1) x.after y.before y ∧ ∃ ans, x.answer = some ans ∧
        updateRelocatedEvents a.env (decide (it + i = 0)) ans a.cluster x.after = .ok y.before := by
  induction h with
  | last _ hi _ _ =>
    intro i x y _ hy
    simp at hy
  | @step it prev cur x0 ans new l hi ha hu hr ih =>
    intro i x y hx hy
    cases i with
    | zero =>
      simp only [List.getElem?_cons_zero, Option.some.injEq] at hx
      subst hx
      simp only [Nat.zero_add, List.getElem?_cons_succ] at hy
      have : IterOk a (it + 1) x0.after new y := by
        cases hr with
        | last _ hi' _ _ => simp at hy; subst hy; exact hi'
        | step hi' _ _ _ => simp at hy; subst hy; exact hi'
      have hb := this.before
      rw [hb]
      exact ⟨this, ans, ha, hu⟩
    | succ i =>
      simp only [List.getElem?_cons_succ] at hx hy
      have := ih i x y hx hy
      rw [show it + 1 + i = it + (i + 1) by omega] at this
      refine ⟨this.1, ?_⟩
      obtain ⟨ans, h1, h2⟩ := this.2
      have e : decide (it + (i + 1) = 0) = false := by simp
      rw [e] at h2 ⊢
      exact ⟨ans, h1, h2⟩

/-- every entry of the log -/
theorem Run.entry {a : Args K} {it : Nat} {prev cur : Catalog K} {l : List (IterLog K)}
    (h : Run a it prev cur l) : ∀ (i : Nat) (x : IterLog K), l[i]? = some x → ∃ p c, IterOk a (it + i) p c x := by
  induction h with
  | last _ hi _ _ =>
    intro i x hx
    cases i with
    | zero => simp at hx; subst hx; exact ⟨_, _, hi⟩
    | succ i => simp at hx
  | step hi ha hu hr ih =>
    intro i x hx
    cases i with
    | zero => simp at hx; subst hx; exact ⟨_, _, hi⟩
    | succ i =>
      simp at hx
      have := ih i x hx
      rw [show ∀ n, n + 1 + i = n + (i + 1) by intro n; omega] at this
      exact this

theorem Run.length {a : Args K} {it : Nat} {prev cur : Catalog K} {l : List (IterLog K)}
    (h : Run a it prev cur l) : it + l.length ≤ a.so.algoIterations + 1 ∧ 0 < l.length := by
  induction h with
  | last h _ _ _ => simp; exact h
  | step _ _ _ _ ih => simp; omega

/-! ## Flags -/

theorem keptSolution_single {x : IterLog K} {k : Nat} (h : x.answer = none) : ¬ KeptSolution [x] k := by
  rintro ⟨i, y, ans, h1, h2, _⟩
  cases i with
  | zero => simp at h1; subst h1; rw [h] at h2; cases h2
  | succ i => simp at h1

theorem keptSolution_cons {x y : IterLog K} {l : List (IterLog K)} {ans : Answer K} {k : Nat}
    (hx : x.answer = some ans) :
    KeptSolution (x :: y :: l) k ↔ (((ans.changes k).isSome = true ∧ k ∉ y.reverted) ∨ KeptSolution (y :: l) k) := by
  constructor
  · rintro ⟨i, z, an, h1, h2, h3, h4⟩
    cases i with
    | zero =>
      simp at h1; subst h1
      rw [hx] at h2; simp only [Option.some.injEq] at h2; subst h2
      exact Or.inl ⟨h3, h4 y (by simp)⟩
    | succ i => exact Or.inr ⟨i, z, an, by simpa using h1, h2, h3, fun w hw => h4 w (by simpa using hw)⟩
  · rintro (⟨h1, h2⟩ | ⟨i, z, an, h1, h2, h3, h4⟩)
    · refine ⟨0, x, ans, rfl, hx, h1, ?_⟩
      intro w hw
      simp at hw; subst hw; exact h2
    · exact ⟨i + 1, z, an, by simpa using h1, h2, h3, fun w hw => h4 w (by simpa using hw)⟩

theorem flag_residuals {c c' : Catalog K} (h : Residuals c c') (k : Nat) : flag c' k = flag c k := by
  have := h.events k
  unfold flag
  cases h1 : c'.events.find? k <;> cases h2 : c.events.find? k <;> rw [h1, h2] at this <;> simp [place] at this ⊢
  exact this.2.2.2.2.2.2

theorem flag_observed {a : Args K} (hg : GoodArgs a) {it : Nat} {cat prev cur : Catalog K} {x : IterLog K}
    (h : IterOk a it prev cur x) (hc : Rel a.cluster cat cur) (hp : prev = Catalog.init ∨ Rel a.cluster cat prev)
    (k : Nat) : flag x.after k = if k ∈ x.reverted then flag prev k else flag cur k := by
  obtain ⟨_, s, hi, hr, _, hres⟩ := h.spec hg hc hp
  rw [flag_residuals hres, ← hr]
  split
  · rename_i hk
    unfold flag
    rw [(hi.restored k hk).1]
  · rename_i hk
    unfold flag
    rw [hi.keep.events k hk]

theorem flag_updated {a : Args K} (hg : GoodArgs a) {first : Bool} {ans : Answer K} {c c' : Catalog K}
    (hs : c.Sound) (h : updateRelocatedEvents a.env first ans a.cluster c = .ok c') (k : Nat) :
    flag c' k = if k ∈ a.cluster.map (·.1) then ((ans.changes k).isSome || (!first && flag c k)) else flag c k := by
  obtain ⟨h1, h2, h3⟩ := updateRelocatedEvents_spec hs (by rw [refIds_eq hg.cluster]; exact hg.cluster.nodup) h
  rw [refIds_eq hg.cluster] at h2 h3
  split
  · rename_i hk
    obtain ⟨e, he⟩ := Option.isSome_iff_exists.1 (h3 k hk).exists_
    unfold flag
    rw [(h3 k hk).event e he, he]
    cases ans.changes k <;> cases first <;> simp [moveEvent]
  · rename_i hk
    unfold flag
    rw [h2.events k hk]

theorem Run.flags_later {a : Args K} (hg : GoodArgs a) {it : Nat} {cat prev cur : Catalog K} {l : List (IterLog K)}
    (h : Run a it prev cur l) (hit : 0 < it) (hc : Rel a.cluster cat cur) (hp : Rel a.cluster cat prev)
    {last : IterLog K} (hl : l.getLast? = some last) {k : Nat} (hk : k ∈ a.cluster.map (·.1)) :
    flag last.after k = true ↔
      KeptSolution l k ∨ ∃ x, l[0]? = some x ∧ (if k ∈ x.reverted then flag prev k else flag cur k) = true := by
  induction h with
  | last _ hi ha _ =>
    simp at hl; subst hl
    rw [flag_observed hg hi hc (Or.inr hp)]
    simp [keptSolution_single ha]
  | @step it prev cur x ans new l hi ha hu hr ih =>
    have h1 := (hi.spec hg hc (Or.inr hp)).1
    have hl' : l.getLast? = some last := by
      cases hr <;> simpa [List.getLast?_cons] using hl
    rw [ih (by omega) (h1.updated hg.cluster hu) h1 hl', flag_observed hg hi hc (Or.inr hp) k,
      flag_updated hg h1.sound hu k, if_pos hk, flag_observed hg hi hc (Or.inr hp) k]
    have hd : decide (it = 0) = false := by simp; omega
    rw [hd]
    simp only [List.getElem?_cons_zero, Option.some.injEq, exists_eq_left', Bool.not_false, Bool.true_and]
    cases l with
    | nil => simp at hl'
    | cons y l =>
      rw [keptSolution_cons ha]
      simp only [List.getElem?_cons_zero, Option.some.injEq, exists_eq_left']
      generalize (if k ∈ x.reverted then flag prev k else flag cur k) = f
      by_cases hy : k ∈ y.reverted
      · simp only [hy, if_true, not_true_eq_false, and_false, false_or]
      · simp only [hy, if_false, not_false_eq_true, and_true, Bool.or_eq_true]
        tauto

theorem reverted_first {a : Args K} (hg : GoodArgs a) {cat : Catalog K} {x : IterLog K}
    (h : IterOk a 0 Catalog.init cat x) (hc : Rel a.cluster cat cat) : x.reverted = [] := by
  obtain ⟨_, s, hi, hr, _, _⟩ := h.spec hg hc (Or.inl rfl)
  rw [← hr]
  rw [List.eq_nil_iff_forall_not_mem]
  intro k hk
  have := (hi.restored k hk).2.1
  simp [Catalog.init] at this

theorem Run.flags {a : Args K} (hg : GoodArgs a) {cat : Catalog K} {l : List (IterLog K)}
    (h : Run a 0 Catalog.init cat l) (hc : Rel a.cluster cat cat)
    {last : IterLog K} (hl : l.getLast? = some last) (k : Nat) (hk : k ∈ a.cluster.map (·.1)) :
    flag last.after k = true ↔
      KeptSolution l k ∨ (flag cat k = true ∧ ∀ y, l[1]? = some y → k ∈ y.reverted) := by
  cases h with
  | last _ hi ha _ =>
    simp at hl; subst hl
    rw [flag_observed hg hi hc (Or.inl rfl), reverted_first hg hi hc]
    simp [keptSolution_single ha, ha]
  | @step _ _ _ x ans new l hi ha hu hr =>
    have h1 := (hi.spec hg hc (Or.inl rfl)).1
    have hl' : l.getLast? = some last := by
      cases hr <;> simpa [List.getLast?_cons] using hl
    rw [Run.flags_later hg hr (by omega) (h1.updated hg.cluster hu) h1 hl' hk,
      flag_updated hg h1.sound hu k, if_pos hk]
    cases l with
    | nil => simp at hl'
    | cons y l =>
      rw [keptSolution_cons ha]
      simp only [List.getElem?_cons_zero, Option.some.injEq, exists_eq_left']
      simp only [List.getElem?_cons_succ, List.getElem?_cons_zero, Option.some.injEq, forall_eq']
      simp only [decide_true, Bool.not_true, Bool.false_and, Bool.or_false]
      by_cases hy : k ∈ y.reverted
      · simp only [hy, if_true, not_true_eq_false, and_false, false_or, and_true]
        rw [flag_observed hg hi hc (Or.inl rfl), reverted_first hg hi hc]
        simp
      · simp only [hy, if_false, not_false_eq_true, and_true, and_false, or_false]
        tauto

end Verif.Relocate
