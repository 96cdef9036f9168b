import Verif.Proofs.DDFile
import Verif.Proofs.IterationRun

/-! Helper lemmas for C108: the positions and the stations an iteration gives to the solver. -/

set_option linter.unusedSectionVars false
set_option linter.unusedSimpArgs false

namespace Verif.Relocate
open Verif.Catalog Verif.Solver

variable {K : Type} [Field K] [LinearOrder K]

/-- the position of event `id` in the catalog -/
def PlacedAt (c : Catalog K) (id : Nat) (pos : K × K × K) : Prop :=
  ∃ ev, c.events.find? id = some ev ∧ pos = (ev.latitude, ev.longitude, ev.depth)

/-- the positions told to the solver -/
def PlacedOp (prev cur0 : Catalog K) (reverted : List Nat) : SolverOp K → Prop
  | .event id la lo d => PlacedAt cur0 id (la, lo, d) ∨ (id ∈ reverted ∧ PlacedAt prev id (la, lo, d))
  | _ => True

theorem added_placed {env : Env K} {o : ObsOptions K} {fixed : Bool} {prev cur0 : Catalog K} {done : Cluster} {s : ObserveState K}
    (hi : ObserveInv env fixed prev cur0 done s) {xc : XCorr.Cache} {nb : Neighbours}
    {ops0 ops : List (SolverOp K)} {b : Bool} (h : addObservations env o s.cur xc nb ops0 = .ok (ops, b))
    (h0 : ∀ op ∈ ops0, PlacedOp prev cur0 s.reverted op) : ∀ op ∈ ops, PlacedOp prev cur0 s.reverted op := by
  obtain ⟨refEv, t, h1, h2, h3, hinv⟩ := addObservations_inv hi.sound.toWF h
  obtain ⟨new, hnew, hgood⟩ := hinv.new
  intro op hop
  rw [← h2, hnew, List.mem_append] at hop
  rcases hop with hop | hop
  · exact h0 op hop
  · have hgd := hgood op hop
    cases op with
    | event id la lo d =>
      obtain ⟨key, ev, e1, rfl, rfl, rfl, rfl, -⟩ := hgd
      have hid := (hi.sound.eventKey _ _ e1).1
      subst hid
      by_cases hr : ev.id ∈ s.reverted
      · refine .inr ⟨hr, ev, ?_, rfl⟩
        rw [← (hi.restored _ hr).1, e1]
      · refine .inl ⟨ev, ?_, rfl⟩
        rw [← hi.keep.events _ hr, e1]
    | station => trivial
    | params => trivial
    | obs => trivial

theorem PlacedOp.mono {prev cur0 : Catalog K} {l l' : List Nat} (hl : ∀ k ∈ l, k ∈ l') {op : SolverOp K}
    (h : PlacedOp prev cur0 l op) : PlacedOp prev cur0 l' op := by
  cases op with
  | event k la lo d => exact h.imp id fun ⟨a, b⟩ => ⟨hl _ a, b⟩
  | station => trivial
  | params => trivial
  | obs => trivial

/-- the positions told to the solver are those of the catalog, or those events were restored to -/
theorem observe_positions {env : Env K} {o : ObsOptions K} {xc : XCorr.Cache} {prev cur0 : Catalog K}
    (hc : cur0.Sound) (hcn : NoAt cur0)
    (hp : prev.Sound) (hpn : NoAt prev) (hps : isEmpty prev = true ∨ ∀ s, prev.stations.find? s = cur0.stations.find? s)
    {cluster : Cluster} (hg : GoodCluster cluster)
    (hfit : 28 * (cluster.map (·.2.phases.length)).sum ≤ IdToIndex.uintMod)
    {s : ObserveState K} (h : observe env o xc cluster prev cur0 = .ok s) :
    ∀ op ∈ s.ops, PlacedOp prev cur0 s.reverted op := by
  unfold observe at h
  suffices H : ∀ (rest done : Cluster) (t : ObserveState K), done ++ rest = cluster →
      ObserveInv env o.keepNeighboursFixed prev cur0 done t → (∀ op ∈ t.ops, PlacedOp prev cur0 t.reverted op) →
      rest.foldlM (observeStep env o xc prev) t = .ok s → ∀ op ∈ s.ops, PlacedOp prev cur0 s.reverted op by
    refine H cluster [] _ rfl ?_ ?_ h
    · exact ⟨hc, hcn, ⟨fun _ => rfl, fun _ _ => rfl, fun _ _ => rfl⟩, by simp, by simp, by simp, by simp, by simp,
        by simp [NoSeparator, obsOf, parOf], by simp [parOf], by simp [parOf]⟩
    · simp
  intro rest
  induction rest with
  | nil =>
    intro done t hd hi ho h
    simp only [List.foldlM_nil, Outcome.pure_eq, Outcome.ok.injEq] at h
    rw [← h]; exact ho
  | cons kv rest ih =>
    intro done t hd hi ho h
    rw [List.foldlM_cons, Outcome.bind_eq_ok] at h
    obtain ⟨t', h1, h2⟩ := h
    have hmem : kv ∈ cluster := by rw [← hd]; simp
    have hkey := hg.key kv hmem
    have hnodup := hg.nodup
    rw [← hd] at hnodup hfit
    simp only [List.map_append, List.map_cons, List.sum_append, List.sum_cons] at hnodup hfit
    have hi' : ObserveInv env o.keepNeighboursFixed prev cur0 (done ++ [kv]) t' := by
      refine observeStep_inv hp hpn hps hkey ?_ ?_ hi h1
      · intro hc
        exact (List.nodup_append.1 hnodup).2.2 _ hc _ (by simp) rfl
      · simp only [List.map_append, List.map_cons, List.map_nil, List.sum_append, List.sum_cons, List.sum_nil]
        omega
    refine ih (done ++ [kv]) t' (by simpa using hd) hi' ?_ h2
    unfold observeStep at h1
    rw [Outcome.bind_eq_ok] at h1
    obtain ⟨⟨ops, b⟩, g1, g⟩ := h1
    simp only at g
    have hadd := added_placed hi g1 ho
    by_cases hb : (b || isEmpty prev) = true
    · rw [if_pos hb] at g
      simp only [Outcome.ok.injEq] at g
      rw [← g]; exact hadd
    · rw [if_neg hb] at g
      rw [Outcome.bind_eq_ok] at g
      obtain ⟨ev, g2, g⟩ := g
      by_cases hr : ev.isRelocated = true
      · rw [if_pos hr] at g
        cases hx : (t.cur.removeEvent kv.1).addFrom kv.1 prev true with
        | mk c r =>
          rw [hx] at g
          cases r with
          | throws => simp at g
          | ub => simp at g
          | ok u =>
            simp only at g
            rw [Outcome.bind_eq_ok] at g
            obtain ⟨⟨ops2, b2⟩, g3, g4⟩ := g
            simp only [Outcome.ok.injEq] at g4
            subst g4
            refine added_placed hi' g3 fun op hop => (hadd op hop).mono ?_
            intro k hk
            exact List.mem_append_left _ hk
      · rw [if_neg hr] at g
        simp only [Outcome.ok.injEq] at g
        rw [← g]; exact hadd

theorem positionOf_mem {ops : List (SolverOp K)} {k : Nat} {pos : K × K × K} (h : DDFile.positionOf ops k = some pos) :
    SolverOp.event k pos.1 pos.2.1 pos.2.2 ∈ ops := by
  unfold DDFile.positionOf at h
  rw [List.findSome?_eq_some_iff] at h
  obtain ⟨l1, op, l2, rfl, h1, -⟩ := h
  cases op with
  | event id la lo d =>
    simp only at h1
    split at h1
    · rename_i hid
      simp only [Option.some.injEq] at h1
      subst h1 hid
      simp
    · simp at h1
  | station => simp at h1
  | params => simp at h1
  | obs => simp at h1

/-- the position an iteration told the solver for an event -/
theorem iteration_position {a : Args K} (hg : GoodArgs a) {cat r : Catalog K} (hs : cat.Sound) (hn : NoAt cat)
    {log : List (IterLog K)} (h : relocate a cat = .ok (r, log)) {i : Nat} {x : IterLog K} (hx : log[i]? = some x)
    {k : Nat} {pos : K × K × K} (hpos : DDFile.positionOf x.ops k = some pos) (hk : k ∉ x.reverted) : PlacedAt x.before k pos := by
  obtain ⟨prev, hok, hrel, hcase⟩ := entry_facts hg hs hn h hx
  obtain ⟨ob, h1, h2, h3, h4⟩ := hok.observe
  have hp : prev = Catalog.init ∨ Rel a.cluster cat prev := by
    rcases hcase with ⟨_, h, _⟩ | ⟨w, ans, _, _, h, h', _⟩
    · exact Or.inl h
    · exact Or.inr (h ▸ h')
  obtain ⟨p1, p2, p3⟩ := prev_ok hrel hp
  have := observe_positions hrel.sound hrel.noAt p1 p2 p3 hg.cluster hg.fits h1
  rcases this _ (h2 ▸ positionOf_mem hpos) with h | ⟨h, -⟩
  · exact h
  · exact absurd (h3 ▸ h) hk

/-- the stations and phases of the observations are those of the catalog -/
theorem iteration_writable {a : Args K} (hg : GoodArgs a) {cat r : Catalog K} (hs : cat.Sound) (hn : NoAt cat)
    (hpr : ClusterFiles.Printable cat)
    {log : List (IterLog K)} (h : relocate a cat = .ok (r, log)) {i : Nat} {x : IterLog K} (hx : log[i]? = some x) :
    DDFile.Writable cat.stations x.ops := by
  obtain ⟨prev, hok, hrel, hcase⟩ := entry_facts hg hs hn h hx
  obtain ⟨ob, h1, h2, h3, h4⟩ := hok.observe
  have hp : prev = Catalog.init ∨ Rel a.cluster cat prev := by
    rcases hcase with ⟨_, h, _⟩ | ⟨w, ans, _, _, h, h', _⟩
    · exact Or.inl h
    · exact Or.inr (h ▸ h')
  obtain ⟨p1, p2, p3⟩ := prev_ok hrel hp
  have hops := observe_ops hrel.sound hrel.noAt p1 p2 p3 hg.cluster hg.fits h1
  have key : ∀ {c : Catalog K} {q : ParArg K}, Rel a.cluster cat c → GivenAt a.env c q →
      DDFile.Bare q.phase ∧ ∃ sta, cat.stations.find? (String.ofList q.sta) = some sta ∧
        ClusterFiles.Plain sta.networkCode ∧ ClusterFiles.Plain sta.stationCode ∧ ClusterFiles.Plain sta.locationCode := by
    rintro c q hr ⟨ev, p, st, t, g1, g2, g3, g4, g5, -⟩
    have hm : pick0 p ∈ (cat.phasesOf q.ev).map pick0 := by
      rw [← hr.picks]; exact List.mem_map_of_mem g2
    obtain ⟨p', hp', he⟩ := List.mem_map.1 hm
    have htype : p'.type = p.type := by
      have := congrArg Phase.type he
      simpa [pick0, pickOf] using this
    rw [hr.stations] at g3
    refine ⟨?_, st, by rw [g4, String.ofList_toList]; exact g3, hpr.stations _ _ g3⟩
    have := hpr.phases _ (Catalog.mem_phasesOf.1 hp')
    rw [g5, ← htype]
    exact this
  intro o ho
  obtain ⟨-, -, ⟨q, hq, ht⟩, -⟩ := hops.complete o (h2 ▸ ho)
  simp only [ParArg.triple, Prod.mk.injEq] at ht
  rw [← ht.2.1, ← ht.2.2]
  rcases hops.given q hq with hgv | ⟨-, hgv⟩
  · exact key hrel hgv
  · rcases hp with rfl | hp
    · obtain ⟨ev, _, _, _, e1, _⟩ := hgv
      simp [Catalog.init] at e1
    · exact key hp hgv

end Verif.Relocate
