import Verif.Props.Selection
import Verif.Proofs.Catalog

/-!
# Helper lemmas for C31: the selection for a whole catalog
-/

set_option linter.unusedSectionVars false
set_option linter.unusedSimpArgs false

namespace Verif.Selection
open Verif.Catalog
variable {K : Type} [Field K] [LinearOrder K] [IsStrictOrderedRing K]
variable {g : Geometry K} {cfg : Config K} {cat : Catalog K}

/-- `valid` is `cat` without the removed events -/
structure Without (cat : Catalog K) (removed : List Nat) (valid : Catalog K) : Prop where
  stations : valid.stations = cat.stations
  events : ∀ id, valid.events.find? id = if id ∈ removed then none else cat.events.find? id
  phasesOf : ∀ id, id ∉ removed → valid.phasesOf id = cat.phasesOf id
  phases : ∀ kp ∈ valid.phases, kp ∈ cat.phases

theorem Without.refl (cat : Catalog K) : Without cat [] cat := ⟨rfl, by simp, by simp, by simp⟩

theorem Without.remove {removed : List Nat} {valid : Catalog K} (h : Without cat removed valid) (id : Nat) :
    Without cat (id :: removed) (valid.removeEvent id) := by
  refine ⟨h.stations, ?_, ?_, ?_⟩
  · intro k
    simp only [Catalog.removeEvent, AMap.find?_erase, h.events k, List.mem_cons]
    by_cases e : k = id
    · simp [e]
    · simp [e]
  · intro k hk
    simp only [List.mem_cons, not_or] at hk
    rw [← h.phasesOf k hk.2]
    unfold Catalog.phasesOf Catalog.removeEvent
    simp only [List.filter_filter]
    congr 1
    apply List.filter_congr
    intro x _
    simp only [decide_eq_decide, ne_eq, decide_not, Bool.and_eq_left_iff_imp, decide_eq_true_eq, Bool.not_eq_eq_eq_not,
      Bool.not_true, decide_eq_false_iff_not]
    intro hx hx'
    exact hk.1 (hx.symm.trans hx')
  · intro kp hkp
    exact h.phases kp (List.mem_filter.1 hkp).1

theorem Usable.transfer {c c' : Catalog K} {ref event : Event K} {d : K} {sp : StaPhase}
    (hs : c'.stations = c.stations) (h1 : c'.phasesOf ref.id = c.phasesOf ref.id)
    (h2 : c'.phasesOf event.id = c.phasesOf event.id) :
    Usable g cfg c' ref c' event d sp ↔ Usable g cfg c ref c event d sp := by
  unfold Usable UsedPhase
  rw [hs, h1, h2]

theorem Chosen.transfer {removed : List Nat} {valid : Catalog K} (w : Without cat removed valid) {ref event : Event K}
    {id : Nat} {d : K} {phs : List StaPhase} (hid : ∀ id e, cat.events.find? id = some e → e.id = id)
    (hr : ref.id ∉ removed) (h : Chosen g cfg valid ref valid id event d phs) :
    Chosen g cfg cat ref cat id event d phs ∧ id ∉ removed := by
  have hne := h.inCatalog
  rw [w.events] at hne
  by_cases hmem : id ∈ removed
  · simp [hmem] at hne
  rw [if_neg hmem] at hne
  have hev : event.id = id := hid _ _ hne
  have h1 := w.phasesOf ref.id hr
  have h2 : valid.phasesOf event.id = cat.phasesOf event.id := w.phasesOf _ (by rw [hev]; exact hmem)
  have tr : ∀ sp, Usable g cfg valid ref valid event d sp ↔ Usable g cfg cat ref cat event d sp :=
    fun sp => Usable.transfer w.stations h1 h2
  refine ⟨⟨h.other, hne, h.nonempty, h.nodup, fun sp hsp => (tr sp).1 (h.usable sp hsp), h.atMost, ?_, ?_⟩, hmem⟩
  · intro hu sp hsp hout
    have hu' : UniquePhases valid ref.id := by unfold UniquePhases at hu ⊢; rw [h1]; exact hu
    have := h.nearestStations hu' sp ((tr sp).2 hsp) hout
    rw [w.stations] at this
    exact this
  · intro hu
    apply h.atLeast
    unfold UniquePhases at hu ⊢
    rw [← hev] at hu ⊢
    rw [h2]; exact hu

theorem Eligible.transfer {removed : List Nat} {valid : Catalog K} (w : Without cat removed valid) {ref : Event K}
    {id : Nat} {d : K} (hid : ∀ id e, cat.events.find? id = some e → e.id = id)
    (hr : ref.id ∉ removed) (hi : id ∉ removed) (h : Eligible g cfg cat ref cat id d) :
    Eligible g cfg valid ref valid id d := by
  obtain ⟨h1, event, h2, phs, h3, h4, h5, h6⟩ := h
  have hev : event.id = id := hid _ _ h2
  refine ⟨h1, event, by rw [w.events, if_neg hi, h2], phs, h3, h4, h5, ?_⟩
  intro sp hsp
  exact (Usable.transfer w.stations (w.phasesOf _ hr) (w.phasesOf _ (by rw [hev]; exact hi))).2 (h6 sp hsp)

theorem Geometry.Nonneg.without {removed : List Nat} {valid : Catalog K} (w : Without cat removed valid) {ref : Event K}
    {t : EventTree K} (h : g.Nonneg cat ref t) : g.Nonneg valid ref t := by
  refine ⟨h.dist, ?_, ?_⟩
  · rw [w.stations]; exact h.refSta
  · intro k s id e hs he
    rw [w.stations] at hs
    rw [w.events] at he
    split at he
    · cases he
    · exact h.evSta k s id e hs he

/-- what holds of the neighbours found for an event, in terms of the original catalog -/
def Good (g : Geometry K) (cfg : Config K) (minNumNeigh : Nat) (cat : Catalog K) (t : EventTree K) (nb : Neighbours) : Prop :=
  ∃ event, cat.events.find? nb.refId = some event ∧ nb.ids.Nodup ∧ minNumNeigh ≤ nb.amount ∧
    (0 < cfg.maxNumNeigh → nb.amount ≤ cfg.maxNumNeigh) ∧
    ∀ id phs, nb.nbs.find? id = some phs → ∃ p ev, (p, id) ∈ t.points ∧ InReach g cfg (eventPt event) p ∧
      Chosen g cfg cat event cat id ev (g.dist p (eventPt event)) phs

/-- the neighbours were selected when some of the events that are removed now were removed -/
def Origin (g : Geometry K) (cfg : Config K) (pop : KdTree.Pop K) (t : EventTree K) (cat : Catalog K) (removed : List Nat)
    (nb : Neighbours) : Prop :=
  ∃ R V event, (∀ id ∈ R, id ∈ removed) ∧ Without cat R V ∧ event.id = nb.refId ∧ cat.events.find? nb.refId = some event ∧
    nb.refId ∉ R ∧ selectNeighbours g cfg V event V pop t = .ok nb

theorem Origin.mono {pop : KdTree.Pop K} {t : EventTree K} {removed removed' : List Nat} {nb : Neighbours}
    (h : Origin g cfg pop t cat removed nb) (hs : ∀ id ∈ removed, id ∈ removed') : Origin g cfg pop t cat removed' nb := by
  obtain ⟨R, V, event, h1, h2⟩ := h
  exact ⟨R, V, event, fun id hid => hs id (h1 id hid), h2⟩

/-- everything the two loops need to know about the inputs; no event satisfying `S` is to be removed -/
structure Ctx (g : Geometry K) (cfg : Config K) (minNumNeigh : Nat) (pop : KdTree.Pop K) (t : EventTree K)
    (cat : Catalog K) (S : Nat → Prop) : Prop where
  tree : t.WF
  unique : cat.events.NodupKeys
  key : ∀ id e, cat.events.find? id = some e → e.id = id
  stations : ∀ kp ∈ cat.phases, (cat.stations.find? kp.2.stationId).isSome
  nonneg : ∀ id e, cat.events.find? id = some e → g.Nonneg cat e t
  keep : ∀ removed valid event nb, Without cat removed valid → (∀ id ∈ removed, ¬ S id) →
    cat.events.find? event.id = some event → S event.id →
    selectNeighbours g cfg valid event valid pop t = .ok nb → minNumNeigh ≤ nb.amount

variable {minNumNeigh : Nat} {pop : KdTree.Pop K} {t : EventTree K} {S : Nat → Prop}

theorem Ctx.select (c : Ctx g cfg minNumNeigh pop t cat S) {removed : List Nat} {valid : Catalog K}
    (w : Without cat removed valid) {event : Event K} (he : cat.events.find? event.id = some event)
    (hr : event.id ∉ removed) :
    ∃ nb, selectNeighbours g cfg valid event valid pop t = .ok nb ∧ nb.refId = event.id ∧
      (minNumNeigh ≤ nb.amount → Good g cfg minNumNeigh cat t nb) ∧ (∀ i ∈ nb.ids, i ∉ removed) ∧
      Origin g cfg pop t cat removed nb := by
  have hv : ∀ id e, valid.events.find? id = some e → e.id = id := by
    intro id e h
    rw [w.events] at h
    split at h
    · cases h
    · exact c.key _ _ h
  obtain ⟨nb, hnb⟩ := selection_returns (g := g) (cfg := cfg) (refEv := event) (refCat := valid) pop t c.tree (cat := valid)
    (by intro kp hkp; rw [w.stations]; exact c.stations kp (w.phases kp hkp))
  obtain ⟨h1, h2, h3, h4⟩ := neighbours_meet_constraints_partial pop t c.tree hv ((c.nonneg _ _ he).without w) nb hnb
  refine ⟨nb, hnb, h1, ?_, ?_, removed, valid, event, fun _ h => h, w, h1.symm, by rw [h1]; exact he, by rw [h1]; exact hr, hnb⟩
  · intro hm
    refine ⟨event, by rw [h1]; exact he, h2, hm, h3, ?_⟩
    intro id phs hf
    obtain ⟨p, ev, a1, a2, a3⟩ := h4 id phs hf
    exact ⟨p, ev, a1, a2, (a3.transfer w c.key hr).1⟩
  · intro i hi
    obtain ⟨phs, hf⟩ := Option.isSome_iff_exists.1 (AMap.find?_isSome.2 hi)
    obtain ⟨p, ev, a1, a2, a3⟩ := h4 i phs hf
    exact (a3.transfer w c.key hr).2

/-- The events still to be considered, those with neighbours and those removed are all the events. -/
structure Inv (g : Geometry K) (cfg : Config K) (minNumNeigh : Nat) (pop : KdTree.Pop K) (t : EventTree K)
    (cat : Catalog K) (S : Nat → Prop) (todo : List Nat) (s : CatState K) : Prop where
  without : Without cat s.removed s.valid
  split : (todo ++ s.found.keys ++ s.removed).Perm cat.events.keys
  good : ∀ kv ∈ s.found, kv.2.refId = kv.1 ∧ Good g cfg minNumNeigh cat t kv.2
  kept : ∀ id ∈ s.removed, ¬ S id
  origin : ∀ kv ∈ s.found, Origin g cfg pop t cat s.removed kv.2

theorem Inv.nodup (c : Ctx g cfg minNumNeigh pop t cat S) {todo : List Nat} {s : CatState K}
    (i : Inv g cfg minNumNeigh pop t cat S todo s) : (todo ++ s.found.keys ++ s.removed).Nodup :=
  i.split.nodup_iff.2 c.unique

/-- the next event is neither found nor removed -/
theorem Inv.head (c : Ctx g cfg minNumNeigh pop t cat S) {id : Nat} {todo : List Nat} {s : CatState K}
    (i : Inv g cfg minNumNeigh pop t cat S (id :: todo) s) : id ∉ s.found.keys ∧ id ∉ s.removed := by
  have := i.nodup c
  simp only [List.cons_append, List.nodup_cons, List.mem_append, not_or] at this
  exact ⟨this.1.1.2, this.1.2⟩

theorem keys_insertNew {m : AMap Nat Neighbours} {id : Nat} {nb : Neighbours} (h : id ∉ m.keys) :
    m.insertNew id nb = (id, nb) :: m := by
  unfold AMap.insertNew
  have : m.find? id = none := AMap.find?_eq_none.2 h
  simp [this]

theorem Inv.accept (c : Ctx g cfg minNumNeigh pop t cat S) {id : Nat} {todo : List Nat} {s : CatState K} {nb : Neighbours}
    (i : Inv g cfg minNumNeigh pop t cat S (id :: todo) s) (hr : nb.refId = id) (hg : Good g cfg minNumNeigh cat t nb)
    (hor : Origin g cfg pop t cat s.removed nb) :
    Inv g cfg minNumNeigh pop t cat S todo { s with found := s.found.insertNew nb.refId nb } := by
  have hh := i.head c
  subst hr
  refine ⟨i.without, ?_, ?_, i.kept, ?_⟩
  · simp only [keys_insertNew hh.1]
    refine List.Perm.trans ?_ i.split
    have : AMap.keys ((nb.refId, nb) :: s.found) = nb.refId :: s.found.keys := rfl
    rw [this]
    apply List.Perm.append_right
    exact List.perm_middle
  · intro kv hkv
    simp only [keys_insertNew hh.1, List.mem_cons] at hkv
    rcases hkv with rfl | hkv
    · exact ⟨rfl, hg⟩
    · exact i.good kv hkv
  · intro kv hkv
    simp only [keys_insertNew hh.1, List.mem_cons] at hkv
    rcases hkv with rfl | hkv
    · exact hor
    · exact i.origin kv hkv

theorem Inv.reject {id : Nat} {todo : List Nat} {s : CatState K}
    (i : Inv g cfg minNumNeigh pop t cat S (id :: todo) s) (hS : ¬ S id) :
    Inv g cfg minNumNeigh pop t cat S todo { s with removed := id :: s.removed, valid := s.valid.removeEvent id } := by
  refine ⟨i.without.remove id, ?_, i.good, ?_, fun kv hkv => (i.origin kv hkv).mono (fun _ h => List.mem_cons_of_mem _ h)⟩
  · refine List.Perm.trans ?_ i.split
    simp only
    exact List.perm_middle
  · intro k hk
    rcases List.mem_cons.1 hk with rfl | hk
    · exact hS
    · exact i.kept k hk

theorem firstPass_spec (c : Ctx g cfg minNumNeigh pop t cat S) :
    ∀ (es : List (Nat × Event K)) (s : CatState K), (∀ kv ∈ es, cat.events.find? kv.1 = some kv.2) →
      Inv g cfg minNumNeigh pop t cat S (es.map (·.1)) s →
      ∃ s', firstPass g cfg minNumNeigh pop t es s = .ok s' ∧ Inv g cfg minNumNeigh pop t cat S [] s' := by
  intro es
  induction es with
  | nil => intro s _ i; exact ⟨s, rfl, i⟩
  | cons kv es ih =>
    obtain ⟨id, event⟩ := kv
    intro s hes i
    have he : cat.events.find? id = some event := hes (id, event) (by simp)
    have hk : event.id = id := c.key _ _ he
    subst hk
    have hh := i.head c
    obtain ⟨nb, h1, h2, h3, -, h5⟩ := c.select i.without he hh.2
    unfold firstPass
    simp only [h1]
    split
    · rename_i hm
      exact ih _ (fun kv hkv => hes kv (by simp [hkv])) (i.accept c h2 (h3 hm) h5)
    · rename_i hm
      refine ih _ (fun kv hkv => hes kv (by simp [hkv])) (i.reject ?_)
      intro hS
      exact hm (c.keep _ _ _ _ i.without i.kept he hS h1)

theorem redoPass_spec (c : Ctx g cfg minNumNeigh pop t cat S) :
    ∀ (l : List (Nat × Neighbours)) (s : CatState K) (redo : Bool),
      (∀ kv ∈ l, kv.2.refId = kv.1 ∧ Good g cfg minNumNeigh cat t kv.2 ∧ Origin g cfg pop t cat s.removed kv.2) →
      Inv g cfg minNumNeigh pop t cat S (l.map (·.1)) s →
      ∃ s' redo', redoPass g cfg minNumNeigh pop t l s redo = .ok (s', redo') ∧ Inv g cfg minNumNeigh pop t cat S [] s' ∧
        (redo = true → redo' = true) ∧ s.removed.length ≤ s'.removed.length ∧
        (redo = false → redo' = true → s.removed.length < s'.removed.length) ∧
        (redo' = false → s'.removed = s.removed ∧
          ((∀ kv ∈ s.found, ∀ i ∈ kv.2.ids, i ∉ s.removed) → ∀ kv ∈ s'.found, ∀ i ∈ kv.2.ids, i ∉ s.removed)) := by
  intro l
  induction l with
  | nil => intro s redo _ i; exact ⟨s, redo, rfl, i, id, le_rfl, by simp_all, fun _ => ⟨rfl, id⟩⟩
  | cons kv l ih =>
    obtain ⟨id, nb⟩ := kv
    intro s redo hl i
    obtain ⟨hr, hgood, hor⟩ := hl (id, nb) (by simp)
    simp only at hr hgood hor
    subst hr
    have hl' : ∀ kv ∈ l, kv.2.refId = kv.1 ∧ Good g cfg minNumNeigh cat t kv.2 ∧ Origin g cfg pop t cat s.removed kv.2 :=
      fun kv hkv => hl kv (by simp [hkv])
    have hh := i.head c
    have hfound : ∀ nb' : Neighbours, nb'.refId = nb.refId → (∀ j ∈ nb'.ids, j ∉ s.removed) →
        (∀ kv ∈ s.found, ∀ i ∈ kv.2.ids, i ∉ s.removed) →
        ∀ kv ∈ s.found.insertNew nb'.refId nb', ∀ i ∈ kv.2.ids, i ∉ s.removed := by
      intro nb' hr' h1 h2 kv hkv
      rw [hr', keys_insertNew hh.1] at hkv
      rcases List.mem_cons.1 hkv with rfl | hkv
      · exact h1
      · exact h2 kv hkv
    unfold redoPass
    split
    · obtain ⟨event, he, -⟩ := id hgood
      have hk : event.id = nb.refId := c.key _ _ he
      rw [i.without.events, if_neg hh.2, he]
      simp only
      obtain ⟨nb', h1, h2, h3, h4, h5⟩ := c.select i.without (event := event) (by rw [hk]; exact he) (by rw [hk]; exact hh.2)
      simp only [h1]
      rw [hk] at h2
      split
      · rename_i hm
        have hS : ¬ S nb'.refId := by
          intro hS
          have := c.keep _ _ event _ i.without i.kept (by rw [hk]; exact he) (by rw [hk, ← h2]; exact hS) h1
          omega
        obtain ⟨s', redo', e1, e2, e3, e4, e5, e6⟩ := ih { s with removed := nb'.refId :: s.removed, valid := s.valid.removeEvent nb'.refId } true
          (fun kv hkv => ⟨(hl' kv hkv).1, (hl' kv hkv).2.1, (hl' kv hkv).2.2.mono (fun _ h => List.mem_cons_of_mem _ h)⟩)
          (by rw [h2] at hS ⊢; exact i.reject hS)
        have e3' := e3 rfl
        simp only [List.length_cons] at e4
        refine ⟨s', redo', e1, e2, fun _ => e3', by omega, fun _ _ => by omega, fun h => ?_⟩
        rw [e3'] at h; cases h
      · rename_i hm
        obtain ⟨s', redo', e1, e2, e3, e4, e5, e6⟩ := ih { s with found := s.found.insertNew nb'.refId nb' } redo hl'
          (i.accept c h2 (h3 (by omega)) h5)
        refine ⟨s', redo', e1, e2, e3, e4, e5, fun h => ⟨(e6 h).1, fun hf => (e6 h).2 (hfound nb' h2 h4 hf)⟩⟩
    · rename_i hany
      have hany' : ∀ j ∈ nb.ids, j ∉ s.removed := by
        intro j hj hj'
        apply hany
        rw [List.any_eq_true]
        exact ⟨j, hj, by simp [hj']⟩
      obtain ⟨s', redo', e1, e2, e3, e4, e5, e6⟩ := ih { s with found := s.found.insertNew nb.refId nb } redo hl'
        (i.accept c rfl hgood hor)
      exact ⟨s', redo', e1, e2, e3, e4, e5, fun h => ⟨(e6 h).1, fun hf => (e6 h).2 (hfound nb rfl hany' hf)⟩⟩

theorem redoLoop_spec (c : Ctx g cfg minNumNeigh pop t cat S) (order : AMap Nat Neighbours → List (Nat × Neighbours))
    (ho : ∀ m, (order m).Perm m) :
    ∀ (fuel : Nat) (s : CatState K), s.found.length < fuel → Inv g cfg minNumNeigh pop t cat S [] s →
      ∃ res removed, redoLoop g cfg minNumNeigh pop t order fuel s = .ok res ∧
        (res.keys ++ removed).Perm cat.events.keys ∧ (∀ id ∈ removed, ¬ S id) ∧
        (∀ kv ∈ res, kv.2.refId = kv.1 ∧ Good g cfg minNumNeigh cat t kv.2 ∧ (∀ i ∈ kv.2.ids, i ∉ removed) ∧
          Origin g cfg pop t cat removed kv.2) := by
  intro fuel
  induction fuel with
  | zero => intro s h; omega
  | succ fuel ih =>
    intro s hf i
    have hkeys : ((order s.found).map (·.1)).Perm s.found.keys := (ho s.found).map _
    obtain ⟨s', redo', e1, e2, -, -, e5, e6⟩ := redoPass_spec c (order s.found) { s with found := [] } false
      (fun kv hkv => ⟨(i.good kv ((ho s.found).subset hkv)).1, (i.good kv ((ho s.found).subset hkv)).2,
        i.origin kv ((ho s.found).subset hkv)⟩)
      ⟨i.without, by
        refine List.Perm.trans ?_ i.split
        simp only [AMap.keys, List.map_nil, List.append_nil, List.nil_append]
        exact List.Perm.append_right _ hkeys, by simp, i.kept, by simp⟩
    unfold redoLoop
    rw [e1]
    have hlen : ∀ s : CatState K, Inv g cfg minNumNeigh pop t cat S [] s → s.found.length + s.removed.length = cat.events.length := by
      intro s i
      have := i.split.length_eq
      simpa [AMap.keys] using this
    cases redo' with
    | true =>
      have := e5 rfl rfl
      have l1 := hlen s i
      have l2 := hlen s' e2
      simp only at this
      exact ih s' (by omega) e2
    | false =>
      refine ⟨s'.found, s'.removed, rfl, by simpa using e2.split, e2.kept, ?_⟩
      intro kv hkv
      obtain ⟨h1, h2⟩ := e2.good kv hkv
      refine ⟨h1, h2, ?_, e2.origin kv hkv⟩
      obtain ⟨h3, h4⟩ := e6 rfl
      rw [h3]
      exact h4 (by simp) kv hkv

theorem selectCatalog_spec (c : Ctx g cfg minNumNeigh pop t cat S) (order : AMap Nat Neighbours → List (Nat × Neighbours))
    (ho : ∀ m, (order m).Perm m) :
    ∃ res removed, selectCatalog g cfg minNumNeigh pop t order cat = .ok res ∧
      (res.keys ++ removed).Perm cat.events.keys ∧ (∀ id ∈ removed, ¬ S id) ∧
      (∀ kv ∈ res, kv.2.refId = kv.1 ∧ Good g cfg minNumNeigh cat t kv.2 ∧ (∀ i ∈ kv.2.ids, i ∉ removed) ∧
        Origin g cfg pop t cat removed kv.2) := by
  have hperm : cat.eventsSorted.Perm cat.events := List.perm_insertionSort _ _
  obtain ⟨s, h1, h2⟩ := firstPass_spec c cat.eventsSorted ⟨cat, [], []⟩
    (fun kv hkv => AMap.find?_of_mem c.unique (hperm.subset hkv))
    ⟨Without.refl cat, by simpa [AMap.keys] using hperm.map _, by simp, by simp, by simp⟩
  obtain ⟨res, removed, h3⟩ := redoLoop_spec c order ho (s.found.length + 1) s (by omega) h2
  refine ⟨res, removed, ?_, h3.2⟩
  unfold selectCatalog
  rw [h1]
  exact h3.1

end Verif.Selection
