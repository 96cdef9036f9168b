import Verif.Props.Selection

/-!
# Helper lemmas for C28 and C31: how a selection of neighbours can end
-/

set_option linter.unusedSectionVars false

namespace Verif.Selection
open Verif.Catalog
variable {K : Type} [Field K] [LinearOrder K] [IsStrictOrderedRing K]
variable {g : Geometry K} {cfg : Config K} {cat : Catalog K} {refEv : Event K} {refCat : Catalog K}

/-- not undefined, and a value satisfies `P` -/
def Ends {α : Type} (P : α → Prop) : Outcome α → Prop
  | .ok a => P a
  | .throws => True
  | .ub => False

theorem Ends.of_ok {α : Type} {P : α → Prop} {o : Outcome α} {a : α} (h : Ends P o) (e : o = .ok a) : P a := by
  subst e; exact h

theorem Ends.of_ub {α : Type} {P : α → Prop} {o : Outcome α} (h : Ends P o) (e : o = .ub) : False := by
  subst e; exact h

theorem matchPhases_ends {event : Event K} {d : K} (ps : List (Phase K)) (acc : List (K × StaPhase)) :
    Ends (fun _ => True) (matchPhases g cfg cat refEv refCat event d ps acc) := by
  induction ps generalizing acc with
  | nil => trivial
  | cons p ps ih =>
    have hm : matchPhase g cfg cat refEv refCat event d p ≠ .ub := by
      unfold matchPhase
      split <;> simp
    unfold matchPhases
    split
    · exact ih acc
    · exact ih _
    · trivial
    · rename_i h; exact absurd h hm

theorem foldl_add_refId (id : Nat) (l : List (K × StaPhase)) (nb : Neighbours) :
    (l.foldl (fun nb x => nb.add id x.2) nb).refId = nb.refId := by
  induction l generalizing nb with
  | nil => rfl
  | cons x l ih => rw [List.foldl_cons, ih]; rfl

theorem addNeighbour_ends (nb : Neighbours) (id : Nat) (d : K) :
    Ends (fun r => r.1.refId = nb.refId) (addNeighbour g cfg cat refEv refCat nb id d) := by
  unfold addNeighbour
  split
  · rfl
  · split
    · rfl
    · rename_i e _
      split
      · trivial
      · rename_i h; exact (matchPhases_ends _ _).of_ub h
      · split
        · rfl
        · exact foldl_add_refId _ _ _

theorem deliver_ends (r : Nat) (t : EventTree K) (E : List (K × Nat)) (s : Outcome Neighbours) (hs : Ends (fun nb => nb.refId = r) s) :
    Ends (fun nb => nb.refId = r) (KdTree.deliver (nearestVisit g cfg cat refEv refCat t) E s) := by
  induction E generalizing s with
  | nil => exact hs
  | cons x E ih =>
    obtain ⟨d, i⟩ := x
    simp only [KdTree.deliver]
    have hv : Ends (fun nb => nb.refId = r) (nearestVisit g cfg cat refEv refCat t s i d).1 := by
      unfold nearestVisit
      split
      · split
        · exact hs
        · split
          · rename_i h; exact ((addNeighbour_ends _ _ _).of_ok h).trans hs
          · trivial
          · rename_i h; exact (addNeighbour_ends _ _ _).of_ub h
      · exact hs
    split
    · exact hv
    · exact ih _ hv

theorem scanCell_ends (t : EventTree K) (c : (K × K) × Nat) (pts : List (K × Nat)) (nb : Neighbours) :
    Ends (fun r => r.2.1.refId = nb.refId) (scanCell g cfg cat refEv refCat t c pts nb) := by
  induction pts generalizing nb with
  | nil => rfl
  | cons x pts ih =>
    obtain ⟨d, i⟩ := x
    unfold scanCell
    split
    · split
      · rename_i h; exact (addNeighbour_ends _ _ _).of_ok h
      · rename_i h
        have h' := (addNeighbour_ends _ _ _).of_ok h
        split
        · rename_i h2; exact ((ih _).of_ok h2).trans h'
        · trivial
        · rename_i h; exact (ih _).of_ub h
      · trivial
      · rename_i h; exact (addNeighbour_ends _ _ _).of_ub h
    · split
      · rename_i h2; exact Ends.of_ok (P := fun r => r.2.1.refId = nb.refId) (ih _) h2
      · trivial
      · rename_i h; exact (ih _).of_ub h

theorem sweep_ends (t : EventTree K) (cs : List ((K × K) × Nat)) (pts : List (K × Nat)) (nb : Neighbours) (m : Bool) :
    Ends (fun r => r.2.1.refId = nb.refId) (sweep g cfg cat refEv refCat t cs pts nb m) := by
  induction cs generalizing pts nb m with
  | nil => rfl
  | cons c cs ih =>
    unfold sweep
    split
    · rename_i h
      have h' := (scanCell_ends _ _ _ _).of_ok h
      simp only at h'
      split
      · exact h'
      · rw [← h']; exact ih _ _ _
    · trivial
    · rename_i h; exact (scanCell_ends _ _ _ _).of_ub h

theorem rounds_ends (t : EventTree K) (cs : List ((K × K) × Nat)) (fuel : Nat) (pts : List (K × Nat)) (nb : Neighbours) :
    Ends (fun r => r.1.refId = nb.refId) (rounds g cfg cat refEv refCat t cs fuel pts nb) := by
  induction fuel generalizing pts nb with
  | zero => rfl
  | succ fuel ih =>
    unfold rounds
    split
    · rename_i h; exact (sweep_ends _ _ _ _ _).of_ok h
    · rename_i h; exact (sweep_ends _ _ _ _ _).of_ok h
    · rename_i h
      have h' := (sweep_ends _ _ _ _ _).of_ok h
      simp only at h'
      rw [← h']; exact ih _ _
    · trivial
    · rename_i h; exact (sweep_ends _ _ _ _ _).of_ub h

theorem selectNeighbours_ends (pop : KdTree.Pop K) (t : EventTree K) :
    Ends (fun nb => nb.refId = refEv.id) (selectNeighbours g cfg cat refEv refCat pop t) := by
  by_cases hm : NearestMode cfg
  · rw [select_nearest hm]
    obtain ⟨E, -, -, e3⟩ := KdTree.bestFirst_spec (pt := t.pt) (dist := g.dist) (axisDist := g.axisDist)
      (q := eventPt refEv) False pop 0 t.tree (fun h => h.elim)
    unfold nearest
    rw [e3]
    exact deliver_ends _ t E _ rfl
  · rw [select_ellipsoids hm]
    have : Ends (fun r => r.1.refId = refEv.id) (ellipsoids g cfg cat refEv refCat t) := by
      unfold ellipsoids
      simp only
      split
      · rfl
      · exact rounds_ends _ _ _ _ (Neighbours.empty refEv.id)
    cases h : ellipsoids g cfg cat refEv refCat t with
    | ok r => exact this.of_ok h
    | throws => trivial
    | ub => exact this.of_ub h

/-! ## the whole catalog -/

/-- a value satisfies `P`, and there is an exception only if the station of some phase of `cat` is not known -/
def EndsIn (cat : Catalog K) {α : Type} (P : α → Prop) (o : Outcome α) : Prop :=
  Ends P o ∧ (o = .throws → ∃ kp ∈ cat.phases, cat.stations.find? kp.2.stationId = none)

theorem EndsIn.ok {α : Type} {P : α → Prop} {a : α} (h : P a) : EndsIn cat P (.ok a) := ⟨h, by simp⟩
theorem EndsIn.of_ok {α : Type} {P : α → Prop} {o : Outcome α} {a : α} (h : EndsIn cat P o) (e : o = .ok a) : P a := h.1.of_ok e
theorem EndsIn.of_ub {α : Type} {P : α → Prop} {o : Outcome α} (h : EndsIn cat P o) (e : o = .ub) : False := h.1.of_ub e
theorem EndsIn.throws {α β : Type} {P : α → Prop} {Q : β → Prop} {o : Outcome α} (h : EndsIn cat P o) (e : o = .throws) :
    EndsIn cat Q (.throws : Outcome β) := ⟨trivial, fun _ => h.2 e⟩

/-- `valid` has the stations of `cat` and no other phases -/
def Within (cat valid : Catalog K) : Prop := valid.stations = cat.stations ∧ ∀ kp ∈ valid.phases, kp ∈ cat.phases

theorem selectNeighbours_endsIn {valid : Catalog K} (w : Within cat valid) (pop : KdTree.Pop K) (t : EventTree K) (ht : t.WF) :
    EndsIn cat (fun nb => nb.refId = refEv.id) (selectNeighbours g cfg valid refEv refCat pop t) := by
  refine ⟨selectNeighbours_ends pop t, fun h => ?_⟩
  by_contra hc
  obtain ⟨nb, hn⟩ := selection_returns (g := g) (cfg := cfg) (cat := valid) (refEv := refEv) (refCat := refCat) pop t ht (by
    intro kp hkp
    cases hf : valid.stations.find? kp.2.stationId with
    | none => exact absurd ⟨kp, w.2 kp hkp, by rw [← w.1]; exact hf⟩ hc
    | some st => rfl)
  rw [h] at hn
  cases hn

variable {minNumNeigh : Nat} {pop : KdTree.Pop K} {t : EventTree K}

/-- The events to be considered and those with neighbours are different events of the catalog that is left. -/
structure Tidy (cat : Catalog K) (todo : List Nat) (s : CatState K) : Prop where
  within : Within cat s.valid
  nodup : (todo ++ s.found.keys).Nodup
  left : ∀ id ∈ todo ++ s.found.keys, ∃ e, s.valid.events.find? id = some e ∧ e.id = id
  refId : ∀ kv ∈ s.found, kv.2.refId = kv.1

theorem Tidy.accept {id : Nat} {todo : List Nat} {s : CatState K} {nb : Neighbours} (h : Tidy cat (id :: todo) s) (hr : nb.refId = id) :
    Tidy cat todo { s with found := s.found.insertNew nb.refId nb } := by
  subst hr
  have hn := h.nodup
  simp only [List.cons_append, List.nodup_cons, List.mem_append, not_or] at hn
  have he : s.found.insertNew nb.refId nb = (nb.refId, nb) :: s.found := by
    unfold AMap.insertNew
    simp [AMap.find?_eq_none.2 hn.1.2]
  have hp : (todo ++ AMap.keys ((nb.refId, nb) :: s.found)).Perm (nb.refId :: todo ++ s.found.keys) := List.perm_middle
  refine ⟨h.within, ?_, ?_, ?_⟩
  · simp only [he]
    exact hp.nodup_iff.2 h.nodup
  · intro id hid
    simp only [he] at hid
    exact h.left id (hp.subset hid)
  · intro kv hkv
    simp only [he] at hkv
    rcases List.mem_cons.1 hkv with rfl | hkv
    · rfl
    · exact h.refId kv hkv

theorem Tidy.reject {id : Nat} {todo : List Nat} {s : CatState K} (h : Tidy cat (id :: todo) s) :
    Tidy cat todo { s with removed := id :: s.removed, valid := s.valid.removeEvent id } := by
  have hn := h.nodup
  rw [List.cons_append, List.nodup_cons] at hn
  refine ⟨⟨h.within.1, fun kp hkp => h.within.2 kp (List.mem_filter.1 hkp).1⟩, hn.2, ?_, h.refId⟩
  intro k hk
  obtain ⟨e, h1, h2⟩ := h.left k (List.mem_cons_of_mem _ hk)
  have hne : k ≠ id := fun e => hn.1 (e ▸ hk)
  exact ⟨e, by simp only [Catalog.removeEvent, AMap.find?_erase, hne, if_false, h1], h2⟩

theorem firstPass_ends (ht : t.WF) (es : List (Nat × Event K)) (s : CatState K) (hk : ∀ kv ∈ es, kv.2.id = kv.1)
    (h : Tidy cat (es.map (·.1)) s) : EndsIn cat (Tidy cat []) (firstPass g cfg minNumNeigh pop t es s) := by
  induction es generalizing s with
  | nil => exact .ok h
  | cons kv es ih =>
    obtain ⟨id, event⟩ := kv
    have hid : event.id = id := hk (id, event) (by simp)
    have hk' : ∀ kv ∈ es, kv.2.id = kv.1 := fun kv hkv => hk kv (by simp [hkv])
    unfold firstPass
    split
    · rename_i nb hs
      have hr := (selectNeighbours_endsIn h.within _ _ ht).of_ok hs
      split
      · exact ih _ hk' (h.accept (hr.trans hid))
      · rw [hid]; exact ih _ hk' h.reject
    · rename_i hs; exact (selectNeighbours_endsIn h.within _ _ ht).throws hs
    · rename_i hs; exact ((selectNeighbours_endsIn h.within _ _ ht).of_ub hs).elim

theorem redoPass_ends (ht : t.WF) (l : List (Nat × Neighbours)) (s : CatState K) (redo : Bool) (hk : ∀ kv ∈ l, kv.2.refId = kv.1)
    (h : Tidy cat (l.map (·.1)) s) :
    EndsIn cat (fun r => Tidy cat [] r.1 ∧ r.1.found.length ≤ l.length + s.found.length ∧
      (redo = false → r.2 = true → r.1.found.length < l.length + s.found.length))
      (redoPass g cfg minNumNeigh pop t l s redo) := by
  induction l generalizing s redo with
  | nil => exact .ok ⟨h, by simp, by intro a b; simp_all⟩
  | cons kv l ih =>
    obtain ⟨id, nb⟩ := kv
    have hid : nb.refId = id := hk (id, nb) (by simp)
    have hk' : ∀ kv ∈ l, kv.2.refId = kv.1 := fun kv hkv => hk kv (by simp [hkv])
    have hlen : ∀ nb' : Neighbours, nb'.refId = id → (s.found.insertNew nb'.refId nb').length = s.found.length + 1 := by
      intro nb' e
      have hn := h.nodup
      simp only [List.map_cons, List.cons_append, List.nodup_cons, List.mem_append, not_or] at hn
      unfold AMap.insertNew
      rw [e, AMap.find?_eq_none.2 hn.1.2]
      rfl
    have keep : ∀ (nb' : Neighbours), nb'.refId = id → EndsIn cat (fun r => Tidy cat [] r.1 ∧ r.1.found.length ≤ ((id, nb) :: l).length + s.found.length ∧
      (redo = false → r.2 = true → r.1.found.length < ((id, nb) :: l).length + s.found.length))
      (redoPass g cfg minNumNeigh pop t l { s with found := s.found.insertNew nb'.refId nb' } redo) := by
      intro nb' e
      have := ih { s with found := s.found.insertNew nb'.refId nb' } redo hk' (h.accept e)
      simp only [hlen nb' e] at this
      simp only [List.length_cons]
      rw [show l.length + 1 + s.found.length = l.length + (s.found.length + 1) by omega]
      exact this
    unfold redoPass
    split
    · obtain ⟨event, he, hev⟩ := h.left id (by simp)
      rw [hid, he]
      simp only
      split
      · rename_i nb' hs
        have hr := (selectNeighbours_endsIn h.within _ _ ht).of_ok hs
        split
        · have := ih { s with removed := nb'.refId :: s.removed, valid := s.valid.removeEvent nb'.refId } true hk'
            (by rw [hr, hev]; exact h.reject)
          cases hq : redoPass g cfg minNumNeigh pop t l
              { s with removed := nb'.refId :: s.removed, valid := s.valid.removeEvent nb'.refId } true with
          | ok r =>
            obtain ⟨h1, h2, -⟩ := this.of_ok hq
            simp only at h2
            exact .ok ⟨h1, by simp only [List.length_cons]; omega, fun _ _ => by simp only [List.length_cons]; omega⟩
          | throws => exact this.throws hq
          | ub => exact (this.of_ub hq).elim
        · exact keep nb' (hr.trans hev)
      · rename_i hs; exact (selectNeighbours_endsIn h.within _ _ ht).throws hs
      · rename_i hs; exact ((selectNeighbours_endsIn h.within _ _ ht).of_ub hs).elim
    · exact keep nb hid

theorem redoLoop_ends (ht : t.WF) (order : AMap Nat Neighbours → List (Nat × Neighbours)) (ho : ∀ m, (order m).Perm m) (fuel : Nat)
    (s : CatState K) (hf : s.found.length < fuel) (h : Tidy cat [] s) :
    EndsIn cat (fun _ => True) (redoLoop g cfg minNumNeigh pop t order fuel s) := by
  induction fuel generalizing s with
  | zero => omega
  | succ fuel ih =>
    have hkeys : ((order s.found).map (·.1)).Perm s.found.keys := (ho s.found).map _
    have hp := redoPass_ends (g := g) (cfg := cfg) (minNumNeigh := minNumNeigh) (pop := pop) (t := t) ht (order s.found) { s with found := [] } false
      (fun kv hkv => h.refId kv ((ho s.found).subset hkv))
      ⟨h.within, by simpa [AMap.keys] using hkeys.nodup_iff.2 (by simpa using h.nodup),
       fun id hid => h.left id (by
         simp only [AMap.keys, List.map_nil, List.append_nil] at hid
         simpa using hkeys.subset hid), by simp⟩
    unfold redoLoop
    split
    · rename_i s' hs
      obtain ⟨h1, -, h3⟩ := hp.of_ok hs
      have := h3 rfl rfl
      simp only [(ho s.found).length_eq, List.length_nil] at this
      exact ih s' (by omega) h1
    · exact .ok trivial
    · rename_i hs; exact hp.throws hs
    · rename_i hs; exact (hp.of_ub hs).elim

theorem selectCatalog_ends (ht : t.WF) (hu : cat.events.NodupKeys) (hk : ∀ id e, cat.events.find? id = some e → e.id = id)
    (order : AMap Nat Neighbours → List (Nat × Neighbours)) (ho : ∀ m, (order m).Perm m) :
    EndsIn cat (fun _ => True) (selectCatalog g cfg minNumNeigh pop t order cat) := by
  have hperm : cat.eventsSorted.Perm cat.events := List.perm_insertionSort _ _
  have hmem : ∀ kv ∈ cat.eventsSorted, cat.events.find? kv.1 = some kv.2 := fun kv hkv => AMap.find?_of_mem hu (hperm.subset hkv)
  have h1 := firstPass_ends (g := g) (cfg := cfg) (minNumNeigh := minNumNeigh) (pop := pop) (t := t) ht cat.eventsSorted ⟨cat, [], []⟩
    (fun kv hkv => hk _ _ (hmem kv hkv))
    ⟨⟨rfl, fun _ h => h⟩, by
      have : (cat.eventsSorted.map (·.1)).Nodup := (hperm.map (fun kv : Nat × Event K => kv.1)).nodup_iff.2 hu
      simpa [AMap.keys] using this, by
      intro id hid
      simp only [AMap.keys, List.map_nil, List.append_nil, List.mem_map] at hid
      obtain ⟨kv, hkv, rfl⟩ := hid
      exact ⟨kv.2, hmem kv hkv, hk _ _ (hmem kv hkv)⟩, by simp⟩
  unfold selectCatalog
  split
  · rename_i s hs
    exact redoLoop_ends ht order ho _ s (by omega) (h1.of_ok hs)
  · rename_i hs; exact h1.throws hs
  · rename_i hs; exact (h1.of_ub hs).elim

end Verif.Selection
