import Verif.Spec.SelectionOrder
import Verif.Proofs.CatalogSelection

/-!
# Helper lemmas for C111: two selections with the same data, step by step
-/

set_option linter.unusedSectionVars false
set_option linter.unusedSimpArgs false

namespace Verif.Selection
open Verif.Catalog
variable {K : Type} [Field K] [LinearOrder K] [IsStrictOrderedRing K]

/-! ## lists of neighbours -/

/-- nothing is listed twice and every neighbour has a phase -/
structure Clean (nb : Neighbours) : Prop where
  keys : nb.nbs.NodupKeys
  phases : ∀ id phs, nb.nbs.find? id = some phs → phs.Nodup ∧ phs ≠ []

/-- both are clean and they hold the same -/
structure Rel (nb nb' : Neighbours) : Prop where
  clean : Clean nb
  clean' : Clean nb'
  ref : nb.refId = nb'.refId
  mem : ∀ id sp, sp ∈ nb.phasesOf id ↔ sp ∈ nb'.phasesOf id

theorem clean_empty (id : Nat) : Clean (Neighbours.empty id) :=
  ⟨by simp [Neighbours.empty, AMap.NodupKeys], by simp [Neighbours.empty]⟩

theorem Rel.refl {nb : Neighbours} (h : Clean nb) : Rel nb nb := ⟨h, h, rfl, fun _ _ => Iff.rfl⟩

theorem Rel.symm {nb nb' : Neighbours} (h : Rel nb nb') : Rel nb' nb := ⟨h.clean', h.clean, h.ref.symm, fun i s => (h.mem i s).symm⟩

theorem Rel.trans {a b c : Neighbours} (h : Rel a b) (h' : Rel b c) : Rel a c :=
  ⟨h.clean, h'.clean', h.ref.trans h'.ref, fun i s => (h.mem i s).trans (h'.mem i s)⟩

theorem mem_ids {nb : Neighbours} (h : Clean nb) (id : Nat) : id ∈ nb.ids ↔ ∃ sp, sp ∈ nb.phasesOf id := by
  unfold Neighbours.ids Neighbours.phasesOf
  rw [← AMap.find?_isSome]
  cases hf : nb.nbs.find? id with
  | none => simp
  | some phs => simpa using List.exists_mem_of_ne_nil _ (h.phases id phs hf).2

theorem Rel.mem_ids {nb nb' : Neighbours} (h : Rel nb nb') (id : Nat) : id ∈ nb.ids ↔ id ∈ nb'.ids := by
  rw [Selection.mem_ids h.clean, Selection.mem_ids h.clean']
  simp [h.mem id]

theorem Rel.ids {nb nb' : Neighbours} (h : Rel nb nb') : nb.ids.Perm nb'.ids :=
  (List.perm_ext_iff_of_nodup h.clean.keys h.clean'.keys).2 h.mem_ids

theorem amount_ids (nb : Neighbours) : nb.amount = nb.ids.length := by simp [Neighbours.ids, AMap.keys, Neighbours.amount]

theorem Rel.amount {nb nb' : Neighbours} (h : Rel nb nb') : nb.amount = nb'.amount := by
  rw [amount_ids, amount_ids, h.ids.length_eq]

theorem Clean.nodup {nb : Neighbours} (h : Clean nb) (id : Nat) : (nb.phasesOf id).Nodup := by
  unfold Neighbours.phasesOf
  cases hf : nb.nbs.find? id with
  | none => simp
  | some phs => simpa using (h.phases id phs hf).1

theorem Rel.same {nb nb' : Neighbours} (h : Rel nb nb') : SameNeighbours nb nb' :=
  ⟨h.ref, h.ids, fun id => (List.perm_ext_iff_of_nodup (h.clean.nodup id) (h.clean'.nodup id)).2 (h.mem id)⟩

theorem rel_of_same {nb nb' : Neighbours} (c : Clean nb) (c' : Clean nb') (h : SameNeighbours nb nb') : Rel nb nb' :=
  ⟨c, c', h.ref, fun id _ => (h.phases id).mem_iff⟩

theorem phasesOf_add (nb : Neighbours) (id : Nat) (sp : StaPhase) (id' : Nat) :
    (nb.add id sp).phasesOf id' = if id' = id then Neighbours.insertSet (nb.phasesOf id) sp else nb.phasesOf id' := by
  unfold Neighbours.add Neighbours.phasesOf
  simp only [AMap.find?_set]
  split <;> simp_all

theorem Clean.add {nb : Neighbours} (h : Clean nb) (id : Nat) (sp : StaPhase) : Clean (nb.add id sp) := by
  refine ⟨AMap.nodupKeys_set h.keys _ _, ?_⟩
  intro id' phs hf
  simp only [Neighbours.add, AMap.find?_set] at hf
  split at hf
  · cases hf
    refine ⟨insertSet_nodup (h.nodup id) sp, List.ne_nil_of_mem (mem_insertSet.2 (.inr rfl))⟩
  · exact h.phases id' phs hf

/-- adding several phases of one neighbour -/
def addAll (nb : Neighbours) (id : Nat) (ks : List StaPhase) : Neighbours := ks.foldl (fun nb sp => nb.add id sp) nb

theorem addAll_spec {nb : Neighbours} (h : Clean nb) (id : Nat) (ks : List StaPhase) :
    Clean (addAll nb id ks) ∧ (addAll nb id ks).refId = nb.refId ∧
    ∀ id' sp, sp ∈ (addAll nb id ks).phasesOf id' ↔ sp ∈ nb.phasesOf id' ∨ (id' = id ∧ sp ∈ ks) := by
  induction ks generalizing nb with
  | nil => exact ⟨h, rfl, by simp [addAll]⟩
  | cons k ks ih =>
    obtain ⟨h1, h2, h3⟩ := ih (h.add id k)
    refine ⟨h1, h2, ?_⟩
    intro id' sp
    have := h3 id' sp
    simp only [addAll, List.foldl_cons] at this ⊢
    rw [this, phasesOf_add]
    by_cases hi : id' = id
    · subst hi
      simp only [if_true, mem_insertSet, true_and, List.mem_cons]
      tauto
    · simp [hi]

/-! ## one attempt -/

/-- what an event adds: the phases recorded for it, if the constraints are met -/
def offer (g : Geometry K) (cfg : Config K) (cat : Catalog K) (refEv : Event K) (refCat : Catalog K) (id : Nat) (d : K) :
    Option (List StaPhase) :=
  if id = refEv.id then none
  else match cat.events.find? id with
    | none => none
    | some event =>
      match matchPhases g cfg cat refEv refCat event d (cat.phasesOf event.id) [] with
      | .ok found => if found.length < cfg.minPhase then none else some ((kept cfg found).map (·.2))
      | _ => none

/-- the stations of all picks are known, and events are stored under their number -/
structure Known (cat : Catalog K) : Prop where
  stations : ∀ id, ∀ p ∈ cat.phasesOf id, (cat.stations.find? p.stationId).isSome
  key : ∀ id e, cat.events.find? id = some e → e.id = id

variable {g : Geometry K} {cfg : Config K} {refEv : Event K} {cat refCat cat' refCat' : Catalog K} {t t' : EventTree K}

theorem addNeighbour_offer (hk : Known cat) (nb : Neighbours) (id : Nat) (d : K) :
    addNeighbour g cfg cat refEv refCat nb id d = .ok (match offer g cfg cat refEv refCat id d with
      | none => (nb, false)
      | some ks => (addAll nb id ks, true)) := by
  unfold addNeighbour offer
  by_cases hr : id = refEv.id
  · simp [hr]
  · rw [if_neg hr, if_neg hr]
    cases he : cat.events.find? id with
    | none => rfl
    | some e =>
      obtain ⟨found, hf⟩ := matchPhases_returns (g := g) (cfg := cfg) (refEv := refEv) (refCat := refCat) (event := e) (d := d)
        (cat.phasesOf e.id) (hk.stations e.id) []
      simp only [hf]
      split
      · rfl
      · have : e.id = id := hk.key _ _ he
        simp [this, addAll, kept, List.foldl_map]

/-- both events offer nothing, or the same phases -/
def OfferSame (o o' : Option (List StaPhase)) : Prop :=
  match o, o' with
  | none, none => True
  | some ks, some ks' => ∀ sp, sp ∈ ks ↔ sp ∈ ks'
  | _, _ => False

/-- What relates two selections: on the events of `F` the offers are the same, the second has no others, and the first has
others only with phases. -/
structure Offers (g : Geometry K) (cfg : Config K) (refEv : Event K) (cat refCat cat' refCat' : Catalog K) (F : Nat → Prop) : Prop where
  known : Known cat
  known' : Known cat'
  same : ∀ id d, F id → OfferSame (offer g cfg cat refEv refCat id d) (offer g cfg cat' refEv refCat' id d)
  none : ∀ id d, ¬ F id → offer g cfg cat' refEv refCat' id d = Option.none
  nonempty : ∀ id d ks, ¬ F id → offer g cfg cat refEv refCat id d = some ks → ks ≠ []

variable {F : Nat → Prop}

/-- an attempt never loses a neighbour -/
theorem add_mono (hk : Known cat) {nb nb1 : Neighbours} (hc : Clean nb) {id : Nat} {d : K} {b : Bool}
    (h : addNeighbour g cfg cat refEv refCat nb id d = .ok (nb1, b)) : Clean nb1 ∧ ∀ j ∈ nb.ids, j ∈ nb1.ids := by
  rw [addNeighbour_offer hk] at h
  cases ho : offer g cfg cat refEv refCat id d with
  | none =>
    simp only [ho, Outcome.ok.injEq, Prod.mk.injEq] at h
    rw [← h.1]; exact ⟨hc, fun j hj => hj⟩
  | some ks =>
    simp only [ho, Outcome.ok.injEq, Prod.mk.injEq] at h
    rw [← h.1]
    obtain ⟨h1, h2, h3⟩ := addAll_spec hc id ks
    refine ⟨h1, fun j hj => ?_⟩
    rw [mem_ids hc] at hj
    rw [mem_ids h1]
    obtain ⟨sp, hsp⟩ := hj
    exact ⟨sp, (h3 j sp).2 (.inl hsp)⟩

theorem add_sim (o : Offers g cfg refEv cat refCat cat' refCat' F) {nb nb' nb1 : Neighbours} (hr : Rel nb nb') {id : Nat} {d : K}
    {b : Bool} (h : addNeighbour g cfg cat refEv refCat nb id d = .ok (nb1, b)) (hF : ∀ j ∈ nb1.ids, F j) :
    ∃ nb1', addNeighbour g cfg cat' refEv refCat' nb' id d = .ok (nb1', b) ∧ Rel nb1 nb1' := by
  rw [addNeighbour_offer o.known] at h
  rw [addNeighbour_offer o.known']
  by_cases hid : F id
  · have hs := o.same id d hid
    cases ho : offer g cfg cat refEv refCat id d with
    | none =>
      cases ho' : offer g cfg cat' refEv refCat' id d with
      | none =>
        simp only [ho, Outcome.ok.injEq, Prod.mk.injEq] at h
        obtain ⟨rfl, rfl⟩ := h
        exact ⟨nb', rfl, hr⟩
      | some ks' => rw [ho, ho'] at hs; exact absurd hs (by simp [OfferSame])
    | some ks =>
      cases ho' : offer g cfg cat' refEv refCat' id d with
      | none => rw [ho, ho'] at hs; exact absurd hs (by simp [OfferSame])
      | some ks' =>
        rw [ho, ho'] at hs
        simp only [ho, Outcome.ok.injEq, Prod.mk.injEq] at h
        obtain ⟨rfl, rfl⟩ := h
        refine ⟨_, rfl, ?_⟩
        obtain ⟨a1, a2, a3⟩ := addAll_spec hr.clean id ks
        obtain ⟨b1, b2, b3⟩ := addAll_spec hr.clean' id ks'
        refine ⟨a1, b1, by rw [a2, b2, hr.ref], fun id' sp => ?_⟩
        rw [a3, b3, hr.mem, hs sp]
  · rw [o.none id d hid]
    cases ho : offer g cfg cat refEv refCat id d with
    | none =>
      simp only [ho, Outcome.ok.injEq, Prod.mk.injEq] at h
      obtain ⟨rfl, rfl⟩ := h
      exact ⟨nb', rfl, hr⟩
    | some ks =>
      simp only [ho, Outcome.ok.injEq, Prod.mk.injEq] at h
      obtain ⟨rfl, rfl⟩ := h
      exfalso
      obtain ⟨a1, a2, a3⟩ := addAll_spec hr.clean id ks
      obtain ⟨sp, hsp⟩ := List.exists_mem_of_ne_nil _ (o.nonempty id d ks hid ho)
      exact hid (hF id ((mem_ids a1 id).2 ⟨sp, (a3 id sp).2 (.inr ⟨rfl, hsp⟩)⟩))

/-! ## the searches -/

/-- the same event at the same distance -/
def SameEntry (t t' : EventTree K) (x x' : K × Nat) : Prop := x.1 = x'.1 ∧ t.pt x.2 = t'.pt x'.2 ∧ t.data x.2 = t'.data x'.2

theorem deliver_mono (hk : Known cat) (E : List (K × Nat)) {nb nb1 : Neighbours} (hc : Clean nb)
    (h : KdTree.deliver (nearestVisit g cfg cat refEv refCat t) E (.ok nb) = .ok nb1) : Clean nb1 ∧ ∀ j ∈ nb.ids, j ∈ nb1.ids := by
  induction E generalizing nb with
  | nil =>
    simp only [KdTree.deliver, Outcome.ok.injEq] at h
    subst h; exact ⟨hc, fun _ h => h⟩
  | cons x E ih =>
    obtain ⟨d, i⟩ := x
    simp only [KdTree.deliver] at h
    by_cases hd : cfg.maxNeighbourDist < d
    · simp only [nearestVisit, hd, if_true, Outcome.ok.injEq] at h
      subst h; exact ⟨hc, fun _ h => h⟩
    · cases ha : addNeighbour g cfg cat refEv refCat nb (t.data i) d with
      | throws => simp [nearestVisit, hd, ha] at h
      | ub => simp [nearestVisit, hd, ha] at h
      | ok r =>
        obtain ⟨nb2, b⟩ := r
        obtain ⟨c2, m2⟩ := add_mono hk hc ha
        simp only [nearestVisit, hd, ha, if_false] at h
        split at h
        · simp only [Outcome.ok.injEq] at h
          subst h; exact ⟨c2, m2⟩
        · obtain ⟨c3, m3⟩ := ih c2 h
          exact ⟨c3, fun j hj => m3 j (m2 j hj)⟩

theorem deliver_sim (o : Offers g cfg refEv cat refCat cat' refCat' F) {E E' : List (K × Nat)} (hE : List.Forall₂ (SameEntry t t') E E')
    {nb nb' nb1 : Neighbours} (hr : Rel nb nb')
    (h : KdTree.deliver (nearestVisit g cfg cat refEv refCat t) E (.ok nb) = .ok nb1) (hF : ∀ j ∈ nb1.ids, F j) :
    ∃ nb1', KdTree.deliver (nearestVisit g cfg cat' refEv refCat' t') E' (.ok nb') = .ok nb1' ∧ Rel nb1 nb1' := by
  induction hE generalizing nb nb' with
  | nil =>
    simp only [KdTree.deliver, Outcome.ok.injEq] at h
    subst h; exact ⟨nb', rfl, hr⟩
  | @cons x x' E E' hx hE ih =>
    obtain ⟨d, i⟩ := x
    obtain ⟨d', i'⟩ := x'
    obtain ⟨h1, h2, h3⟩ := hx
    simp only at h1 h2 h3
    subst h1
    simp only [KdTree.deliver] at h ⊢
    by_cases hd : cfg.maxNeighbourDist < d
    · simp only [nearestVisit, hd, if_true, Outcome.ok.injEq] at h ⊢
      subst h; exact ⟨nb', rfl, hr⟩
    · cases ha : addNeighbour g cfg cat refEv refCat nb (t.data i) d with
      | throws => simp [nearestVisit, hd, ha] at h
      | ub => simp [nearestVisit, hd, ha] at h
      | ok r =>
        obtain ⟨nb2, b⟩ := r
        obtain ⟨c2, m2⟩ := add_mono o.known hr.clean ha
        simp only [nearestVisit, hd, ha, if_false] at h ⊢
        have hF2 : ∀ j ∈ nb2.ids, F j := by
          intro j hj
          split at h
          · simp only [Outcome.ok.injEq] at h
            subst h; exact hF j hj
          · exact hF j ((deliver_mono o.known E c2 h).2 j hj)
        obtain ⟨nb2', ha', hr2⟩ := add_sim o hr ha hF2
        rw [h3] at ha'
        simp only [ha', ← hr2.amount]
        split at h
        · rename_i hs
          simp only [Outcome.ok.injEq] at h
          subst h
          rw [if_pos hs]
          exact ⟨nb2', rfl, hr2⟩
        · rename_i hs
          rw [if_neg hs]
          exact ih hr2 h

theorem scanCell_mono (hk : Known cat) (c : (K × K) × Nat) (pts : List (K × Nat)) {nb : Neighbours} (hc : Clean nb)
    {r : List (K × Nat) × Neighbours × Bool} (h : scanCell g cfg cat refEv refCat t c pts nb = .ok r) :
    Clean r.2.1 ∧ ∀ j ∈ nb.ids, j ∈ r.2.1.ids := by
  induction pts generalizing nb r with
  | nil =>
    simp only [scanCell, Outcome.ok.injEq] at h
    subst h; exact ⟨hc, fun _ h => h⟩
  | cons x pts ih =>
    obtain ⟨d, i⟩ := x
    simp only [scanCell] at h
    split at h
    · cases ha : addNeighbour g cfg cat refEv refCat nb (t.data i) d with
      | throws => simp [ha] at h
      | ub => simp [ha] at h
      | ok q =>
        obtain ⟨nb2, b⟩ := q
        obtain ⟨c2, m2⟩ := add_mono hk hc ha
        cases b with
        | true =>
          simp only [ha, Outcome.ok.injEq] at h
          subst h; exact ⟨c2, m2⟩
        | false =>
          simp only [ha] at h
          cases hs : scanCell g cfg cat refEv refCat t c pts nb2 with
          | throws => simp [hs] at h
          | ub => simp [hs] at h
          | ok q =>
            obtain ⟨c3, m3⟩ := ih c2 hs
            simp only [hs, Outcome.ok.injEq] at h
            subst h
            exact ⟨c3, fun j hj => m3 j (m2 j hj)⟩
    · cases hs : scanCell g cfg cat refEv refCat t c pts nb with
      | throws => simp [hs] at h
      | ub => simp [hs] at h
      | ok q =>
        obtain ⟨c3, m3⟩ := ih hc hs
        simp only [hs, Outcome.ok.injEq] at h
        subst h
        exact ⟨c3, m3⟩

theorem scanCell_sim (o : Offers g cfg refEv cat refCat cat' refCat' F) (c : (K × K) × Nat) {pts pts' : List (K × Nat)}
    (hE : List.Forall₂ (SameEntry t t') pts pts') {nb nb' : Neighbours} (hr : Rel nb nb')
    {r : List (K × Nat) × Neighbours × Bool} (h : scanCell g cfg cat refEv refCat t c pts nb = .ok r) (hF : ∀ j ∈ r.2.1.ids, F j) :
    ∃ r', scanCell g cfg cat' refEv refCat' t' c pts' nb' = .ok r' ∧ List.Forall₂ (SameEntry t t') r.1 r'.1 ∧ Rel r.2.1 r'.2.1 ∧
      r.2.2 = r'.2.2 := by
  induction hE generalizing nb nb' r with
  | nil =>
    simp only [scanCell, Outcome.ok.injEq] at h
    subst h; exact ⟨_, rfl, .nil, hr, rfl⟩
  | @cons x x' pts pts' hx hE ih =>
    obtain ⟨d, i⟩ := x
    obtain ⟨d', i'⟩ := x'
    have hx' := hx
    obtain ⟨h1, h2, h3⟩ := hx
    simp only at h1 h2 h3
    subst h1
    simp only [scanCell] at h ⊢
    rw [← h2, ← h3]
    split at h
    · rename_i hm
      rw [if_pos hm]
      cases ha : addNeighbour g cfg cat refEv refCat nb (t.data i) d with
      | throws => simp [ha] at h
      | ub => simp [ha] at h
      | ok q =>
        obtain ⟨nb2, b⟩ := q
        obtain ⟨c2, m2⟩ := add_mono o.known hr.clean ha
        cases b with
        | true =>
          simp only [ha, Outcome.ok.injEq] at h
          subst h
          obtain ⟨nb2', ha', hr2⟩ := add_sim o hr ha hF
          simp only [ha']
          exact ⟨_, rfl, hE, hr2, rfl⟩
        | false =>
          simp only [ha] at h
          cases hs : scanCell g cfg cat refEv refCat t c pts nb2 with
          | throws => simp [hs] at h
          | ub => simp [hs] at h
          | ok q =>
            simp only [hs, Outcome.ok.injEq] at h
            subst h
            obtain ⟨c3, m3⟩ := scanCell_mono o.known c pts c2 hs
            obtain ⟨nb2', ha', hr2⟩ := add_sim o hr ha (fun j hj => hF j (m3 j hj))
            obtain ⟨r', e1, e2, e3, e4⟩ := ih hr2 hs hF
            simp only [ha', e1]
            exact ⟨_, rfl, e2, e3, rfl⟩
    · rename_i hm
      rw [if_neg hm]
      cases hs : scanCell g cfg cat refEv refCat t c pts nb with
      | throws => simp [hs] at h
      | ub => simp [hs] at h
      | ok q =>
        simp only [hs, Outcome.ok.injEq] at h
        subst h
        obtain ⟨r', e1, e2, e3, e4⟩ := ih hr hs hF
        simp only [e1]
        exact ⟨_, rfl, .cons hx' e2, e3, e4⟩

theorem sweep_mono (hk : Known cat) (cs : List ((K × K) × Nat)) (pts : List (K × Nat)) {nb : Neighbours} (hc : Clean nb) {m : Bool}
    {r : List (K × Nat) × Neighbours × Bool × Bool} (h : sweep g cfg cat refEv refCat t cs pts nb m = .ok r) :
    Clean r.2.1 ∧ ∀ j ∈ nb.ids, j ∈ r.2.1.ids := by
  induction cs generalizing pts nb m with
  | nil =>
    simp only [sweep, Outcome.ok.injEq] at h
    subst h; exact ⟨hc, fun _ h => h⟩
  | cons c cs ih =>
    simp only [sweep] at h
    cases hs : scanCell g cfg cat refEv refCat t c pts nb with
    | throws => simp [hs] at h
    | ub => simp [hs] at h
    | ok q =>
      obtain ⟨pts2, nb2, m2⟩ := q
      obtain ⟨c3, m3⟩ := scanCell_mono hk c pts hc hs
      simp only [hs] at h
      split at h
      · simp only [Outcome.ok.injEq] at h
        subst h; exact ⟨c3, m3⟩
      · obtain ⟨c4, m4⟩ := ih pts2 c3 h
        exact ⟨c4, fun j hj => m4 j (m3 j hj)⟩

theorem forall₂_nil {α β : Type} {R : α → β → Prop} {l : List α} {l' : List β} (h : List.Forall₂ R l l') : l = [] ↔ l' = [] := by
  cases h <;> simp

theorem sweep_sim (o : Offers g cfg refEv cat refCat cat' refCat' F) (cs : List ((K × K) × Nat)) {pts pts' : List (K × Nat)}
    (hE : List.Forall₂ (SameEntry t t') pts pts') {nb nb' : Neighbours} (hr : Rel nb nb') {m : Bool}
    {r : List (K × Nat) × Neighbours × Bool × Bool} (h : sweep g cfg cat refEv refCat t cs pts nb m = .ok r)
    (hF : ∀ j ∈ r.2.1.ids, F j) :
    ∃ r', sweep g cfg cat' refEv refCat' t' cs pts' nb' m = .ok r' ∧ List.Forall₂ (SameEntry t t') r.1 r'.1 ∧ Rel r.2.1 r'.2.1 ∧
      r.2.2 = r'.2.2 := by
  induction cs generalizing pts pts' nb nb' m with
  | nil =>
    simp only [sweep, Outcome.ok.injEq] at h
    subst h; exact ⟨_, rfl, hE, hr, rfl⟩
  | cons c cs ih =>
    simp only [sweep] at h ⊢
    cases hs : scanCell g cfg cat refEv refCat t c pts nb with
    | throws => simp [hs] at h
    | ub => simp [hs] at h
    | ok q =>
      obtain ⟨pts2, nb2, m2⟩ := q
      obtain ⟨c3, m3⟩ := scanCell_mono o.known c pts hr.clean hs
      simp only [hs] at h
      have hF2 : ∀ j ∈ nb2.ids, F j := by
        intro j hj
        split at h
        · simp only [Outcome.ok.injEq] at h
          subst h; exact hF j hj
        · exact hF j ((sweep_mono o.known cs pts2 c3 h).2 j hj)
      obtain ⟨⟨pts2', nb2', m2'⟩, e1, e2, e3, e4⟩ := scanCell_sim o c hE hr hs hF2
      simp only at e2 e3 e4
      subst e4
      simp only [e1, ← e3.amount, ← forall₂_nil e2]
      split at h
      · rename_i hc
        rw [if_pos hc]
        simp only [Outcome.ok.injEq] at h
        subst h
        exact ⟨_, rfl, e2, e3, rfl⟩
      · rename_i hc
        rw [if_neg hc]
        exact ih e2 e3 h

theorem rounds_mono (hk : Known cat) (cs : List ((K × K) × Nat)) (fuel : Nat) (pts : List (K × Nat)) {nb : Neighbours} (hc : Clean nb)
    {r : Neighbours × RoundEnd K} (h : rounds g cfg cat refEv refCat t cs fuel pts nb = .ok r) :
    Clean r.1 ∧ ∀ j ∈ nb.ids, j ∈ r.1.ids := by
  induction fuel generalizing pts nb with
  | zero =>
    simp only [rounds, Outcome.ok.injEq] at h
    subst h; exact ⟨hc, fun _ h => h⟩
  | succ fuel ih =>
    simp only [rounds] at h
    cases hs : sweep g cfg cat refEv refCat t cs pts nb false with
    | throws => simp [hs] at h
    | ub => simp [hs] at h
    | ok q =>
      obtain ⟨pts2, nb2, m2, go⟩ := q
      obtain ⟨c3, m3⟩ := sweep_mono hk cs pts hc hs
      simp only [hs] at h
      cases go with
      | false =>
        simp only [Outcome.ok.injEq] at h
        subst h; exact ⟨c3, m3⟩
      | true =>
        cases m2 with
        | false =>
          simp only [Outcome.ok.injEq] at h
          subst h; exact ⟨c3, m3⟩
        | true =>
          obtain ⟨c4, m4⟩ := ih pts2 c3 h
          exact ⟨c4, fun j hj => m4 j (m3 j hj)⟩

theorem rounds_sim (o : Offers g cfg refEv cat refCat cat' refCat' F) (cs : List ((K × K) × Nat)) (fuel : Nat) {pts pts' : List (K × Nat)}
    (hE : List.Forall₂ (SameEntry t t') pts pts') {nb nb' : Neighbours} (hr : Rel nb nb')
    {r : Neighbours × RoundEnd K} (h : rounds g cfg cat refEv refCat t cs fuel pts nb = .ok r) (hF : ∀ j ∈ r.1.ids, F j) :
    ∃ r', rounds g cfg cat' refEv refCat' t' cs fuel pts' nb' = .ok r' ∧ Rel r.1 r'.1 := by
  induction fuel generalizing pts pts' nb nb' with
  | zero =>
    simp only [rounds, Outcome.ok.injEq] at h
    subst h; exact ⟨_, rfl, hr⟩
  | succ fuel ih =>
    simp only [rounds] at h ⊢
    cases hs : sweep g cfg cat refEv refCat t cs pts nb false with
    | throws => simp [hs] at h
    | ub => simp [hs] at h
    | ok q =>
      obtain ⟨pts2, nb2, m2, go⟩ := q
      obtain ⟨c3, m3⟩ := sweep_mono o.known cs pts hr.clean hs
      simp only [hs] at h
      have hF2 : ∀ j ∈ nb2.ids, F j := by
        intro j hj
        cases go with
        | false =>
          simp only [Outcome.ok.injEq] at h
          subst h; exact hF j hj
        | true =>
          cases m2 with
          | false =>
            simp only [Outcome.ok.injEq] at h
            subst h; exact hF j hj
          | true => exact hF j ((rounds_mono o.known cs fuel pts2 c3 h).2 j hj)
      obtain ⟨⟨pts2', nb2', m2', go'⟩, e1, e2, e3, e4⟩ := sweep_sim o cs hE hr hs hF2
      simp only [Prod.mk.injEq] at e2 e3 e4
      obtain ⟨rfl, rfl⟩ := e4
      simp only [e1]
      cases go with
      | false =>
        simp only [Outcome.ok.injEq] at h
        subst h
        exact ⟨_, rfl, e3⟩
      | true =>
        cases m2 with
        | false =>
          simp only [Outcome.ok.injEq] at h
          subst h
          exact ⟨_, rfl, e3⟩
        | true => exact ih e2 e3 h

/-! ## one selection -/

theorem bestFirst_order (pop : KdTree.Pop K) (refEv : Event K) (A : Prop) (ht : t.WF)
    (hA : A → KdTree.Admissible g.dist g.axisDist (eventPt refEv) (t.points.map (·.1)) ∧
      ∀ x ∈ t.points, 0 ≤ g.dist x.1 (eventPt refEv)) :
    ∃ E, E.Perm (KdTree.withDist t.pt g.dist (eventPt refEv) (KdTree.contents t.tree)) ∧ (A → KdTree.Sorted E) ∧
      ∀ (cfg : Config K) (cat refCat : Catalog K), nearest g cfg cat refEv refCat pop t =
        KdTree.deliver (nearestVisit g cfg cat refEv refCat t) E (.ok (Neighbours.empty refEv.id)) := by
  obtain ⟨E, e1, e2, e3⟩ := KdTree.bestFirst_spec (pt := t.pt) (dist := g.dist) (axisDist := g.axisDist)
    (q := eventPt refEv) A pop 0 t.tree (by
      intro a
      obtain ⟨h1, h2⟩ := hA a
      refine ⟨⟨0, ht.ordered⟩, ?_, ?_⟩
      · unfold KdTree.AdmTree
        refine h1.mono ?_
        intro p hp
        obtain ⟨i, hi, rfl⟩ := List.mem_map.1 hp
        exact List.mem_map.2 ⟨_, pt_of_wf (List.mem_range.1 (ht.indices.subset hi)), rfl⟩
      · intro i hi
        exact h2 _ (pt_of_wf (List.mem_range.1 (ht.indices.subset hi))))
  refine ⟨E, e1, e2, ?_⟩
  intro cfg cat refCat
  unfold nearest
  rw [e3]

theorem sameEntry_refl (l : List (K × Nat)) : List.Forall₂ (SameEntry t t) l l :=
  List.forall₂_same.2 (fun _ _ => ⟨rfl, rfl, rfl⟩)

/-- the neighbours of a selection are clean -/
theorem select_clean (hk : Known cat) (ht : t.WF) {pop : KdTree.Pop K} {nb : Neighbours}
    (h : selectNeighbours g cfg cat refEv refCat pop t = .ok nb) : Clean nb := by
  unfold selectNeighbours at h
  simp only at h
  generalize (if cfg.maxNumNeigh = 0 then 0 else cfg.numEllipsoids) = n at h
  split at h
  · obtain ⟨E, -, -, hE⟩ := bestFirst_order (g := g) (t := t) pop refEv False ht (by simp)
    rw [hE] at h
    exact (deliver_mono hk E (clean_empty _) h).1
  · cases he : ellipsoids g cfg cat refEv refCat t with
    | throws => simp [he, Outcome.map] at h
    | ub => simp [he, Outcome.map] at h
    | ok r =>
      simp only [he, Outcome.map, Outcome.ok.injEq] at h
      subst h
      unfold ellipsoids at he
      simp only at he
      split at he
      · simp only [Outcome.ok.injEq] at he
        subst he
        exact clean_empty _
      · exact (rounds_mono hk _ _ _ (clean_empty _) he).1

/-- the same index: events that are not selected can be taken away -/
theorem select_sim (o : Offers g cfg refEv cat refCat cat' refCat' F) (ht : t.WF) {pop : KdTree.Pop K} {nb : Neighbours}
    (h : selectNeighbours g cfg cat refEv refCat pop t = .ok nb) (hF : ∀ j ∈ nb.ids, F j) :
    ∃ nb', selectNeighbours g cfg cat' refEv refCat' pop t = .ok nb' ∧ Rel nb nb' := by
  unfold selectNeighbours at h ⊢
  simp only at h ⊢
  generalize (if cfg.maxNumNeigh = 0 then 0 else cfg.numEllipsoids) = n at h ⊢
  split at h
  · rename_i hm
    rw [if_pos hm]
    obtain ⟨E, -, -, hE⟩ := bestFirst_order (g := g) (t := t) pop refEv False ht (by simp)
    rw [hE] at h ⊢
    exact deliver_sim o (sameEntry_refl E) (Rel.refl (clean_empty _)) h hF
  · rename_i hm
    rw [if_neg hm]
    cases he : ellipsoids g cfg cat refEv refCat t with
    | throws => simp [he, Outcome.map] at h
    | ub => simp [he, Outcome.map] at h
    | ok r =>
      simp only [he, Outcome.map, Outcome.ok.injEq] at h
      subst h
      unfold ellipsoids at he ⊢
      simp only at he ⊢
      split at he
      · rename_i hc
        simp only [Outcome.ok.injEq] at he
        subst he
        rw [if_pos hc]
        exact ⟨_, rfl, Rel.refl (clean_empty _)⟩
      · rename_i hc
        rw [if_neg hc]
        obtain ⟨r', e1, e2⟩ := rounds_sim o _ _ (sameEntry_refl _) (Rel.refl (clean_empty _)) he hF
        exact ⟨r'.1, by simp [e1, Outcome.map], e2⟩

theorem tryAll_offer (hk : Known cat) (T : List (K × Nat)) {nb nb1 : Neighbours} (hc : Clean nb)
    (h : tryAll g cfg cat refEv refCat t T nb = .ok nb1) :
    Clean nb1 ∧ nb1.refId = nb.refId ∧ ∀ id sp, sp ∈ nb1.phasesOf id ↔ sp ∈ nb.phasesOf id ∨
      ∃ x ∈ T, t.data x.2 = id ∧ ∃ ks, offer g cfg cat refEv refCat id x.1 = some ks ∧ sp ∈ ks := by
  induction T generalizing nb with
  | nil =>
    simp only [tryAll, Outcome.ok.injEq] at h
    subst h; exact ⟨hc, rfl, by simp⟩
  | cons x T ih =>
    obtain ⟨d, i⟩ := x
    simp only [tryAll, addNeighbour_offer hk] at h
    cases ho : offer g cfg cat refEv refCat (t.data i) d with
    | none =>
      simp only [ho] at h
      obtain ⟨a1, a2, a3⟩ := ih hc h
      refine ⟨a1, a2, fun id sp => ?_⟩
      rw [a3]
      constructor
      · rintro (h | ⟨x, hx, h⟩)
        · exact .inl h
        · exact .inr ⟨x, List.mem_cons_of_mem _ hx, h⟩
      · rintro (h | ⟨x, hx, h1, ks, h2, h3⟩)
        · exact .inl h
        · rcases List.mem_cons.1 hx with rfl | hx
          · simp only at h1 h2
            subst h1
            rw [ho] at h2; cases h2
          · exact .inr ⟨x, hx, h1, ks, h2, h3⟩
    | some ks0 =>
      simp only [ho] at h
      obtain ⟨b1, b2, b3⟩ := addAll_spec hc (t.data i) ks0
      obtain ⟨a1, a2, a3⟩ := ih b1 h
      refine ⟨a1, a2.trans b2, fun id sp => ?_⟩
      rw [a3, b3]
      constructor
      · rintro ((h | ⟨rfl, h⟩) | ⟨x, hx, h⟩)
        · exact .inl h
        · exact .inr ⟨(d, i), List.mem_cons_self .., rfl, ks0, ho, h⟩
        · exact .inr ⟨x, List.mem_cons_of_mem _ hx, h⟩
      · rintro (h | ⟨x, hx, h1, ks, h2, h3⟩)
        · exact .inl (.inl h)
        · rcases List.mem_cons.1 hx with rfl | hx
          · simp only at h1 h2
            subst h1
            rw [ho] at h2
            cases h2
            exact .inl (.inr ⟨rfl, h3⟩)
          · exact .inr ⟨x, hx, h1, ks, h2, h3⟩

/-- the neighbours of the second are among those the first has tried -/
theorem amount_le (o : Offers g cfg refEv cat refCat cat' refCat' F) {T T' : List (K × Nat)} {nb nb' : Neighbours}
    (h : tryAll g cfg cat refEv refCat t T (Neighbours.empty refEv.id) = .ok nb)
    (h' : tryAll g cfg cat' refEv refCat' t T' (Neighbours.empty refEv.id) = .ok nb') (hT : ∀ x ∈ T', x ∈ T) :
    nb'.amount ≤ nb.amount := by
  obtain ⟨a1, a2, a3⟩ := tryAll_offer o.known T (clean_empty _) h
  obtain ⟨b1, b2, b3⟩ := tryAll_offer o.known' T' (clean_empty _) h'
  rw [amount_ids, amount_ids]
  refine (List.subperm_of_subset b1.keys ?_).length_le
  intro id hid
  obtain ⟨sp, hsp⟩ := (mem_ids b1 id).1 hid
  rw [b3] at hsp
  rcases hsp with hsp | ⟨x, hx, h1, ks, h2, h3⟩
  · simp [Neighbours.empty, Neighbours.phasesOf] at hsp
  · have hf : F id := by
      by_contra hf
      rw [o.none id x.1 hf] at h2; cases h2
    have hs := o.same id x.1 hf
    rw [h2] at hs
    cases ho : offer g cfg cat refEv refCat id x.1 with
    | none => rw [ho] at hs; exact absurd hs (by simp [OfferSame])
    | some ks0 =>
      rw [ho] at hs
      exact (mem_ids a1 id).2 ⟨sp, (a3 id sp).2 (.inr ⟨x, hT x hx, h1, ks0, ho, (hs sp).2 h3⟩)⟩

/-- with fewer events there are not more neighbours -/
theorem select_mono (o : Offers g cfg refEv cat refCat cat' refCat' F) (ht : t.WF) {pop : KdTree.Pop K} {nb nb' : Neighbours}
    (h : selectNeighbours g cfg cat refEv refCat pop t = .ok nb)
    (h' : selectNeighbours g cfg cat' refEv refCat' pop t = .ok nb') : nb'.amount ≤ nb.amount := by
  unfold selectNeighbours at h h'
  simp only at h h'
  generalize (if cfg.maxNumNeigh = 0 then 0 else cfg.numEllipsoids) = n at h h'
  split at h
  · rename_i hm
    rw [if_pos hm] at h'
    obtain ⟨E, hp, -, hE⟩ := bestFirst_order (g := g) (t := t) pop refEv False ht (by simp)
    rw [hE] at h h'
    have hnd : (E.map (fun x => t.data x.2)).Nodup := by
      rw [(hp.map _).nodup_iff]
      unfold KdTree.withDist
      rw [List.map_map]
      exact ids_nodup ht
    have hn : (Neighbours.empty refEv.id).nbs.NodupKeys := (clean_empty _).keys
    obtain ⟨T, rest, a1, a2, a3, a4, a5⟩ := nearest_deliver o.known.key E hn hnd (by simp [Neighbours.empty])
      (by simp [Neighbours.empty, Neighbours.amount]) h
    obtain ⟨T', rest', b1, b2, b3, b4, b5⟩ := nearest_deliver o.known'.key E hn hnd (by simp [Neighbours.empty])
      (by simp [Neighbours.empty, Neighbours.amount]) h'
    rcases a5 with a5 | ⟨x, r, a5, a6⟩ | ⟨a5, a6⟩
    · subst a5
      rw [List.append_nil] at a1
      exact amount_le o a2 b2 (fun x hx => by rw [← a1, b1]; exact List.mem_append_left _ hx)
    · apply amount_le o a2 b2
      rcases List.append_eq_append_iff.1 (a1.symm.trans b1) with ⟨l, c1, c2⟩ | ⟨l, c1, c2⟩
      · cases l with
        | nil => rw [c1]; simp
        | cons y l =>
          rw [a5] at c2
          simp only [List.cons_append, List.cons.injEq] at c2
          have := b3 y (by rw [c1]; simp)
          rw [← c2.1] at this
          exact absurd a6 (not_lt.2 this)
      · intro y hy; rw [c1]; exact List.mem_append_left _ hy
    · rw [a6]; exact b4 a5
  · rename_i hm
    rw [if_neg hm] at h'
    cases he : ellipsoids g cfg cat refEv refCat t with
    | throws => simp [he, Outcome.map] at h
    | ub => simp [he, Outcome.map] at h
    | ok r =>
      cases he' : ellipsoids g cfg cat' refEv refCat' t with
      | throws => simp [he', Outcome.map] at h'
      | ub => simp [he', Outcome.map] at h'
      | ok r' =>
        simp only [he, Outcome.map, Outcome.ok.injEq] at h
        simp only [he', Outcome.map, Outcome.ok.injEq] at h'
        subst h h'
        obtain ⟨T, R, a1, a2, a3, a4, a5⟩ := ellipsoids_spec o.known.key ht he
        obtain ⟨T', R', b1, b2, b3, b4, b5⟩ := ellipsoids_spec o.known'.key ht he'
        have hsub : ∀ x ∈ T', x ∈ T ∨ x ∈ R := fun x hx =>
          List.mem_append.1 (a2.symm.subset (b2.subset (List.mem_append_left _ hx)))
        rcases a5 with ⟨-, hR | ⟨hR, hR'⟩⟩ | ⟨-, -, hR⟩
        · apply amount_le o a1 b1
          intro x hx
          rcases hsub x hx with h | h
          · exact h
          · rw [hR] at h; cases h
        · rw [hR']; exact b3 hR
        · apply amount_le o a1 b1
          intro x hx
          rcases hsub x hx with h | h
          · exact h
          · obtain ⟨c, hc, hm⟩ := b4 x hx
            rw [hR c hc x h] at hm; cases hm

/-! ## the same data in another order -/

theorem searchPhase_perm {c c' : Catalog K} {id : Nat} (hp : (c.phasesOf id).Perm (c'.phasesOf id)) (hu : UniquePhases c id)
    (sp : StaPhase) : searchPhase c id sp = searchPhase c' id sp := by
  have hu' : UniquePhases c' id := by
    unfold UniquePhases at hu ⊢
    exact (hp.map _).nodup_iff.1 hu
  cases h : searchPhase c id sp with
  | none =>
    symm
    unfold searchPhase at h ⊢
    rw [List.find?_eq_none] at h ⊢
    exact fun p hm => h p (hp.symm.subset hm)
  | some p =>
    obtain ⟨h1, h2, h3⟩ := searchPhase_some h
    cases h' : searchPhase c' id sp with
    | none =>
      unfold searchPhase at h'
      rw [List.find?_eq_none] at h'
      exact absurd (by simp [h2, h3]) (h' p (hp.subset h1))
    | some q =>
      obtain ⟨k1, k2, k3⟩ := searchPhase_some h'
      rw [nodup_map_inj hu h1 (hp.symm.subset k1) (by rw [h2, h3, k2, k3])]

theorem entry_same {d : K} {event : Event K} (hs : ∀ s, cat.stations.find? s = cat'.stations.find? s)
    (hr : ∀ sp, searchPhase refCat refEv.id sp = searchPhase refCat' refEv.id sp) (p : Phase K) :
    matchPhase g cfg cat refEv refCat event d p = matchPhase g cfg cat' refEv refCat' event d p := by
  unfold matchPhase
  rw [hs]
  cases cat'.stations.find? p.stationId with
  | none => rfl
  | some s => simp only [hr]

/-- the same events, with the same picks, and stations -/
structure Alike (c c' : Catalog K) : Prop where
  events : ∀ id, c.events.find? id = c'.events.find? id
  stations : ∀ s, c.stations.find? s = c'.stations.find? s
  phases : ∀ id, (c.events.find? id).isSome → (c.phasesOf id).Perm (c'.phasesOf id)

theorem SameData.alike {c c' : Catalog K} (h : SameData c c') : Alike c c' := ⟨h.events, h.stations, fun id _ => h.phases id⟩

theorem offer_same (hc : Alike cat cat') (hr : (refCat.phasesOf refEv.id).Perm (refCat'.phasesOf refEv.id)) (hk : Known cat) (hk' : Known cat')
    (hu : UniquePhases refCat refEv.id) {id : Nat} (hd : (cat.events.find? id).isSome → PhasesDecided g cfg cat refEv id) (d : K) :
    OfferSame (offer g cfg cat refEv refCat id d) (offer g cfg cat' refEv refCat' id d) := by
  unfold offer
  by_cases hi : id = refEv.id
  · simp [hi, OfferSame]
  rw [if_neg hi, if_neg hi, ← hc.events]
  cases he : cat.events.find? id with
  | none => simp [OfferSame]
  | some e =>
    have hid : e.id = id := hk.key _ _ he
    have hd := hd (by rw [he]; rfl)
    simp only [hid]
    obtain ⟨found, hf⟩ := matchPhases_returns (g := g) (cfg := cfg) (refEv := refEv) (refCat := refCat) (event := e) (d := d)
      (cat.phasesOf id) (hk.stations id) []
    obtain ⟨found', hf'⟩ := matchPhases_returns (g := g) (cfg := cfg) (refEv := refEv) (refCat := refCat') (event := e) (d := d)
      (cat'.phasesOf id) (hk'.stations id) []
    simp only [hf, hf']
    obtain ⟨s1, p1⟩ := matchPhases_spec _ [] found List.Pairwise.nil hf
    obtain ⟨s2, p2⟩ := matchPhases_spec _ [] found' List.Pairwise.nil hf'
    simp only [List.nil_append] at p1 p2
    have hent : entry g cfg cat refEv refCat e d = entry g cfg cat' refEv refCat' e d := by
      funext p
      unfold entry
      rw [entry_same hc.stations (searchPhase_perm hr hu)]
    have hp : found.Perm found' := by
      refine p1.trans (List.Perm.trans ?_ p2.symm)
      rw [hent]
      exact (hc.phases id (by rw [he]; rfl)).filterMap _
    rw [← hp.length_eq]
    split
    · simp [OfferSame]
    · simp only [OfferSame]
      intro sp
      have hlen : found.length ≤ (cat.phasesOf id).length := by
        rw [p1.length_eq]; exact List.length_filterMap_le _ _
      have hkept : (kept cfg found).Perm (kept cfg found') := by
        rcases hd with h0 | hl | hno
        · simp only [kept, h0, lt_irrefl, if_false]; exact hp
        · unfold kept
          split
          · rw [List.take_of_length_le (le_trans hlen hl),
              List.take_of_length_le (by rw [← hp.length_eq]; exact le_trans hlen hl)]
            exact hp
          · exact hp
        · have : found = found' := by
            refine List.Perm.eq_of_pairwise ?_ s1 s2 hp
            intro a b ha hb hab hba
            have hb' : b ∈ found := hp.symm.subset hb
            obtain ⟨p, hpm, hpe⟩ := List.mem_filterMap.1 (p1.subset ha)
            obtain ⟨q, hqm, hqe⟩ := List.mem_filterMap.1 (p1.subset hb')
            obtain ⟨a1, -, sa, a2, a3⟩ := matchPhase_sound hpe (by rw [hid]; exact hpm)
            obtain ⟨b1, -, sb, b2, b3⟩ := matchPhase_sound hqe (by rw [hid]; exact hqm)
            have hk1 : a.1 = b.1 := le_antisymm hab hba
            rw [a1] at a2
            rw [b1] at b2
            have := hno p hpm q hqm sa sb a2 b2 (by rw [← a3, ← b3, hk1])
            exact Prod.ext hk1 (by rw [a1, b1, this.1, this.2])
          rw [this]
      exact (hkept.map _).mem_iff

theorem offers_same (hc : Alike cat cat') (hr : (refCat.phasesOf refEv.id).Perm (refCat'.phasesOf refEv.id)) (hk : Known cat)
    (hk' : Known cat') (hu : UniquePhases refCat refEv.id) (hd : ∀ id, (cat.events.find? id).isSome → PhasesDecided g cfg cat refEv id) :
    Offers g cfg refEv cat refCat cat' refCat' (fun _ => True) := by
  exact ⟨hk, hk', fun id d _ => offer_same hc hr hk hk' hu (hd id) d, by simp, by simp⟩

theorem Known.same (hk : Known cat) (hc : SameData cat cat') : Known cat' :=
  ⟨fun id p hp => by rw [← hc.stations]; exact hk.stations id p ((hc.phases id).symm.subset hp),
    fun id e h => hk.key id e (by rw [hc.events]; exact h)⟩

theorem known_of_phases (hid : ∀ id e, cat.events.find? id = some e → e.id = id)
    (h : ∀ kp ∈ cat.phases, (cat.stations.find? kp.2.stationId).isSome) : Known cat := by
  refine ⟨fun id p hp => ?_, hid⟩
  unfold Catalog.phasesOf at hp
  obtain ⟨kp, hkp, rfl⟩ := List.mem_map.1 hp
  exact h kp (List.mem_filter.1 hkp).1

/-- the event of an entry -/
def full (t : EventTree K) (x : K × Nat) : K × Pt K × Nat := (x.1, t.pt x.2, t.data x.2)

/-- an event of the index with its distance -/
def measured (g : Geometry K) (refEv : Event K) (x : Pt K × Nat) : K × Pt K × Nat := (g.dist x.1 (eventPt refEv), x.1, x.2)

theorem range_points {A : Type} (f : Pt K × Nat → A) :
    (List.range t.points.length).map (fun i => f (t.pt i, t.data i)) = t.points.map f := by
  apply List.ext_getElem
  · simp
  · intro i h1 h2
    simp only [List.length_map, List.length_range] at h1
    simp [EventTree.data, EventTree.pt, List.getD_eq_getElem?_getD, List.getElem?_eq_getElem h1]

theorem withDist_full (ht : t.WF) :
    ((KdTree.withDist t.pt g.dist (eventPt refEv) (KdTree.contents t.tree)).map (full t)).Perm (t.points.map (measured g refEv)) := by
  unfold KdTree.withDist
  rw [List.map_map, ← range_points (t := t) (measured g refEv)]
  exact ht.indices.map _

theorem candidates_full (ht : t.WF) (ha : KdTree.Admissible g.dist g.axisDist (eventPt refEv) (t.points.map (·.1))) :
    KdTree.Sorted (candidates g cfg refEv t) ∧
    ((candidates g cfg refEv t).map (full t)).Perm ((t.points.map (measured g refEv)).filter (fun x =>
      decide (x.1 ≤ cfg.maxNeighbourDist * 2) && g.inside (cfg.maxNeighbourDist * 2) (eventPt refEv) x.2.1)) := by
  have hadm : KdTree.AdmTree t.pt g.dist g.axisDist (eventPt refEv) t.tree := by
    unfold KdTree.AdmTree
    refine ha.mono ?_
    intro p hp
    obtain ⟨i, hi, rfl⟩ := List.mem_map.1 hp
    exact List.mem_map.2 ⟨_, pt_of_wf (List.mem_range.1 (ht.indices.subset hi)), rfl⟩
  obtain ⟨h1, h2⟩ := KdTree.radius_spec ht.ordered hadm (cfg.maxNeighbourDist * 2) [] List.Pairwise.nil
  rw [List.append_nil] at h2
  refine ⟨List.Pairwise.sublist List.filter_sublist h1, ?_⟩
  unfold candidates KdTree.radiusSearch
  refine ((h2.filter _).map (full t)).trans ?_
  refine List.Perm.trans ?_ ((withDist_full (g := g) (refEv := refEv) ht).filter _)
  unfold KdTree.within KdTree.withDist
  rw [List.filter_map, List.filter_map, List.filter_map, List.map_map, List.filter_filter, List.map_map]
  refine List.Perm.of_eq ?_
  congr 1
  apply List.filter_congr
  intro i _
  rw [Bool.eq_iff_iff]
  simp [full, and_comm]
  exact fun _ => decide_eq_true_iff.symm

theorem entries_same {L L' : List (K × Nat)} (h1 : KdTree.Sorted L) (h2 : KdTree.Sorted L') (hp : (L.map (full t)).Perm (L'.map (full t')))
    (hn : ∀ x ∈ L.map (full t), ∀ y ∈ L.map (full t), x.1 = y.1 → x = y) : List.Forall₂ (SameEntry t t') L L' := by
  have he : L.map (full t) = L'.map (full t') := by
    refine List.Perm.eq_of_pairwise (le := fun a b => a.1 ≤ b.1) ?_ ?_ ?_ hp
    · intro a b ha hb hab hba
      exact hn a ha b (hp.symm.subset hb) (le_antisymm hab hba)
    · exact List.pairwise_map.2 h1
    · exact List.pairwise_map.2 h2
  have : List.Forall₂ (fun x x' => full t x = full t' x') L L' := by
    have := List.forall₂_eq_eq_eq ▸ he
    rw [List.forall₂_map_left_iff, List.forall₂_map_right_iff] at this
    exact this
  refine this.imp ?_
  intro a b hab
  simp only [full, Prod.mk.injEq] at hab
  exact hab

theorem measured_ties (hn : NoTies g refEv t) : ∀ x ∈ t.points.map (measured g refEv), ∀ y ∈ t.points.map (measured g refEv),
    x.1 = y.1 → x = y := by
  intro x hx y hy h
  obtain ⟨a, ha, rfl⟩ := List.mem_map.1 hx
  obtain ⟨b, hb, rfl⟩ := List.mem_map.1 hy
  rw [hn a ha b hb h]

/-- two indexes of the same events, equally distant events at most if there is no maximum number of neighbours -/
theorem select_same (o : Offers g cfg refEv cat refCat cat' refCat' (fun _ => True)) (ht : t.WF) (ht' : t'.WF)
    (hp : t.points.Perm t'.points) (ha : KdTree.Admissible g.dist g.axisDist (eventPt refEv) (t.points.map (·.1)))
    (h0 : ∀ x ∈ t.points, 0 ≤ g.dist x.1 (eventPt refEv)) (hn : cfg.maxNumNeigh = 0 ∨ NoTies g refEv t)
    {pop pop' : KdTree.Pop K} {nb : Neighbours} (h : selectNeighbours g cfg cat refEv refCat pop t = .ok nb) :
    ∃ nb', selectNeighbours g cfg cat' refEv refCat' pop' t' = .ok nb' ∧ Rel nb nb' := by
  have ha' : KdTree.Admissible g.dist g.axisDist (eventPt refEv) (t'.points.map (·.1)) :=
    ha.mono (fun p hpp => (hp.symm.map _).subset hpp)
  have h0' : ∀ x ∈ t'.points, 0 ≤ g.dist x.1 (eventPt refEv) := fun x hx => h0 x (hp.symm.subset hx)
  have hpm : (t.points.map (measured g refEv)).Perm (t'.points.map (measured g refEv)) := hp.map _
  unfold selectNeighbours at h ⊢
  simp only at h ⊢
  by_cases hmax : cfg.maxNumNeigh = 0
  · -- all events within the distance
    rw [if_pos hmax, if_pos rfl] at h ⊢
    obtain ⟨E, e1, e2, e3⟩ := bestFirst_order (g := g) (t := t) pop refEv True ht (fun _ => ⟨ha, h0⟩)
    obtain ⟨E', f1, f2, f3⟩ := bestFirst_order (g := g) (t := t') pop' refEv True ht' (fun _ => ⟨ha', h0'⟩)
    rw [e3] at h
    rw [f3]
    obtain ⟨nb', h'⟩ := deliver_returns (g := g) (cfg := cfg) (refEv := refEv) (refCat := refCat') o.known'.stations t' E'
      (Neighbours.empty refEv.id)
    refine ⟨nb', h', ?_⟩
    have hnd : (E.map (fun x => t.data x.2)).Nodup := by
      rw [(e1.map _).nodup_iff]
      unfold KdTree.withDist
      rw [List.map_map]
      exact ids_nodup ht
    have hnd' : (E'.map (fun x => t'.data x.2)).Nodup := by
      rw [(f1.map _).nodup_iff]
      unfold KdTree.withDist
      rw [List.map_map]
      exact ids_nodup ht'
    have hk0 : (Neighbours.empty refEv.id).nbs.NodupKeys := (clean_empty _).keys
    obtain ⟨T, rest, a1, a2, a3, a4, a5⟩ := nearest_deliver o.known.key E hk0 hnd (by simp [Neighbours.empty])
      (by simp [Neighbours.empty, Neighbours.amount]) h
    obtain ⟨T', rest', b1, b2, b3, b4, b5⟩ := nearest_deliver o.known'.key E' hk0 hnd' (by simp [Neighbours.empty])
      (by simp [Neighbours.empty, Neighbours.amount]) h'
    have tried : ∀ {T rest : List (K × Nat)} {n : Neighbours}, KdTree.Sorted (T ++ rest) →
        (rest = [] ∨ (∃ x r, rest = x :: r ∧ cfg.maxNeighbourDist < x.1) ∨ (0 < cfg.maxNumNeigh ∧ n.amount = cfg.maxNumNeigh)) →
        ∀ x ∈ T ++ rest, x.1 ≤ cfg.maxNeighbourDist → x ∈ T := by
      intro T rest n hs hr x hx hd
      rcases List.mem_append.1 hx with h | h
      · exact h
      · exfalso
        rcases hr with rfl | ⟨y, r, rfl, hy⟩ | ⟨hr, -⟩
        · cases h
        · have hs' := (List.pairwise_append.1 hs).2.1
          rcases List.mem_cons.1 h with rfl | h
          · exact absurd hd (not_le.2 hy)
          · exact absurd hd (not_le.2 (lt_of_lt_of_le hy (List.rel_of_pairwise_cons hs' h)))
        · omega
    obtain ⟨c1, c2, c3⟩ := tryAll_offer o.known T (clean_empty _) a2
    obtain ⟨d1, d2, d3⟩ := tryAll_offer o.known' T' (clean_empty _) b2
    have hEE : (E.map (full t)).Perm (E'.map (full t')) :=
      (e1.map _).trans ((withDist_full ht).trans (hpm.trans ((withDist_full ht').symm.trans (f1.symm.map _))))
    refine ⟨c1, d1, by rw [c2, d2], fun id sp => ?_⟩
    rw [c3, d3]
    have hemp : ∀ id sp, sp ∉ (Neighbours.empty refEv.id).phasesOf id := by
      simp [Neighbours.empty, Neighbours.phasesOf]
    constructor
    · rintro (h | ⟨x, hx, h1, ks, h2, h3⟩)
      · exact absurd h (hemp _ _)
      · right
        have hx' : full t x ∈ E.map (full t) := List.mem_map.2 ⟨x, by rw [a1]; exact List.mem_append_left _ hx, rfl⟩
        obtain ⟨y, hy, hye⟩ := List.mem_map.1 (hEE.subset hx')
        simp only [full, Prod.mk.injEq] at hye
        have hs := o.same id x.1 trivial
        rw [h2] at hs
        cases ho : offer g cfg cat' refEv refCat' id x.1 with
        | none => rw [ho] at hs; exact absurd hs (by simp [OfferSame])
        | some ks' =>
          rw [ho] at hs
          refine ⟨y, tried (n := nb') (by rw [← b1]; exact f2 trivial) b5 y (by rw [← b1]; exact hy) ?_, by rw [hye.2.2, h1], ks', by rw [hye.1, ho], (hs sp).1 h3⟩
          rw [hye.1]; exact a3 x hx
    · rintro (h | ⟨x, hx, h1, ks, h2, h3⟩)
      · exact absurd h (hemp _ _)
      · right
        have hx' : full t' x ∈ E'.map (full t') := List.mem_map.2 ⟨x, by rw [b1]; exact List.mem_append_left _ hx, rfl⟩
        obtain ⟨y, hy, hye⟩ := List.mem_map.1 (hEE.symm.subset hx')
        simp only [full, Prod.mk.injEq] at hye
        have hs := o.same id x.1 trivial
        rw [h2] at hs
        cases ho : offer g cfg cat refEv refCat id x.1 with
        | none => rw [ho] at hs; exact absurd hs (by simp [OfferSame])
        | some ks' =>
          rw [ho] at hs
          refine ⟨y, tried (n := nb) (by rw [← a1]; exact e2 trivial) a5 y (by rw [← a1]; exact hy) ?_, by rw [hye.2.2, h1], ks', by rw [hye.1, ho], (hs sp).2 h3⟩
          rw [hye.1]; exact b3 x hx
  · have hno : NoTies g refEv t := hn.resolve_left hmax
    have hties := measured_ties hno
    rw [if_neg hmax] at h ⊢
    split at h
    · rename_i hm
      rw [if_pos hm]
      obtain ⟨E, e1, e2, e3⟩ := bestFirst_order (g := g) (t := t) pop refEv True ht (fun _ => ⟨ha, h0⟩)
      obtain ⟨E', f1, f2, f3⟩ := bestFirst_order (g := g) (t := t') pop' refEv True ht' (fun _ => ⟨ha', h0'⟩)
      rw [e3] at h
      rw [f3]
      have hEm : (E.map (full t)).Perm (t.points.map (measured g refEv)) := (e1.map _).trans (withDist_full ht)
      have hEE : (E.map (full t)).Perm (E'.map (full t')) :=
        hEm.trans (hpm.trans ((withDist_full ht').symm.trans (f1.symm.map _)))
      refine deliver_sim o (entries_same (e2 trivial) (f2 trivial) hEE ?_) (Rel.refl (clean_empty _)) h (by simp)
      intro x hx y hy
      exact hties x (hEm.subset hx) y (hEm.subset hy)
    · rename_i hm
      rw [if_neg hm]
      cases he : ellipsoids g cfg cat refEv refCat t with
      | throws => simp [he, Outcome.map] at h
      | ub => simp [he, Outcome.map] at h
      | ok r =>
        simp only [he, Outcome.map, Outcome.ok.injEq] at h
        subst h
        obtain ⟨s1, p1⟩ := candidates_full (cfg := cfg) ht ha
        obtain ⟨s2, p2⟩ := candidates_full (cfg := cfg) ht' ha'
        have hcc : List.Forall₂ (SameEntry t t') (candidates g cfg refEv t) (candidates g cfg refEv t') := by
          refine entries_same s1 s2 (p1.trans ((hpm.filter _).trans p2.symm)) ?_
          intro x hx y hy
          exact hties x (List.mem_filter.1 (p1.subset hx)).1 y (List.mem_filter.1 (p1.subset hy)).1
        unfold ellipsoids at he ⊢
        simp only at he ⊢
        split at he
        · rename_i hc
          simp only [Outcome.ok.injEq] at he
          subst he
          rw [if_pos ((forall₂_nil hcc).1 hc)]
          exact ⟨_, rfl, Rel.refl (clean_empty _)⟩
        · rename_i hc
          rw [if_neg (fun h => hc ((forall₂_nil hcc).2 h)), ← hcc.length_eq]
          obtain ⟨r', e1, e2⟩ := rounds_sim o _ _ hcc (Rel.refl (clean_empty _)) he (by simp)
          exact ⟨r'.1, by simp [e1, Outcome.map], e2⟩

/-! ## the whole catalog -/

theorem matchPhases_congr {event : Event K} {d : K} (h : ∀ p, matchPhase g cfg cat refEv refCat event d p =
    matchPhase g cfg cat' refEv refCat' event d p) (ps : List (Phase K)) (acc : List (K × StaPhase)) :
    matchPhases g cfg cat refEv refCat event d ps acc = matchPhases g cfg cat' refEv refCat' event d ps acc := by
  induction ps generalizing acc with
  | nil => rfl
  | cons p ps ih => simp only [matchPhases, h p, ih]

theorem exists_without (cat : Catalog K) (R : List Nat) : ∃ V, Without cat R V := by
  induction R with
  | nil => exact ⟨cat, .refl cat⟩
  | cons id R ih =>
    obtain ⟨V, hV⟩ := ih
    exact ⟨_, hV.remove id⟩

theorem Without.known {R : List Nat} {V : Catalog K} (w : Without cat R V) (hk : Known cat)
    (hst : ∀ kp ∈ cat.phases, (cat.stations.find? kp.2.stationId).isSome) : Known V := by
  refine ⟨fun id p hp => ?_, fun id e he => ?_⟩
  · unfold Catalog.phasesOf at hp
    obtain ⟨kp, hkp, rfl⟩ := List.mem_map.1 hp
    rw [w.stations]
    exact hst kp (w.phases kp (List.mem_filter.1 hkp).1)
  · rw [w.events] at he
    split at he
    · cases he
    · exact hk.key id e he

/-- taking events away, from a catalog without some events -/
theorem Without.offers {R R' : List Nat} {V W : Catalog K} (w : Without cat R V) (w' : Without cat R' W) (hk : Known cat)
    (hst : ∀ kp ∈ cat.phases, (cat.stations.find? kp.2.stationId).isSome) (hsub : ∀ id ∈ R, id ∈ R') (href : refEv.id ∉ R')
    (hmin : 0 < cfg.minPhase) : Offers g cfg refEv V V W W (fun id => id ∉ R') := by
  refine ⟨w.known hk hst, w'.known hk hst, ?_, ?_, ?_⟩
  · intro id d hid
    have hid' : id ∉ R := fun h => hid (hsub id h)
    have href' : refEv.id ∉ R := fun h => href (hsub _ h)
    have : offer g cfg V refEv V id d = offer g cfg W refEv W id d := by
      unfold offer
      rw [w.events, w'.events, if_neg hid, if_neg hid']
      cases he : cat.events.find? id with
      | none => rfl
      | some e =>
        have hie : e.id = id := hk.key _ _ he
        simp only [hie]
        rw [w.phasesOf id hid', w'.phasesOf id hid]
        rw [matchPhases_congr (cat' := W) (refCat' := W)]
        intro p
        apply entry_same
        · intro s; rw [w.stations, w'.stations]
        · intro sp; unfold searchPhase; rw [w.phasesOf _ href', w'.phasesOf _ href]
    rw [this]
    cases offer g cfg W refEv W id d with
    | none => simp [OfferSame]
    | some ks => simp [OfferSame]
  · intro id d hid
    simp only [not_not] at hid
    unfold offer
    rw [w'.events, if_pos hid]
    split <;> rfl
  · intro id d ks _ h
    unfold offer at h
    split at h
    · cases h
    · split at h
      · cases h
      · split at h
        · split at h
          · cases h
          · rename_i hlen
            simp only [Option.some.injEq] at h
            subst h
            rename_i found _
            have : found ≠ [] := by
              rintro rfl
              simp at hlen
              omega
            have hk := kept_ne_nil (cfg := cfg) this
            simpa using hk
        · cases h

/-- one selection for a whole catalog -/
structure Setting (K : Type) [Field K] [LinearOrder K] where
  pop : KdTree.Pop K
  t : EventTree K
  order : AMap Nat Neighbours → List (Nat × Neighbours)
  cat : Catalog K

/-- what the proofs need to know about a setting -/
structure Setting.Ok (s : Setting K) (g : Geometry K) : Prop where
  tree : s.t.WF
  sound : s.cat.Sound
  nonneg : ∀ id e, s.cat.events.find? id = some e → g.Nonneg s.cat e s.t
  order : ∀ m, (s.order m).Perm m

theorem Setting.Ok.known {s : Setting K} (h : s.Ok g) : Known s.cat :=
  known_of_phases (fun id e he => (h.sound.eventKey id e he).1) h.sound.phaseStation

/-- The two settings select the same neighbours for every event, whatever events are taken away. -/
def Agree (g : Geometry K) (cfg : Config K) (s s' : Setting K) : Prop :=
  ∀ R V R' V' event nb, Without s.cat R V → Without s'.cat R' V' → (∀ id, id ∈ R ↔ id ∈ R') →
    s.cat.events.find? event.id = some event → event.id ∉ R → selectNeighbours g cfg V event V s.pop s.t = .ok nb →
    ∃ nb', selectNeighbours g cfg V' event V' s'.pop s'.t = .ok nb' ∧ Rel nb nb'

/-- what is known of a selection for a whole catalog: its result, and the events left out -/
structure Final (g : Geometry K) (cfg : Config K) (minNumNeigh : Nat) (s : Setting K) (res : AMap Nat Neighbours) (removed : List Nat) :
    Prop where
  run : selectCatalog g cfg minNumNeigh s.pop s.t s.order s.cat = .ok res
  split : (res.keys ++ removed).Perm s.cat.events.keys
  /-- the neighbours are those selected when all the removed events are taken away -/
  fixed : ∀ id nb, res.find? id = some nb → ∃ event, event.id = id ∧ s.cat.events.find? id = some event ∧ minNumNeigh ≤ nb.amount ∧
    ∀ R' V, (∀ i, i ∈ R' ↔ i ∈ removed) → Without s.cat R' V → ∃ nb', selectNeighbours g cfg V event V s.pop s.t = .ok nb' ∧ Rel nb nb'

variable {minNumNeigh : Nat}

theorem final_exists {s : Setting K} (h : s.Ok g) (hmin : 0 < cfg.minPhase) {S : Nat → Prop}
    (hkeep : ∀ removed valid event nb, Without s.cat removed valid → (∀ id ∈ removed, ¬ S id) →
      s.cat.events.find? event.id = some event → S event.id →
      selectNeighbours g cfg valid event valid s.pop s.t = .ok nb → minNumNeigh ≤ nb.amount) :
    ∃ res removed, Final g cfg minNumNeigh s res removed ∧ ∀ id ∈ removed, ¬ S id := by
  have c : Ctx g cfg minNumNeigh s.pop s.t s.cat S :=
    ⟨h.tree, h.sound.eventsUnique, h.known.key, h.sound.phaseStation, h.nonneg, hkeep⟩
  obtain ⟨res, removed, h1, h2, h3, h4⟩ := selectCatalog_spec c s.order h.order
  refine ⟨res, removed, ⟨h1, h2, ?_⟩, h3⟩
  intro id nb hf
  obtain ⟨a1, ⟨ev, b1, b2, b3, b4, b5⟩, a3, R, V, event, o1, o2, o3, o4, o5, o6⟩ := h4 _ (AMap.mem_of_find? hf)
  simp only at a1 a3 b1 b3 o3 o4 o5 o6
  rw [a1] at o3 o4 o5
  refine ⟨event, o3, o4, b3, ?_⟩
  intro R' V' hR' hV'
  have hnd : (res.keys ++ removed).Nodup := h2.nodup_iff.2 h.sound.eventsUnique
  have hout : event.id ∉ R' := by
    rw [o3, hR']
    exact fun hm => (List.nodup_append.1 hnd).2.2 id (AMap.mem_keys_of_find? hf) id hm rfl
  exact select_sim (o2.offers hV' h.known h.sound.phaseStation (fun i hi => (hR' i).2 (o1 i hi)) hout hmin) h.tree o6
    (fun j hj hj' => a3 j hj ((hR' j).1 hj'))

theorem final_unique {s : Setting K} {res res' : AMap Nat Neighbours} {removed removed' : List Nat}
    (f : Final g cfg minNumNeigh s res removed) (f' : Final g cfg minNumNeigh s res' removed') : res = res' := by
  have := f.run.symm.trans f'.run
  cases this; rfl

/-- the removed events of a result are determined by the result -/
theorem Final.mem_removed {s : Setting K} (h : s.Ok g) {res : AMap Nat Neighbours} {removed : List Nat}
    (f : Final g cfg minNumNeigh s res removed) (id : Nat) : id ∈ removed ↔ id ∈ s.cat.events.keys ∧ id ∉ res.keys := by
  have hnd : (res.keys ++ removed).Nodup := f.split.nodup_iff.2 h.sound.eventsUnique
  constructor
  · intro hr
    exact ⟨f.split.subset (List.mem_append_right _ hr), fun hk => (List.nodup_append.1 hnd).2.2 id hk id hr rfl⟩
  · rintro ⟨hk, hr⟩
    exact (List.mem_append.1 (f.split.symm.subset hk)).resolve_left hr

/-- a setting keeps every event which an agreeing setting keeps -/
theorem keeps {s s' : Setting K} (h : s.Ok g) (h' : s'.Ok g) (hmin : 0 < cfg.minPhase) (hag : Agree g cfg s s')
    (hev : ∀ id, s.cat.events.find? id = s'.cat.events.find? id) {res res' : AMap Nat Neighbours} {removed removed' : List Nat}
    (f : Final g cfg minNumNeigh s res removed) (f' : Final g cfg minNumNeigh s' res' removed') : ∀ id ∈ res.keys, id ∈ res'.keys := by
  obtain ⟨res2, removed2, g1, g2⟩ := final_exists (minNumNeigh := minNumNeigh) h' hmin (S := fun id => id ∈ res.keys) (by
    intro rm valid event nb w hrm he hs hsel
    obtain ⟨nb0, hnb0⟩ := Option.isSome_iff_exists.1 (AMap.find?_isSome.2 hs)
    obtain ⟨event0, k1, k2, k3, k4⟩ := f.fixed _ _ hnb0
    obtain ⟨V, hV⟩ := exists_without s.cat removed
    obtain ⟨V', hV'⟩ := exists_without s'.cat removed
    have hev0 : event0 = event := by
      rw [hev, he] at k2
      cases k2; rfl
    subst hev0
    obtain ⟨nb1, hnb1, r1⟩ := k4 removed V (fun _ => Iff.rfl) hV
    have hout : event0.id ∉ removed := fun hm => ((f.mem_removed h _).1 hm).2 hs
    obtain ⟨nb2, hnb2, r2⟩ := hag removed V removed V' event0 nb1 hV hV' (fun _ => Iff.rfl) k2 hout hnb1
    have hsub : ∀ id ∈ rm ++ removed, id ∉ res.keys := by
      intro id hid
      rcases List.mem_append.1 hid with hid | hid
      · exact hrm id hid
      · exact ((f.mem_removed h id).1 hid).2
    -- the events removed by the second and those that never belonged to the catalog
    have hrm' : ∀ id ∈ rm, s'.cat.events.find? id ≠ none → id ∈ removed := by
      intro id hid hne
      rw [f.mem_removed h]
      refine ⟨?_, hrm id hid⟩
      rw [← AMap.find?_isSome, hev]
      exact Option.isSome_iff_ne_none.2 hne
    obtain ⟨W, hW⟩ := exists_without s'.cat (rm ++ removed)
    have w2 : Without s'.cat (rm ++ removed) W := hW
    have hout2 : event0.id ∉ rm ++ removed := fun hm => hsub _ hm hs
    -- taking away what does not exist changes nothing
    obtain ⟨nb3, hnb3, r3⟩ := select_sim (g := g) (cfg := cfg) (hV'.offers w2 h'.known h'.sound.phaseStation
      (fun i hi => List.mem_append_right _ hi) hout2 hmin) h'.tree hnb2 (by
        intro j hj hj'
        rcases List.mem_append.1 hj' with hj' | hj'
        · obtain ⟨phs, hphs⟩ := Option.isSome_iff_exists.1 (AMap.find?_isSome.2 hj)
          obtain ⟨-, -, -, hc⟩ := neighbours_meet_constraints_partial s'.pop s'.t h'.tree (hV'.known h'.known h'.sound.phaseStation).key
            ((h'.nonneg _ _ he).without hV') nb2 hnb2
          obtain ⟨p, ev, -, -, hch⟩ := hc j phs hphs
          obtain ⟨hch1, hch2⟩ := hch.transfer hV' h'.known.key hout
          exact hch2 (hrm' j hj' (by rw [hch1.inCatalog]; simp))
        · obtain ⟨phs, hphs⟩ := Option.isSome_iff_exists.1 (AMap.find?_isSome.2 hj)
          obtain ⟨-, -, -, hc⟩ := neighbours_meet_constraints_partial s'.pop s'.t h'.tree (hV'.known h'.known h'.sound.phaseStation).key
            ((h'.nonneg _ _ he).without hV') nb2 hnb2
          obtain ⟨p, ev, -, -, hch⟩ := hc j phs hphs
          exact (hch.transfer hV' h'.known.key hout).2 hj')
    have hle := select_mono (w.offers w2 h'.known h'.sound.phaseStation (fun i hi => List.mem_append_left _ hi) hout2 hmin)
      h'.tree hsel hnb3
    rw [r1.amount, r2.amount, r3.amount] at k3
    exact le_trans k3 hle)
  have he := final_unique f' g1
  subst he
  intro id hid
  by_contra hno
  have hk : id ∈ s'.cat.events.keys := by
    have : id ∈ s.cat.events.keys := f.split.subset (List.mem_append_left _ hid)
    rw [← AMap.find?_isSome] at this ⊢
    rw [← hev]; exact this
  exact g2 id ((g1.mem_removed h' id).2 ⟨hk, hno⟩) hid

theorem Agree.catalog {s s' : Setting K} (h : s.Ok g) (h' : s'.Ok g) (hmin : 0 < cfg.minPhase) (hag : Agree g cfg s s')
    (hag' : Agree g cfg s' s) (hev : ∀ id, s.cat.events.find? id = s'.cat.events.find? id) :
    ∃ res res', selectCatalog g cfg minNumNeigh s.pop s.t s.order s.cat = .ok res ∧
      selectCatalog g cfg minNumNeigh s'.pop s'.t s'.order s'.cat = .ok res' ∧ res.keys.Perm res'.keys ∧
      ∀ id nb nb', res.find? id = some nb → res'.find? id = some nb' → SameNeighbours nb nb' := by
  obtain ⟨res, removed, f, -⟩ := final_exists (minNumNeigh := minNumNeigh) h hmin (S := fun _ => False) (by simp)
  obtain ⟨res', removed', f', -⟩ := final_exists (minNumNeigh := minNumNeigh) h' hmin (S := fun _ => False) (by simp)
  have k1 := keeps h h' hmin hag hev f f'
  have k2 := keeps h' h hmin hag' (fun id => (hev id).symm) f' f
  have n1 : res.keys.Nodup := (List.nodup_append.1 (f.split.nodup_iff.2 h.sound.eventsUnique)).1
  have n2 : res'.keys.Nodup := (List.nodup_append.1 (f'.split.nodup_iff.2 h'.sound.eventsUnique)).1
  have hkeys : ∀ id, id ∈ res.keys ↔ id ∈ res'.keys := fun id => ⟨k1 id, k2 id⟩
  refine ⟨res, res', f.run, f'.run, (List.perm_ext_iff_of_nodup n1 n2).2 hkeys, ?_⟩
  intro id nb nb' hf hf'
  obtain ⟨event, e1, e2, -, e4⟩ := f.fixed _ _ hf
  obtain ⟨event', e1', e2', -, e4'⟩ := f'.fixed _ _ hf'
  rw [hev, e2'] at e2
  cases e2
  obtain ⟨V, hV⟩ := exists_without s.cat removed
  obtain ⟨V', hV'⟩ := exists_without s'.cat removed'
  have hrem : ∀ i, i ∈ removed ↔ i ∈ removed' := by
    intro i
    rw [f.mem_removed h, f'.mem_removed h', hkeys, ← AMap.find?_isSome, ← AMap.find?_isSome (m := s'.cat.events), hev]
  obtain ⟨a, ha, r1⟩ := e4 removed V (fun _ => Iff.rfl) hV
  obtain ⟨b, hb, r2⟩ := e4' removed' V' (fun _ => Iff.rfl) hV'
  have hout : event.id ∉ removed := by
    rw [e1]; exact fun hm => ((f.mem_removed h _).1 hm).2 (AMap.mem_keys_of_find? hf)
  obtain ⟨b', hb', r3⟩ := hag removed V removed' V' event a hV hV' hrem (by rw [e1, hev]; exact e2') hout ha
  rw [hb] at hb'
  cases hb'
  exact (r1.trans (r3.trans r2.symm)).same

/-- catalogs without the same events -/
theorem Without.alike {R R' : List Nat} {V V' : Catalog K} (w : Without cat R V) (w' : Without cat' R' V') (hR : ∀ id, id ∈ R ↔ id ∈ R')
    (hc : SameData cat cat') : Alike V V' := by
  refine ⟨fun id => ?_, fun s => by rw [w.stations, w'.stations, hc.stations], fun id hid => ?_⟩
  · rw [w.events, w'.events, hc.events]
    by_cases h : id ∈ R
    · rw [if_pos h, if_pos ((hR id).1 h)]
    · rw [if_neg h, if_neg (fun h' => h ((hR id).2 h'))]
  · have h : id ∉ R := by
      intro h
      rw [w.events, if_pos h] at hid
      cases hid
    rw [w.phasesOf id h, w'.phasesOf id (fun h' => h ((hR id).2 h'))]
    exact hc.phases id

/-- catalogs without the same events, of the same catalog -/
theorem Without.offers_refl {R R' : List Nat} {V V' : Catalog K} (w : Without cat R V) (w' : Without cat R' V')
    (hR : ∀ id, id ∈ R ↔ id ∈ R') (hk : Known cat) (hst : ∀ kp ∈ cat.phases, (cat.stations.find? kp.2.stationId).isSome)
    (href : refEv.id ∉ R') (hmin : 0 < cfg.minPhase) : Offers g cfg refEv V V V' V' (fun id => id ∉ R') :=
  w.offers w' hk hst (fun id h => (hR id).1 h) href hmin

theorem SameData.symm {c c' : Catalog K} (h : SameData c c') : SameData c' c :=
  ⟨fun id => (h.events id).symm, fun s => (h.stations s).symm, fun id => (h.phases id).symm⟩

theorem SameData.unique {c c' : Catalog K} (h : SameData c c') {id : Nat} (hu : UniquePhases c id) : UniquePhases c' id := by
  unfold UniquePhases at hu ⊢
  exact ((h.phases id).map _).nodup_iff.1 hu

theorem SameData.decided {c c' : Catalog K} (h : SameData c c') {id : Nat} (hd : PhasesDecided g cfg c refEv id) :
    PhasesDecided g cfg c' refEv id := by
  rcases hd with hd | hd | hd
  · exact .inl hd
  · exact .inr (.inl (by rw [← (h.phases id).length_eq]; exact hd))
  · refine .inr (.inr ?_)
    intro p hp q hq s s' hs hs'
    rw [← h.stations] at hs hs'
    exact hd p ((h.phases id).symm.subset hp) q ((h.phases id).symm.subset hq) s s' hs hs'

theorem NoTies.perm {t t' : EventTree K} (hp : t.points.Perm t'.points) (h : NoTies g refEv t) : NoTies g refEv t' :=
  fun x hx y hy => h x (hp.symm.subset hx) y (hp.symm.subset hy)

/-- settings with the same catalog, index and heap agree -/
theorem agree_refl {s s' : Setting K} (h : s.Ok g) (hmin : 0 < cfg.minPhase) (hp : s.pop = s'.pop) (ht : s.t = s'.t)
    (hc : s.cat = s'.cat) : Agree g cfg s s' := by
  intro R V R' V' event nb w w' hR he hev hsel
  rw [← hc] at w'
  have href : event.id ∉ R' := fun h' => hev ((hR _).2 h')
  have o := w.offers_refl (g := g) (cfg := cfg) (refEv := event) w' hR h.known h.sound.phaseStation href hmin
  rw [← hp, ← ht]
  refine select_sim o h.tree hsel (fun j hj hj' => ?_)
  obtain ⟨phs, hphs⟩ := Option.isSome_iff_exists.1 (AMap.find?_isSome.2 hj)
  obtain ⟨-, -, -, hch⟩ := neighbours_meet_constraints_partial s.pop s.t h.tree (w.known h.known h.sound.phaseStation).key
    ((h.nonneg _ _ he).without w) nb hsel
  obtain ⟨p, ev, -, -, hch⟩ := hch j phs hphs
  exact (hch.transfer w h.known.key hev).2 ((hR j).2 hj')

/-- settings with the same data agree, when nothing depends on the order of the data -/
theorem agree_same {s s' : Setting K} (h : s.Ok g) (h' : s'.Ok g) (hc : SameData s.cat s'.cat) (hp : s.t.points.Perm s'.t.points)
    (hu : ∀ id, UniquePhases s.cat id)
    (ha : ∀ id e, s.cat.events.find? id = some e → KdTree.Admissible g.dist g.axisDist (eventPt e) (s.t.points.map (·.1)))
    (hd : ∀ id e, s.cat.events.find? id = some e → ∀ i, PhasesDecided g cfg s.cat e i)
    (hn : ∀ id e, s.cat.events.find? id = some e → cfg.maxNumNeigh = 0 ∨ NoTies g e s.t) : Agree g cfg s s' := by
  intro R V R' V' event nb w w' hR he hev hsel
  have hk := w.known h.known h.sound.phaseStation
  have hk' := w'.known h'.known h'.sound.phaseStation
  have hev' : event.id ∉ R' := fun h' => hev ((hR _).2 h')
  refine select_same (offers_same (w.alike w' hR hc) ?_ hk hk' ?_ ?_) h.tree h'.tree hp (ha _ _ he) (h.nonneg _ _ he).dist (hn _ _ he) hsel
  · rw [w.phasesOf _ hev, w'.phasesOf _ hev']
    exact hc.phases _
  · have := hu event.id
    unfold UniquePhases at this ⊢
    rw [w.phasesOf _ hev]; exact this
  · intro i hi
    have hiR : i ∉ R := by
      intro hiR
      rw [w.events, if_pos hiR] at hi
      cases hi
    have := hd _ _ he i
    unfold PhasesDecided at this ⊢
    rw [w.phasesOf _ hiR, w.stations]
    exact this

theorem find?_filter_key {V : Type} (m : AMap Nat V) (S : Nat → Bool) (id : Nat) :
    AMap.find? (m.filter (fun kv => S kv.1)) id = if S id then m.find? id else none := by
  induction m with
  | nil => simp
  | cons a m ih =>
    obtain ⟨k, v⟩ := a
    rw [List.filter_cons, AMap.find?_cons]
    by_cases hk : S k
    · simp only [hk, if_true]
      rw [AMap.find?_cons, ih]
      by_cases hid : k = id
      · subst hid; simp [hk]
      · simp [hid]
    · rw [if_neg hk, ih]
      by_cases hid : k = id
      · subst hid; simp [hk]
      · simp [hid]

/-- the events of a catalog that are not in a set -/
def others (cat : Catalog K) (S : Nat → Bool) : List Nat := cat.events.keys.filter (fun id => !S id)

theorem mem_others {S : Nat → Bool} {id : Nat} : id ∈ others cat S ↔ id ∈ cat.events.keys ∧ S id = false := by
  simp [others]

theorem restrict_without (hs : cat.Sound) (S : Nat → Bool) : Without cat (others cat S) (restrict cat S) := by
  refine ⟨rfl, fun id => ?_, fun id hid => ?_, fun kp hkp => (List.mem_filter.1 hkp).1⟩
  · show AMap.find? (cat.events.filter (fun kv => S kv.1)) id = _
    rw [find?_filter_key]
    by_cases hk : id ∈ cat.events.keys
    · by_cases hS : S id = true
      · rw [if_pos hS, if_neg (fun h => by rw [(mem_others.1 h).2] at hS; cases hS)]
      · rw [if_neg hS, if_pos (mem_others.2 ⟨hk, by simpa using hS⟩)]
    · rw [AMap.find?_eq_none.2 hk]; simp
  · unfold Catalog.phasesOf
    simp only [restrict, List.filter_filter]
    congr 1
    refine List.filter_congr ?_
    intro kp hkp
    by_cases hk : kp.1 = id
    · have : S id = true := by
        by_contra hS
        refine hid (mem_others.2 ⟨?_, by simpa using hS⟩)
        rw [← hk, ← AMap.find?_isSome]
        exact hs.phaseEvent kp hkp
      simp [hk, this]
    · simp [hk]

/-- events with enough neighbours among a set are kept, whatever else is taken away first -/
theorem greatest {s : Setting K} (h : s.Ok g) (hmin : 0 < cfg.minPhase) (S : Nat → Bool)
    (hS : ∀ id event, S id = true → s.cat.events.find? id = some event →
      ∀ nb, selectNeighbours g cfg (restrict s.cat S) event (restrict s.cat S) s.pop s.t = .ok nb → minNumNeigh ≤ nb.amount) :
    ∃ res removed, Final g cfg minNumNeigh s res removed ∧ ∀ id ∈ removed, S id = false := by
  obtain ⟨res, removed, f, hr⟩ := final_exists (minNumNeigh := minNumNeigh) h hmin (S := fun id => S id = true) (by
    intro rm valid event nb w hrm he hs hsel
    have hW := restrict_without (cat := s.cat) h.sound S
    obtain ⟨W, w2⟩ := exists_without s.cat (rm ++ others s.cat S)
    have hout : event.id ∉ rm ++ others s.cat S := by
      intro hm
      rcases List.mem_append.1 hm with hm | hm
      · exact hrm _ hm hs
      · rw [(mem_others.1 hm).2] at hs; cases hs
    have hst : ∀ kp ∈ (restrict s.cat S).phases, ((restrict s.cat S).stations.find? kp.2.stationId).isSome := by
      intro kp hkp
      exact h.sound.phaseStation kp (List.mem_filter.1 hkp).1
    obtain ⟨nb1, hnb1⟩ := selection_returns (g := g) (cfg := cfg) (cat := restrict s.cat S) (refEv := event)
      (refCat := restrict s.cat S) s.pop s.t h.tree hst
    have hle := hS event.id event hs he nb1 hnb1
    obtain ⟨nb2, hnb2, r2⟩ := select_sim (g := g) (cfg := cfg) (hW.offers w2 h.known h.sound.phaseStation
      (fun i hi => List.mem_append_right _ hi) hout hmin) h.tree hnb1 (by
        intro j hj hj'
        obtain ⟨phs, hphs⟩ := Option.isSome_iff_exists.1 (AMap.find?_isSome.2 hj)
        obtain ⟨-, -, -, hc⟩ := neighbours_meet_constraints_partial s.pop s.t h.tree (hW.known h.known h.sound.phaseStation).key
          ((h.nonneg _ _ he).without hW) nb1 hnb1
        obtain ⟨p, ev, -, -, hch⟩ := hc j phs hphs
        obtain ⟨hch1, hch2⟩ := hch.transfer hW h.known.key (fun hm => hout (List.mem_append_right _ hm))
        rcases List.mem_append.1 hj' with hj' | hj'
        · have hjS : S j = true := by
            by_contra hno
            exact hch2 (mem_others.2 ⟨AMap.mem_keys_of_find? hch1.inCatalog, by simpa using hno⟩)
          exact hrm j hj' hjS
        · exact hch2 hj')
    have := select_mono (w.offers w2 h.known h.sound.phaseStation (fun i hi => List.mem_append_left _ hi) hout hmin) h.tree hsel hnb2
    rw [r2.amount] at hle
    exact le_trans hle this)
  exact ⟨res, removed, f, fun id hid => by simpa using hr id hid⟩

end Verif.Selection
