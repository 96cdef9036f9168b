import Verif.Spec.Neighbours
import Verif.Props.PairFile

/-!
# C79: a list of neighbours
-/

namespace Verif.Neighbours
open Spec

theorem recorded_nil (id : Nat) (sp : StaPhase) : ¬ Recorded [] id sp := by
  rintro ⟨pre, post, h, -⟩
  simp at h

theorem recorded_snoc (ops : List Op) (op : Op) (id : Nat) (sp : StaPhase) :
    Recorded (ops ++ [op]) id sp ↔ op = .add id sp ∨ (Recorded ops id sp ∧ op ≠ .remove id) := by
  constructor
  · rintro ⟨pre, post, h, hr⟩
    rcases List.eq_nil_or_concat post with rfl | ⟨post', x, rfl⟩
    · rw [show pre ++ [Op.add id sp] = pre ++ [Op.add id sp] from rfl] at h
      have := List.append_inj_right' h rfl
      simp at this
      exact .inl this
    · rw [List.concat_eq_append, ← List.cons_append, ← List.append_assoc] at h
      have h1 := List.append_inj_left' h rfl
      have h2 := List.append_inj_right' h rfl
      simp at h2
      subst h2
      rw [List.concat_eq_append, List.mem_append, not_or] at hr
      exact .inr ⟨⟨pre, post', h1, hr.1⟩, by simpa [eq_comm] using hr.2⟩
  · rintro (rfl | ⟨⟨pre, post, rfl, hr⟩, hn⟩)
    · exact ⟨ops, [], rfl, by simp⟩
    · exact ⟨pre, post ++ [op], by simp, by simp [hr, Ne.symm hn]⟩

/-- the invariant -/
structure Inv (n : Neighbours) (R : Nat → StaPhase → Prop) : Prop where
  keys : n.nbs.NodupKeys
  phases : ∀ id sp, sp ∈ n.phasesOf id ↔ R id sp
  ids : ∀ id, id ∈ n.ids ↔ ∃ sp, R id sp
  nodup : ∀ id, (n.phasesOf id).Nodup

theorem inv_run (refId : Nat) (ops : List Op) : Inv (run refId ops) (Recorded ops) ∧ (run refId ops).refId = refId := by
  induction ops using List.reverseRecOn with
  | nil =>
    refine ⟨⟨List.nodup_nil, ?_, ?_, ?_⟩, rfl⟩
    · intro id sp
      simp [run, empty, phasesOf, recorded_nil]
    · intro id
      simp [run, empty, Neighbours.ids, recorded_nil]
    · intro id
      simp [run, empty, phasesOf]
  | append_singleton ops op ih =>
    have e : run refId (ops ++ [op]) = apply (run refId ops) op := by simp [run]
    rw [e]
    generalize run refId ops = n at ih
    obtain ⟨⟨h1, h2, h3, h4⟩, h5⟩ := ih
    cases op with
    | add i p =>
      have hp : ∀ id, (n.add i p).phasesOf id = if id = i then insertSet (n.phasesOf i) p else n.phasesOf id := by
        intro id
        simp only [add, phasesOf, AMap.find?_set]
        split <;> rfl
      refine ⟨⟨AMap.nodupKeys_set h1 _ _, ?_, ?_, ?_⟩, h5⟩
      · intro id sp
        rw [recorded_snoc]
        show sp ∈ (n.add i p).phasesOf id ↔ _
        rw [hp]
        by_cases hid : id = i
        · subst hid
          rw [if_pos rfl, PairFile.mem_insertSet, h2]
          simp only [Op.add.injEq, true_and, ne_eq, reduceCtorEq, not_false_eq_true, and_true]
          tauto
        · rw [if_neg hid, h2]
          simp [Ne.symm hid]
      · intro id
        show id ∈ (n.add i p).nbs.keys ↔ _
        rw [← AMap.find?_isSome]
        simp only [add, AMap.find?_set]
        by_cases hid : id = i
        · subst hid
          simp only [if_true, Option.isSome_some, true_iff]
          exact ⟨p, (recorded_snoc ..).2 (.inl rfl)⟩
        · rw [if_neg hid, AMap.find?_isSome]
          refine (h3 id).trans (exists_congr fun sp => ?_)
          rw [recorded_snoc]
          simp [Ne.symm hid]
      · intro id
        show ((n.add i p).phasesOf id).Nodup
        rw [hp]
        split
        · exact PairFile.nodup_insertSet (h4 i)
        · exact h4 id
    | remove i =>
      have hp : ∀ id, (n.remove i).phasesOf id = if id = i then [] else n.phasesOf id := by
        intro id
        simp only [remove, phasesOf, AMap.find?_erase]
        split <;> rfl
      refine ⟨⟨AMap.nodupKeys_erase h1 _, ?_, ?_, ?_⟩, h5⟩
      · intro id sp
        rw [recorded_snoc]
        show sp ∈ (n.remove i).phasesOf id ↔ _
        rw [hp]
        by_cases hid : id = i
        · subst hid; simp
        · rw [if_neg hid, h2]; simp [Ne.symm hid]
      · intro id
        show id ∈ (n.remove i).nbs.keys ↔ _
        rw [← AMap.find?_isSome]
        simp only [remove, AMap.find?_erase]
        by_cases hid : id = i
        · subst hid
          simp only [if_true, Option.isSome_none, Bool.false_eq_true, false_iff, not_exists]
          intro sp
          rw [recorded_snoc]
          simp
        · rw [if_neg hid, AMap.find?_isSome]
          refine (h3 id).trans (exists_congr fun sp => ?_)
          rw [recorded_snoc]
          simp [Ne.symm hid]
      · intro id
        show ((n.remove i).phasesOf id).Nodup
        rw [hp]
        split
        · simp
        · exact h4 id

theorem mem_phases {n : Neighbours} {R : Nat → StaPhase → Prop} (h : Inv n R) (id : Nat) (sp : StaPhase) : (sp, id) ∈ n.phases ↔ R id sp := by
  rw [← h.phases]
  unfold phases phasesOf
  simp only [List.mem_flatMap, List.mem_map, Prod.mk.injEq]
  constructor
  · rintro ⟨kv, hk, sp', hs, rfl, rfl⟩
    rw [AMap.find?_of_mem h.keys hk]; exact hs
  · intro hs
    cases hf : n.nbs.find? id with
    | none => rw [hf] at hs; cases hs
    | some l => rw [hf] at hs; exact ⟨(id, l), AMap.mem_of_find? hf, sp, hs, rfl, rfl⟩

theorem nodup_phases {n : Neighbours} {R : Nat → StaPhase → Prop} (h : Inv n R) : n.phases.Nodup := by
  unfold phases
  rw [List.nodup_flatMap]
  constructor
  · intro kv hk
    refine List.Nodup.map ?_ ?_
    · intro a b hab; exact (Prod.mk.inj hab).1
    · have := h.nodup kv.1
      unfold phasesOf at this
      rw [AMap.find?_of_mem h.keys (k := kv.1) (v := kv.2) hk] at this
      exact this
  · have hk := h.keys
    unfold AMap.NodupKeys AMap.keys at hk
    rw [List.Nodup, List.pairwise_map] at hk
    refine hk.imp ?_
    intro a b hab x hx hy
    obtain ⟨_, _, rfl⟩ := List.mem_map.1 hx
    obtain ⟨_, _, he⟩ := List.mem_map.1 hy
    exact hab (Prod.mk.inj he).2.symm

/-- **C79** After any calls, a list of neighbours remembers exactly the phases that were added to a neighbour since it was
last removed.  All questions are answered accordingly, no answer lists anything twice, and the event it belongs to never
changes. -/
theorem neighbours_remember (refId : Nat) (ops : List Op) :
    let n := run refId ops
    n.refId = refId ∧
    (∀ id, n.has id = true ↔ ∃ sp, Recorded ops id sp) ∧
    (∀ id station, n.hasStation id station = true ↔ ∃ type, Recorded ops id (station, type)) ∧
    (∀ id sp, n.hasPhase id sp = true ↔ Recorded ops id sp) ∧
    (∀ id, id ∈ n.ids ↔ ∃ sp, Recorded ops id sp) ∧ n.ids.Nodup ∧ n.amount = n.ids.length ∧
    (∀ id sp, sp ∈ n.phasesOf id ↔ Recorded ops id sp) ∧ (∀ id, (n.phasesOf id).Nodup) ∧
    (∀ id sp, (sp, id) ∈ n.phases ↔ Recorded ops id sp) ∧ n.phases.Nodup ∧
    (∀ station, station ∈ n.stations ↔ ∃ id type, Recorded ops id (station, type)) := by
  intro n
  obtain ⟨h, h0⟩ := inv_run refId ops
  refine ⟨h0, ?_, ?_, ?_, h.ids, h.keys, ?_, h.phases, h.nodup, mem_phases h, nodup_phases h, ?_⟩
  · intro id
    rw [has, decide_eq_true_eq]
    exact h.ids id
  · intro id station
    unfold hasStation
    rw [List.any_eq_true]
    constructor
    · rintro ⟨⟨s, t⟩, hm, hs⟩
      simp only [decide_eq_true_eq] at hs
      subst hs
      exact ⟨t, (h.phases _ _).1 hm⟩
    · rintro ⟨t, ht⟩
      exact ⟨(station, t), (h.phases _ _).2 ht, by simp⟩
  · intro id sp
    rw [hasPhase, decide_eq_true_eq]
    exact h.phases id sp
  · simp [amount, Neighbours.ids, AMap.keys]
  · intro station
    have e : n.stations = n.phases.map (fun x => x.1.1) := by
      simp [stations, phases, List.map_flatMap, List.map_map]
      rfl
    rw [e, List.mem_map]
    constructor
    · rintro ⟨⟨⟨s, t⟩, id⟩, hm, rfl⟩
      exact ⟨id, t, (mem_phases h _ _).1 hm⟩
    · rintro ⟨id, t, ht⟩
      exact ⟨((station, t), id), (mem_phases h _ _).2 ht, rfl⟩

/-- two neighbours, of which one is removed and added again with another phase -/
example : (run 9 [.add 1 ("A", "P"), .add 2 ("A", "P"), .add 1 ("B", "S"), .remove 1, .add 1 ("B", "P"), .add 1 ("B", "P")]).phases =
    [(("B", "P"), 1), (("A", "P"), 2)] := by decide +kernel

end Verif.Neighbours
