import Verif.Model.Lru
import Verif.Spec.Lru

set_option linter.unusedSectionVars false
set_option linter.unusedSimpArgs false

namespace Verif.Lru
open LruSpec

variable {K V : Type} [DecidableEq K]

/-- representation invariant -/
structure WF (s : Cache K V) : Prop where
  perm : s.map.Perm (s.items.map (fun n => (n.2.1, n.1)))
  keys : (s.items.map (fun n => n.2.1)).Nodup
  addr : (s.items.map (fun n => n.1)).Nodup
  lt : ∀ n ∈ s.items, n.1 < s.fresh

theorem WF.nodupKeys {s : Cache K V} (h : WF s) : AMap.NodupKeys s.map := by
  unfold AMap.NodupKeys AMap.keys
  have := (h.perm.map Prod.fst).nodup_iff
  rw [this]; simpa [Function.comp_def] using h.keys

theorem WF.find? {s : Cache K V} (h : WF s) {k : K} {a : Nat} :
    AMap.find? s.map k = some a ↔ ∃ v, (a, k, v) ∈ s.items := by
  rw [← AMap.mem_iff_find? h.nodupKeys, h.perm.mem_iff, List.mem_map]
  constructor
  · rintro ⟨⟨a', k', v⟩, hm, he⟩
    injection he with h1 h2
    simp only at h1 h2
    subst h1 h2; exact ⟨v, hm⟩
  · rintro ⟨v, hm⟩; exact ⟨_, hm, rfl⟩

theorem WF.find?_none {s : Cache K V} (h : WF s) {k : K} :
    AMap.find? s.map k = none ↔ k ∉ s.items.map (fun n => n.2.1) := by
  rw [AMap.find?_eq_none]
  unfold AMap.keys
  rw [(h.perm.map Prod.fst).mem_iff]
  simp [Function.comp_def]

/-- the abstract content, front first -/
def content (s : Cache K V) : List (K × V) := s.items.map (·.2)

theorem content_keys (s : Cache K V) : (content s).map Prod.fst = s.items.map (fun n => n.2.1) := by
  simp [content, Function.comp_def]

theorem filter_addr {l : List (Nat × K × V)} (ha : (l.map (fun n => n.1)).Nodup)
    (hk : (l.map (fun n => n.2.1)).Nodup) {a : Nat} {k : K} {v : V} (hm : (a, k, v) ∈ l) :
    l.filter (fun n => n.1 ≠ a) = l.filter (fun n => n.2.1 ≠ k) := by
  apply List.filter_congr
  intro n hn
  have : n.1 = a ↔ n.2.1 = k := by
    constructor
    · intro h
      have := List.inj_on_of_nodup_map ha hn hm h
      rw [this]
    · intro h
      have := List.inj_on_of_nodup_map hk hn hm h
      rw [this]
  simp [this]

/-- abstract put -/
def aput (N : Nat) (L : List (K × V)) (k : K) (v : V) : List (K × V) × List (K × V) :=
  if N = 0 then (L, [(k, v)])
  else
    let L' := (k, v) :: L.filter (fun p => p.1 ≠ k)
    if L'.length > N then (L'.dropLast, L'.getLast?.toList) else (L', [])

theorem put_spec {s : Cache K V} (h : WF s) (k : K) (v : V) :
    ∃ s' cb, put s k v = some (s', cb) ∧ WF s' ∧ s'.maxSize = s.maxSize ∧
      (content s', cb) = aput s.maxSize (content s) k v := by
  by_cases h0 : s.maxSize = 0
  · exact ⟨s, [(k, v)], by simp [put, h0], h, rfl, by simp [aput, h0]⟩
  -- after insertion and possible erasure of the old node
  set items2 : List (Nat × K × V) := (s.fresh, k, v) :: s.items.filter (fun n => n.2.1 ≠ k)
    with hitems2
  obtain ⟨map1, hmap1⟩ : ∃ map1, unlinkOld ((s.fresh, k, v) :: s.items) s.map k = some (items2, map1) ∧
      AMap.erase map1 k = AMap.erase s.map k := by
    unfold unlinkOld
    cases hf : AMap.find? s.map k with
    | none =>
      refine ⟨s.map, ?_, rfl⟩
      have hk := h.find?_none.1 hf
      have : s.items.filter (fun n => n.2.1 ≠ k) = s.items := by
        rw [List.filter_eq_self]
        intro n hn
        have : n.2.1 ≠ k := fun hc => hk (List.mem_map.2 ⟨n, hn, hc⟩)
        simpa using this
      rw [hitems2, this]
    | some a =>
      obtain ⟨w, hw⟩ := h.find?.1 hf
      have hlt := h.lt _ hw
      refine ⟨AMap.erase s.map k, ?_, ?_⟩
      · have hmem : a ∈ ((s.fresh, k, v) :: s.items).map (·.1) := by
          simp only [List.map_cons, List.mem_cons]
          exact Or.inr (List.mem_map.2 ⟨_, hw, rfl⟩)
        simp only [eraseNode, hmem, if_true, Option.map_some, Option.some.injEq, Prod.mk.injEq,
          and_true]
        rw [List.filter_cons_of_pos (by simp; omega), filter_addr h.addr h.keys hw]
      · simp [AMap.erase]
  have hput : put s k v =
      (let map2 := AMap.set map1 k s.fresh
       if map2.length > s.maxSize then
        match items2.getLast? with
        | none => none
        | some (_, k', v') =>
          some ({ s with items := items2.dropLast, map := AMap.erase map2 k', fresh := s.fresh + 1 },
                [(k', v')])
      else some ({ s with items := items2, map := map2, fresh := s.fresh + 1 }, [])) := by
    unfold put
    rw [if_neg h0]
    simp only
    rw [hmap1.1]; rfl
  -- properties of the intermediate state
  have hset : AMap.set map1 k s.fresh = (k, s.fresh) :: AMap.erase s.map k := by
    rw [AMap.set, hmap1.2]
  have hWF2 : WF ({ s with items := items2, map := AMap.set map1 k s.fresh, fresh := s.fresh + 1 } :
      Cache K V) := by
    constructor
    · rw [hset, hitems2]
      simp only [List.map_cons]
      refine List.Perm.cons _ ?_
      have := h.perm.filter (fun p => decide (p.1 ≠ k))
      refine this.trans (List.Perm.of_eq ?_)
      rw [List.filter_map]; rfl
    · rw [hitems2]
      simp only [List.map_cons, List.nodup_cons]
      refine ⟨?_, ?_⟩
      · simp
      · exact h.keys.sublist ((List.filter_sublist).map _)
    · rw [hitems2]
      simp only [List.map_cons, List.nodup_cons]
      refine ⟨?_, h.addr.sublist ((List.filter_sublist).map _)⟩
      intro hc
      obtain ⟨n, hn, he⟩ := List.mem_map.1 hc
      have := h.lt n (List.mem_of_mem_filter hn)
      omega
    · intro n hn
      rw [hitems2] at hn
      rcases List.mem_cons.1 hn with rfl | hn
      · simp
      · have := h.lt n (List.mem_of_mem_filter hn)
        simp only; omega
  have hcont2 : items2.map (·.2) = (k, v) :: (content s).filter (fun p => p.1 ≠ k) := by
    rw [hitems2, content, List.map_cons, List.filter_map]; rfl
  have hlen : (AMap.set map1 k s.fresh).length = items2.length := by
    have := hWF2.perm.length_eq
    simpa using this
  rw [hput]
  simp only
  by_cases hgt : (AMap.set map1 k s.fresh).length > s.maxSize
  · rw [if_pos hgt]
    have hne : items2 ≠ [] := by simp [hitems2]
    obtain ⟨init, last, hsplit⟩ : ∃ init last, items2 = init ++ [last] :=
      ⟨items2.dropLast, items2.getLast hne, (List.dropLast_append_getLast hne).symm⟩
    obtain ⟨a', k', v'⟩ := last
    have hgl : items2.getLast? = some (a', k', v') := by rw [hsplit]; simp
    rw [hgl]
    refine ⟨_, _, rfl, ?_, rfl, ?_⟩
    · have hk2 := hWF2.keys
      simp only [hsplit, List.map_append, List.map_cons, List.map_nil] at hk2
      have hnot : k' ∉ init.map (fun n => n.2.1) := by
        intro hc
        rw [List.nodup_append] at hk2
        exact hk2.2.2 _ hc _ (by simp) rfl
      have hdl : items2.dropLast = init := by rw [hsplit]; simp
      constructor
      · simp only [hdl]
        have := hWF2.perm.filter (fun p => decide (p.1 ≠ k'))
        refine this.trans (List.Perm.of_eq ?_)
        simp only [hsplit, List.map_append, List.filter_append, List.map_cons, List.map_nil]
        rw [List.filter_eq_self.2, List.filter_cons_of_neg (by simp)]
        · simp
        · intro p hp
          obtain ⟨n, hn, rfl⟩ := List.mem_map.1 hp
          have : n.2.1 ≠ k' := fun hc => hnot (List.mem_map.2 ⟨n, hn, hc⟩)
          simpa using this
      · exact hWF2.keys.sublist ((List.dropLast_sublist _).map _)
      · exact hWF2.addr.sublist ((List.dropLast_sublist _).map _)
      · intro n hn; exact hWF2.lt n ((List.dropLast_sublist _).subset hn)
    · rw [hlen] at hgt
      have hl' : ((k, v) :: (content s).filter (fun p => p.1 ≠ k)).length > s.maxSize := by
        rw [← hcont2]; simpa using hgt
      rw [aput, if_neg h0]
      simp only
      rw [if_pos hl', ← hcont2]
      simp [content, hsplit]
  · rw [if_neg hgt]
    refine ⟨_, _, rfl, hWF2, rfl, ?_⟩
    rw [hlen] at hgt
    have hl' : ¬ ((k, v) :: (content s).filter (fun p => p.1 ≠ k)).length > s.maxSize := by
      rw [← hcont2]; simpa using hgt
    rw [aput, if_neg h0]
    simp only
    rw [if_neg hl', ← hcont2]
    rfl

theorem get_spec {s : Cache K V} (h : WF s) (k : K) :
    ∃ s' r, get s k = some (s', r) ∧ WF s' ∧ s'.maxSize = s.maxSize ∧
      r = AMap.find? (content s) k ∧
      content s' = (match AMap.find? (content s) k with
        | none => content s
        | some v => (k, v) :: (content s).filter (fun p => p.1 ≠ k)) := by
  have hnk : AMap.NodupKeys (content s) := by
    unfold AMap.NodupKeys AMap.keys; rw [content_keys]; exact h.keys
  cases hf : AMap.find? s.map k with
  | none =>
    have : AMap.find? (content s) k = none := by
      rw [AMap.find?_eq_none]; unfold AMap.keys; rw [content_keys]; exact h.find?_none.1 hf
    exact ⟨s, none, by simp [get, hf], h, rfl, by rw [this], by rw [this]⟩
  | some a =>
    obtain ⟨v, hv⟩ := h.find?.1 hf
    have hfc : AMap.find? (content s) k = some v :=
      AMap.find?_of_mem hnk (List.mem_map.2 ⟨_, hv, rfl⟩)
    have hfi : s.items.find? (fun n => n.1 = a) = some (a, k, v) := by
      obtain ⟨n, hn⟩ : ∃ n, s.items.find? (fun n => n.1 = a) = some n := by
        rw [← Option.isSome_iff_exists, List.find?_isSome]
        exact ⟨_, hv, by simp⟩
      have hm := List.mem_of_find?_eq_some hn
      have hp := List.find?_some hn
      simp only [decide_eq_true_eq] at hp
      rw [hn, List.inj_on_of_nodup_map h.addr hm hv hp]
    have hfilt := filter_addr h.addr h.keys hv
    have hperm : ((a, k, v) :: s.items.filter (fun n => n.1 ≠ a)).Perm s.items := by
      have hsub : [(a, k, v)] = s.items.filter (fun n => n.1 = a) := by
        have hnod : s.items.Nodup := List.Nodup.of_map _ h.addr
        have h1 : (s.items.filter (fun n => n.1 = a)).Perm [(a, k, v)] := by
          rw [List.perm_ext_iff_of_nodup (hnod.filter _) (by simp)]
          intro n
          simp only [List.mem_filter, decide_eq_true_eq, List.mem_singleton]
          constructor
          · rintro ⟨h1, h2⟩; exact List.inj_on_of_nodup_map h.addr h1 hv h2
          · rintro rfl; exact ⟨hv, rfl⟩
        exact (List.perm_singleton.1 h1).symm
      have := List.filter_append_perm (fun n : Nat × K × V => decide (n.1 = a)) s.items
      rw [← hsub] at this
      simpa using this
    refine ⟨{ s with items := (a, k, v) :: s.items.filter (fun m => m.1 ≠ a) }, some v, ?_, ?_, rfl,
      hfc.symm, ?_⟩
    · unfold get; rw [hf]; simp only [hfi]
    · constructor
      · exact h.perm.trans (hperm.symm.map _)
      · exact ((hperm.map _).nodup_iff).2 h.keys
      · exact ((hperm.map _).nodup_iff).2 h.addr
      · intro n hn; exact h.lt n (hperm.subset hn)
    · rw [hfc]
      simp only [content, List.map_cons, hfilt, List.filter_map]
      rfl

theorem clear_WF (s : Cache K V) : WF (clear s) :=
  ⟨by simp [clear], by simp [clear], by simp [clear], by simp [clear]⟩

theorem init_WF (n : Nat) : WF (init n : Cache K V) :=
  ⟨by simp [init], by simp [init], by simp [init], by simp [init]⟩

/-! ### the abstract content and the history specification -/

theorem distinct_nodup (l : List K) : (distinct l).Nodup := by
  induction l with
  | nil => simp [distinct]
  | cons a l ih =>
    rw [distinct, List.nodup_cons]
    exact ⟨by simp, ih.filter _⟩

theorem resident_nodup (n : Nat) (h : List (Op K V)) : (resident n h).Nodup :=
  (distinct_nodup _).sublist (List.take_sublist _ _)

/-- key lemma: taking `n` after adding `k` in front, seen from the `n` first ones only -/
theorem take_cons_filter {F : List K} (hF : F.Nodup) (k : K) {n : Nat} (hn : n ≠ 0) :
    (k :: F.filter (· ≠ k)).take n =
      (let L := k :: (F.take n).filter (· ≠ k)
       if L.length > n then L.dropLast else L) := by
  obtain ⟨m, rfl⟩ := Nat.exists_eq_succ_of_ne_zero hn
  simp only [Nat.succ_eq_add_one, List.take_succ_cons]
  have hsplit : F = F.take (m+1) ++ F.drop (m+1) := (List.take_append_drop _ _).symm
  set R := F.take (m+1) with hR
  set T := F.drop (m+1) with hT
  have hlenR : R.length ≤ m + 1 := by rw [hR, List.length_take]; omega
  have hTnil : R.length < m + 1 → T = [] := by
    intro h
    rw [hR, List.length_take] at h
    rw [hT, List.drop_eq_nil_iff]; omega
  have hfilt : F.filter (· ≠ k) = R.filter (· ≠ k) ++ T.filter (· ≠ k) := by
    conv_lhs => rw [hsplit]
    rw [List.filter_append]
  rw [hfilt]
  by_cases hk : k ∈ R
  · have hRn : R.Nodup := hF.sublist (List.take_sublist _ _)
    have hle : (R.filter (· ≠ k)).length = R.length - 1 := by
      have : R.filter (· ≠ k) = R.erase k := by
        rw [hRn.erase_eq_filter]; congr 1; funext x; simp [bne, Bool.beq_eq_decide_eq]
      rw [this, List.length_erase_of_mem hk]
    have hpos : 0 < R.length := List.length_pos_of_mem hk
    rw [if_neg (by simp only [List.length_cons]; omega)]
    by_cases hfull : R.length < m + 1
    · rw [hTnil hfull]; simp only [List.filter_nil, List.append_nil]
      rw [List.take_of_length_le (by omega)]
    · rw [List.take_append_of_le_length (by omega), List.take_of_length_le (by omega)]
  · have hid : R.filter (· ≠ k) = R := by
      rw [List.filter_eq_self]; intro a ha
      have : a ≠ k := fun hc => hk (hc ▸ ha)
      simpa using this
    rw [hid]
    by_cases hfull : R.length < m + 1
    · rw [hTnil hfull, if_neg (by simp only [List.length_cons]; omega)]
      simp only [List.filter_nil, List.append_nil]
      rw [List.take_of_length_le (by omega)]
    · have hne : R ≠ [] := by intro hc; rw [hc] at hfull; simp at hfull
      rw [if_pos (by simp only [List.length_cons]; omega), List.dropLast_cons_of_ne_nil hne,
        List.take_append_of_le_length (by omega), List.dropLast_eq_take]
      congr 2; omega

/-- content described by the history -/
def Sem (n : Nat) (h : List (Op K V)) (L : List (K × V)) : Prop :=
  L.map Prod.fst = resident n h ∧ ∀ p ∈ L, lastPut h p.1 = some p.2

theorem Sem.find? {n : Nat} {h : List (Op K V)} {L : List (K × V)} (hs : Sem n h L) (k : K) :
    AMap.find? L k = if k ∈ resident n h then lastPut h k else none := by
  rw [← hs.1]
  by_cases hk : k ∈ L.map Prod.fst
  · rw [if_pos hk]
    have : (AMap.find? L k).isSome := AMap.find?_isSome.2 hk
    obtain ⟨v, hv⟩ := Option.isSome_iff_exists.1 this
    rw [hv, hs.2 (k, v) (AMap.mem_of_find? hv)]
  · rw [if_neg hk]; exact AMap.find?_eq_none.2 hk

theorem filter_keys (L : List (K × V)) (k : K) :
    (L.filter (fun p => p.1 ≠ k)).map Prod.fst = (L.map Prod.fst).filter (· ≠ k) := by
  rw [List.filter_map]; rfl

theorem Sem.put {n : Nat} {h : List (Op K V)} {L : List (K × V)} (hs : Sem n h L) (k : K) (v : V) :
    Sem n (Op.put k v :: h) (aput n L k v).1 := by
  by_cases hn : n = 0
  · subst hn
    have hL : L = [] := by have := hs.1; simpa [resident] using this
    subst hL
    simp [aput, Sem, resident]
  · have hkeys : (aput n L k v).1.map Prod.fst = resident n (Op.put k v :: h) := by
      have := take_cons_filter (distinct_nodup (uses n h)) k hn
      rw [resident, uses, distinct, this, aput, if_neg hn]
      have e : (k :: ((distinct (uses n h)).take n).filter (· ≠ k)) =
          ((k, v) :: L.filter (fun p => p.1 ≠ k)).map Prod.fst := by
        rw [List.map_cons, filter_keys, hs.1, resident]
      simp only [e, List.length_map]
      split
      · rw [List.map_dropLast]
      · rfl
    refine ⟨hkeys, ?_⟩
    intro p hp
    have hp' : p ∈ (k, v) :: L.filter (fun p => p.1 ≠ k) := by
      unfold aput at hp
      rw [if_neg hn] at hp
      simp only at hp
      split at hp
      · exact (List.dropLast_sublist _).subset hp
      · exact hp
    rcases List.mem_cons.1 hp' with rfl | hp'
    · simp [lastPut]
    · rw [List.mem_filter] at hp'
      have hne : p.1 ≠ k := by simpa using hp'.2
      rw [lastPut, if_neg (Ne.symm hne)]; exact hs.2 p hp'.1

theorem Sem.get {n : Nat} {h : List (Op K V)} {L : List (K × V)} (hs : Sem n h L) (k : K) :
    Sem n (Op.get k :: h) (match AMap.find? L k with
        | none => L
        | some v => (k, v) :: L.filter (fun p => p.1 ≠ k)) := by
  rw [hs.find? k]
  by_cases hk : k ∈ resident n h
  · have hkL : k ∈ L.map Prod.fst := hs.1 ▸ hk
    have hsome : (AMap.find? L k).isSome := AMap.find?_isSome.2 hkL
    obtain ⟨w, hw⟩ := Option.isSome_iff_exists.1 hsome
    have hlp := hs.2 _ (AMap.mem_of_find? hw)
    simp only at hlp
    rw [if_pos hk, hlp]
    simp only
    have hn : n ≠ 0 := by rintro rfl; simp [resident] at hk
    refine ⟨?_, ?_⟩
    · have := take_cons_filter (distinct_nodup (uses n h)) k hn
      have huses : uses n (Op.get k :: h) = k :: uses n h := by
        rw [uses, if_pos (by exact hk)]
      rw [resident, huses, distinct, this, List.map_cons, filter_keys, hs.1, ← resident]
      have hnd := resident_nodup n h
      have hlen : ((resident n h).filter (· ≠ k)).length = (resident n h).length - 1 := by
        have : (resident n h).filter (· ≠ k) = (resident n h).erase k := by
          rw [hnd.erase_eq_filter]; congr 1; funext x; simp [bne, Bool.beq_eq_decide_eq]
        rw [this, List.length_erase_of_mem hk]
      have hpos : 0 < (resident n h).length := List.length_pos_of_mem hk
      have hle : (resident n h).length ≤ n := by rw [resident, List.length_take]; omega
      rw [if_neg (by simp only [List.length_cons]; omega)]
    · intro p hp
      rcases List.mem_cons.1 hp with rfl | hp
      · simpa [lastPut] using hlp
      · rw [lastPut]; exact hs.2 p (List.mem_of_mem_filter hp)
  · rw [if_neg hk]
    refine ⟨?_, ?_⟩
    · have huses : uses n (Op.get k :: h) = uses n h := by
        rw [uses, if_neg (by exact hk)]
      rw [resident, huses]; exact hs.1
    · intro p hp; rw [lastPut]; exact hs.2 p hp

theorem Sem.clear (n : Nat) (h : List (Op K V)) : Sem n (Op.clear :: h) [] := by
  simp [Sem, resident, uses, distinct]

theorem Sem.nil (n : Nat) : Sem n ([] : List (Op K V)) [] := by
  simp [Sem, resident, uses, distinct]

end Verif.Lru
