import Verif.Proofs.Lru

/-!
# C01, C02: the LRU cache

`exec n h` runs the (newest first) history `h` on the modelled `lru_cache` of capacity `n` and
collects all callback invocations (newest first).  `none` would mean undefined behaviour.
-/

set_option linter.unusedSectionVars false
set_option linter.unusedSimpArgs false

namespace Verif.Lru
open LruSpec

variable {K V : Type} [DecidableEq K]

/-- run a history (newest operation first) from an empty cache -/
def exec (n : Nat) : List (Op K V) → Option (Cache K V × List (K × V))
  | [] => some (init n, [])
  | Op.put k v :: h =>
    match exec n h with
    | none => none
    | some (s, cbs) => (put s k v).map (fun r => (r.1, r.2 ++ cbs))
  | Op.get k :: h =>
    match exec n h with
    | none => none
    | some (s, cbs) => (get s k).map (fun r => (r.1, cbs))
  | Op.clear :: h => (exec n h).map (fun r => (clear r.1, r.2))

theorem exec_inv (n : Nat) (h : List (Op K V)) :
    ∃ s cbs, exec n h = some (s, cbs) ∧ WF s ∧ s.maxSize = n ∧ Sem n h (content s) := by
  induction h with
  | nil => exact ⟨_, _, rfl, init_WF n, rfl, Sem.nil n⟩
  | cons o h ih =>
    obtain ⟨s, cbs, he, hw, hm, hs⟩ := ih
    cases o with
    | put k v =>
      obtain ⟨s', cb, h1, h2, h3, h4⟩ := put_spec hw k v
      refine ⟨s', cb ++ cbs, by simp [exec, he, h1], h2, h3.trans hm, ?_⟩
      have := hs.put k v
      rw [hm] at h4
      rw [← h4] at this; exact this
    | get k =>
      obtain ⟨s', r, h1, h2, h3, _, h4⟩ := get_spec hw k
      refine ⟨s', cbs, by simp [exec, he, h1], h2, h3.trans hm, ?_⟩
      rw [h4]; exact hs.get k
    | clear =>
      exact ⟨clear s, cbs, by simp [exec, he], clear_WF s, hm, Sem.clear n h⟩

/-- **C01.** After any history the cache holds exactly the `n` most recently used distinct keys,
`size` is their number (never more than `n`), and `get` returns the value of the last `put` for
those keys and throws (inner `none`) for all others. No history reaches undefined behaviour. -/
theorem lru_most_recent (n : Nat) (h : List (Op K V)) :
    ∃ s cbs, exec n h = some (s, cbs) ∧
      size s = (resident n h).length ∧ size s ≤ n ∧
      (∀ k, contains s k = true ↔ k ∈ resident n h) ∧
      (∀ k, ∃ s', get s k = some (s', if k ∈ resident n h then lastPut h k else none)) ∧
      (∀ k ∈ resident n h, (lastPut h k).isSome) := by
  obtain ⟨s, cbs, he, hw, hm, hs⟩ := exec_inv n h
  have hlen : size s = (resident n h).length := by
    have := hw.perm.length_eq
    rw [size, this, ← hs.1, content]; simp
  refine ⟨s, cbs, he, hlen, ?_, ?_, ?_, ?_⟩
  · rw [hlen, resident, List.length_take]; omega
  · intro k
    rw [contains, AMap.find?_isSome, AMap.keys, (hw.perm.map Prod.fst).mem_iff, ← hs.1, content]
    simp [Function.comp_def]
  · intro k
    obtain ⟨s', r, h1, _, _, h4, _⟩ := get_spec hw k
    exact ⟨s', by rw [h1, h4, hs.find? k]⟩
  · intro k hk
    rw [← hs.1] at hk
    obtain ⟨p, hp, rfl⟩ := List.mem_map.1 hk
    rw [hs.2 p hp]; rfl

/-- non-vacuity: capacity 2, `put 1; put 2; get 1; put 3` leaves 3 and 1, evicting 2 -/
example : resident 2 ([Op.put 3 "c", Op.get 1, Op.put 2 "b", Op.put 1 "a"] : List (Op Nat String))
    = [3, 1] := by decide

example : (exec 2 ([Op.put 3 "c", Op.get 1, Op.put 2 "b", Op.put 1 "a"] : List (Op Nat String))).map
    (fun r => (content r.1, r.2)) = some ([(3, "c"), (1, "a")], [(2, "b")]) := by decide

/-- **C02a.** What a `put` passes to the callback, after any history: with capacity 0 its own
entry; otherwise, if the key is new and the cache is full, exactly the least recently used entry
with its current value; otherwise nothing. -/
theorem lru_put_callback (n : Nat) (h : List (Op K V)) (k : K) (v : V) :
    ∃ s cbs s', exec n h = some (s, cbs) ∧
      ((n = 0 ∧ put s k v = some (s', [(k, v)])) ∨
       (n ≠ 0 ∧ k ∉ resident n h ∧ (resident n h).length = n ∧
          ∃ k' v', (resident n h).getLast? = some k' ∧ lastPut h k' = some v' ∧
            put s k v = some (s', [(k', v')])) ∨
       (n ≠ 0 ∧ (k ∈ resident n h ∨ (resident n h).length < n) ∧ put s k v = some (s', []))) := by
  obtain ⟨s, cbs, he, hw, hm, hs⟩ := exec_inv n h
  obtain ⟨s', cb, h1, h2, h3, h4⟩ := put_spec hw k v
  refine ⟨s, cbs, s', he, ?_⟩
  rw [hm] at h4
  by_cases hn : n = 0
  · left; refine ⟨hn, ?_⟩
    rw [h1]; rw [aput, if_pos hn] at h4; injection h4 with _ h5; rw [h5]
  have hcb : cb = (aput n (content s) k v).2 := by rw [← h4]
  have hle : (resident n h).length ≤ n := by rw [resident, List.length_take]; omega
  have hlc : (content s).length = (resident n h).length := by rw [← hs.1]; simp
  have hnd : ((content s).map Prod.fst).Nodup := by rw [hs.1]; exact resident_nodup n h
  by_cases hk : k ∈ resident n h
  · right; right
    refine ⟨hn, Or.inl hk, ?_⟩
    have hlen : ((content s).filter (fun p => p.1 ≠ k)).length + 1 = (content s).length := by
      have h5 : ((content s).filter (fun p => p.1 ≠ k)).length =
          (((content s).map Prod.fst).filter (· ≠ k)).length := by
        rw [← filter_keys, List.length_map]
      have h6 : ((content s).map Prod.fst).filter (· ≠ k) = ((content s).map Prod.fst).erase k := by
        rw [hnd.erase_eq_filter]; congr 1; funext x; simp [bne, Bool.beq_eq_decide_eq]
      rw [← hs.1] at hk
      rw [h5, h6, List.length_erase_of_mem hk, List.length_map]
      have := List.length_pos_of_mem hk
      rw [List.length_map] at this; omega
    rw [h1, hcb, aput, if_neg hn]
    simp only
    rw [if_neg (by simp only [List.length_cons]; omega)]
  · have hfil : (content s).filter (fun p => p.1 ≠ k) = content s := by
      rw [List.filter_eq_self]; intro p hp
      have : p.1 ≠ k := fun hc => hk (by rw [← hs.1]; exact List.mem_map.2 ⟨p, hp, hc⟩)
      simpa using this
    by_cases hfull : (resident n h).length = n
    · right; left
      refine ⟨hn, hk, hfull, ?_⟩
      have hne : content s ≠ [] := by
        intro hc; rw [hc] at hlc; simp at hlc; omega
      obtain ⟨p, hp⟩ : ∃ p, (content s).getLast? = some p :=
        ⟨_, List.getLast?_eq_some_getLast hne⟩
      refine ⟨p.1, p.2, ?_, hs.2 p (List.mem_of_getLast? hp), ?_⟩
      · rw [← hs.1, List.getLast?_map, hp]; rfl
      · rw [h1, hcb, aput, if_neg hn]
        simp only
        rw [hfil, if_pos (by simp only [List.length_cons]; omega), List.getLast?_cons, hp]
        rfl
    · right; right
      refine ⟨hn, Or.inr (by omega), ?_⟩
      rw [h1, hcb, aput, if_neg hn]
      simp only
      rw [hfil, if_neg (by simp only [List.length_cons]; omega)]

example : ∃ s cbs s', exec 1 ([Op.put 1 "a"] : List (Op Nat String)) = some (s, cbs) ∧
    put s 2 "b" = some (s', [(1, "a")]) := ⟨_, _, _, rfl, rfl⟩

/-- **C02b.** Bookkeeping over a whole history without `clear`: every insertion of an absent key
is matched by exactly one callback for that key, except that a key still in the cache has one
insertion without callback. In particular the callback fires exactly once per eviction and never
for a retained entry. -/
theorem lru_callback_once (n : Nat) (h : List (Op K V)) (hc : NoClear h) :
    ∃ s cbs, exec n h = some (s, cbs) ∧
      ∀ k, insertions n h k = (cbs.map Prod.fst).count k + (if contains s k then 1 else 0) := by
  induction h with
  | nil => exact ⟨_, _, rfl, fun k => by simp [insertions, contains, init]⟩
  | cons o h ih =>
    have hc' : NoClear h := fun o ho => hc o (List.mem_cons_of_mem _ ho)
    obtain ⟨s, cbs, he, hi⟩ := ih hc'
    obtain ⟨s0, cbs0, he0, _, _, hcon, _⟩ := lru_most_recent n h
    rw [he] at he0; injection he0 with he0; injection he0 with he1 he2; subst he1; subst he2
    have hres : ∀ k, (if contains s k then 1 else 0) = (resident n h).count k := by
      intro k
      rw [(resident_nodup n h).count]
      by_cases hk : k ∈ resident n h
      · rw [if_pos ((hcon k).2 hk), if_pos hk]
      · rw [if_neg (fun hh => hk ((hcon k).1 hh)), if_neg hk]
    cases o with
    | clear => exact absurd rfl (hc _ List.mem_cons_self)
    | get k0 =>
      obtain ⟨s1, cbs1, he1, _, _, hcon1, _⟩ := lru_most_recent n (Op.get k0 :: h)
      refine ⟨s1, cbs1, he1, ?_⟩
      have hcb : cbs1 = cbs := by
        simp only [exec, he] at he1
        cases hg : get s k0 with
        | none => rw [hg] at he1; simp at he1
        | some r => rw [hg] at he1; simp at he1; exact he1.2.symm
      intro k
      have hmem : k ∈ resident n (Op.get k0 :: h) ↔ k ∈ resident n h := by
        obtain ⟨s2, cbs2, e2, hw2, hm2, hs2⟩ := exec_inv n h
        have hsg := hs2.get k0
        rw [← hsg.1, ← hs2.1]
        cases hf : AMap.find? (content s2) k0 with
        | none => simp
        | some v =>
          simp only [List.map_cons, List.mem_cons, filter_keys, List.mem_filter]
          have hk0 : k0 ∈ (content s2).map Prod.fst := AMap.mem_keys_of_find? hf
          by_cases hkk : k = k0
          · subst hkk; simp [hk0]
          · simp [hkk]
      rw [hcb, insertions, hi k]
      congr 1
      have : contains s k = contains s1 k := by
        rw [Bool.eq_iff_iff, hcon k, hcon1 k, hmem]
      rw [this]
    | put k0 v =>
      obtain ⟨s2, cbs2, e2, hw2, hm2, hs2⟩ := exec_inv n h
      rw [he] at e2; injection e2 with e2; injection e2 with e2a e2b; subst e2a; subst e2b
      obtain ⟨s', cb, h1, h2, h3, h4⟩ := put_spec hw2 k0 v
      rw [hm2] at h4
      have hs' := hs2.put k0 v
      refine ⟨s', cb ++ cbs, by simp [exec, he, h1], ?_⟩
      obtain ⟨s1, cbs1, he1, _, _, hcon1, _⟩ := lru_most_recent n (Op.put k0 v :: h)
      have hss : s1 = s' := by
        simp only [exec, he, h1, Option.map_some, Option.some.injEq, Prod.mk.injEq] at he1
        exact he1.1.symm
      subst hss
      intro k
      have hres1 : (if contains s1 k then 1 else 0) = (resident n (Op.put k0 v :: h)).count k := by
        rw [(resident_nodup n _).count]
        by_cases hk : k ∈ resident n (Op.put k0 v :: h)
        · rw [if_pos ((hcon1 k).2 hk), if_pos hk]
        · rw [if_neg (fun hh => hk ((hcon1 k).1 hh)), if_neg hk]
      rw [insertions, hi k, hres1, hres k, List.map_append, List.count_append, ← hs'.1, ← h4]
      simp only
      rw [← h4] at hs'
      -- split of the extended list into kept and evicted part
      have hsplit : (content s1).map Prod.fst ++ cb.map Prod.fst =
          if n = 0 then [k0] else k0 :: (resident n h).filter (· ≠ k0) := by
        by_cases hn : n = 0
        · rw [if_pos hn]
          rw [aput, if_pos hn] at h4
          injection h4 with h5 h6
          rw [h5, h6, hs2.1]; subst hn; simp [resident]
        · rw [if_neg hn, ← hs2.1, ← filter_keys]
          rw [aput, if_neg hn] at h4
          simp only at h4
          split at h4
          · injection h4 with h5 h6
            rw [h5, h6, ← List.map_append]
            have hne : (k0, v) :: (content s).filter (fun p => p.1 ≠ k0) ≠ [] := by simp
            rw [List.getLast?_eq_some_getLast hne]
            simp only [Option.toList]
            rw [List.dropLast_append_getLast hne, List.map_cons]
          · injection h4 with h5 h6
            rw [h5, h6]; simp
      have hcount := congrArg (List.count k) hsplit
      rw [List.count_append] at hcount
      by_cases hn : n = 0
      · subst hn
        simp only [if_true] at hcount
        have hr0 : resident 0 h = [] := by simp [resident]
        rw [hr0]
        simp only [List.not_mem_nil, not_false_eq_true, and_true, List.count_nil]
        by_cases hkk : k0 = k
        · subst hkk; simp at hcount ⊢; omega
        · rw [if_neg hkk]
          rw [List.count_cons_of_ne hkk, List.count_nil] at hcount; omega
      · rw [if_neg hn] at hcount
        by_cases hkk : k0 = k
        · subst hkk
          have hz : List.count k0 ((resident n h).filter (· ≠ k0)) = 0 :=
            List.count_eq_zero.2 (by simp)
          rw [List.count_cons_self, hz] at hcount
          rw [(resident_nodup n h).count]
          by_cases hmem : k0 ∈ resident n h
          · simp [hmem]; omega
          · simp [hmem]; omega
        · rw [List.count_cons_of_ne hkk, List.count_filter (by simp; exact fun hc => hkk hc.symm)]
            at hcount
          simp [hkk]; omega

example : NoClear ([Op.put 2 "b", Op.put 1 "a"] : List (Op Nat String)) ∧
    insertions 1 ([Op.put 2 "b", Op.put 1 "a"] : List (Op Nat String)) 1 = 1 := by
  refine ⟨?_, by decide⟩
  intro o ho; simp at ho; rcases ho with rfl | rfl <;> simp

end Verif.Lru
