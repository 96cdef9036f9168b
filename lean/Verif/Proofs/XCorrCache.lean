import Verif.Spec.XCorrCache

set_option linter.unusedSectionVars false
set_option linter.unusedSimpArgs false

namespace Verif.XCorr
open XCorrSpec

theorem at?_assign (c : Cache) (e1 : Nat) (s p : String) (e2 : Nat) (e : Entry)
    (a : Nat) (s' p' : String) (b : Nat) :
    at? (assign c e1 s p e2 e) a s' p' b =
      if a = e1 ∧ s' = s ∧ p' = p ∧ b = e2 then some e else at? c a s' p' b := by
  unfold at? assign
  simp only [AMap.find?_set]
  by_cases h1 : a = e1
  · subst h1
    simp only [if_true, Option.bind_some, AMap.find?_set, true_and]
    by_cases h2 : s' = s
    · subst h2
      simp only [if_true, Option.bind_some, AMap.find?_set, true_and]
      by_cases h3 : p' = p
      · subst h3
        simp only [if_true, Option.bind_some, AMap.find?_set, true_and]
        by_cases h4 : b = e2
        · simp [h4]
        · simp only [h4, if_false]
          cases hc1 : AMap.find? c a with
          | none => simp
          | some m1 =>
            simp only [Option.getD_some, Option.bind_some]
            cases hc2 : AMap.find? m1 s' with
            | none => simp
            | some m2 =>
              simp only [Option.getD_some, Option.bind_some]
              cases hc3 : AMap.find? m2 p' with
              | none => simp
              | some m3 => simp
      · simp only [h3, if_false, false_and]
        cases hc1 : AMap.find? c a with
        | none => simp
        | some m1 =>
          simp only [Option.getD_some, Option.bind_some]
          cases hc2 : AMap.find? m1 s' with
          | none => simp
          | some m2 => simp
    · simp only [h2, if_false, false_and]
      cases hc1 : AMap.find? c a with
      | none => simp
      | some m1 => simp
  · simp [h1]

theorem at?_eraseAt (c : Cache) (e1 : Nat) (s p : String) (e2 : Nat)
    (a : Nat) (s' p' : String) (b : Nat) :
    at? (eraseAt c e1 s p e2) a s' p' b =
      if a = e1 ∧ s' = s ∧ p' = p ∧ b = e2 then none else at? c a s' p' b := by
  unfold eraseAt
  cases hc1 : AMap.find? c e1 with
  | none =>
    simp only
    split
    · rename_i h; obtain ⟨rfl, rfl, rfl, rfl⟩ := h; simp [at?, hc1]
    · rfl
  | some m1 =>
    simp only
    cases hc2 : AMap.find? m1 s with
    | none =>
      simp only
      split
      · rename_i h; obtain ⟨rfl, rfl, rfl, rfl⟩ := h; simp [at?, hc1, hc2]
      · rfl
    | some m2 =>
      simp only
      cases hc3 : AMap.find? m2 p with
      | none =>
        simp only
        split
        · rename_i h; obtain ⟨rfl, rfl, rfl, rfl⟩ := h; simp [at?, hc1, hc2, hc3]
        · rfl
      | some m3 =>
        simp only
        unfold at?
        by_cases h1 : a = e1
        · subst h1
          simp only [AMap.find?_set, if_true, Option.bind_some, true_and, hc1]
          by_cases h2 : s' = s
          · subst h2
            simp only [AMap.find?_set, if_true, Option.bind_some, true_and, hc2]
            by_cases h3 : p' = p
            · subst h3
              simp only [AMap.find?_set, if_true, Option.bind_some, true_and, hc3, AMap.find?_erase]
            · simp [AMap.find?_set, h3]
          · simp [AMap.find?_set, h2]
        · simp [AMap.find?_set, h1]

/-- at most one direction is stored for a pair, and never a pair of an event with itself -/
def OneDir (c : Cache) : Prop :=
  ∀ a b s p, at? c a s p b ≠ none → at? c b s p a = none

/-- all nested maps have unique keys -/
def Uniq (c : Cache) : Prop :=
  AMap.NodupKeys c ∧ ∀ kv1 ∈ c, AMap.NodupKeys kv1.2 ∧ ∀ kv2 ∈ kv1.2, AMap.NodupKeys kv2.2 ∧
    ∀ kv3 ∈ kv2.2, AMap.NodupKeys kv3.2

theorem at?_add (c : Cache) (e1 e2 : Nat) (s p : String) (e : Entry) (a b : Nat) (s' p' : String) :
    at? (add c e1 e2 s p e) a s' p' b =
      if s' = s ∧ p' = p ∧ a = e2 ∧ b = e1 then none
      else if s' = s ∧ p' = p ∧ a = e1 ∧ b = e2 then some e
      else at? c a s' p' b := by
  unfold add
  rw [at?_eraseAt, at?_assign]
  have e1' : (a = e2 ∧ s' = s ∧ p' = p ∧ b = e1) ↔ (s' = s ∧ p' = p ∧ a = e2 ∧ b = e1) := by tauto
  have e2' : (a = e1 ∧ s' = s ∧ p' = p ∧ b = e2) ↔ (s' = s ∧ p' = p ∧ a = e1 ∧ b = e2) := by tauto
  simp only [e1', e2']

theorem at?_remove (c : Cache) (e1 e2 : Nat) (s p : String) (a b : Nat) (s' p' : String) :
    at? (remove c e1 e2 s p) a s' p' b =
      if s' = s ∧ p' = p ∧ ((a = e1 ∧ b = e2) ∨ (a = e2 ∧ b = e1)) then none
      else at? c a s' p' b := by
  unfold remove
  rw [at?_eraseAt, at?_eraseAt]
  by_cases hk : s' = s ∧ p' = p ∧ ((a = e1 ∧ b = e2) ∨ (a = e2 ∧ b = e1))
  · rw [if_pos hk]
    split
    · rfl
    · rw [if_pos (by tauto)]
  · rw [if_neg hk, if_neg (by tauto), if_neg (by tauto)]

theorem OneDir.nil : OneDir [] := by intro a b s p h; simp [at?] at h

theorem OneDir.add {c : Cache} (h : OneDir c) (e1 e2 : Nat) (s p : String) (e : Entry) :
    OneDir (add c e1 e2 s p e) := by
  intro a b s' p' hne
  rw [at?_add] at hne ⊢
  by_cases hk : s' = s ∧ p' = p
  · obtain ⟨rfl, rfl⟩ := hk
    simp only [true_and] at hne ⊢
    by_cases h1 : a = e2 ∧ b = e1
    · simp [h1] at hne
    · rw [if_neg h1] at hne
      by_cases h2 : a = e1 ∧ b = e2
      · rw [if_pos ⟨h2.2, h2.1⟩]
      · rw [if_neg h2] at hne
        have := h a b s' p' hne
        split
        · rfl
        · rename_i h3
          rw [if_neg (by rintro ⟨rfl, rfl⟩; exact h1 ⟨rfl, rfl⟩)]; exact this
  · have k1 : ∀ q : Prop, ¬ (s' = s ∧ p' = p ∧ q) := fun q hq => hk ⟨hq.1, hq.2.1⟩
    rw [if_neg (k1 _), if_neg (k1 _)] at hne ⊢
    exact h a b s' p' hne

theorem OneDir.remove {c : Cache} (h : OneDir c) (e1 e2 : Nat) (s p : String) :
    OneDir (remove c e1 e2 s p) := by
  intro a b s' p' hne
  rw [at?_remove] at hne ⊢
  split at hne
  · exact absurd rfl hne
  · have := h a b s' p' hne
    split
    · rfl
    · exact this

theorem Uniq.nil : Uniq [] := ⟨List.nodup_nil, by simp⟩

theorem AMap_mem_set {K V : Type} [DecidableEq K] {m : AMap K V} {k : K} {v : V} {x : K × V}
    (h : x ∈ AMap.set m k v) : x = (k, v) ∨ x ∈ m := by
  rcases List.mem_cons.1 h with h | h
  · exact Or.inl h
  · exact Or.inr (List.mem_of_mem_filter h)

theorem Uniq.assign {c : Cache} (h : Uniq c) (e1 : Nat) (s p : String) (e2 : Nat) (e : Entry) :
    Uniq (assign c e1 s p e2 e) := by
  have hm1 : AMap.NodupKeys ((AMap.find? c e1).getD []) ∧
      ∀ kv2 ∈ (AMap.find? c e1).getD [], AMap.NodupKeys kv2.2 ∧ ∀ kv3 ∈ kv2.2, AMap.NodupKeys kv3.2 := by
    cases hf : AMap.find? c e1 with
    | none => exact ⟨List.nodup_nil, by simp⟩
    | some m1 => exact h.2 (e1, m1) (AMap.mem_of_find? hf)
  set m1 := (AMap.find? c e1).getD [] with hm1d
  have hm2 : AMap.NodupKeys ((AMap.find? m1 s).getD []) ∧
      ∀ kv3 ∈ (AMap.find? m1 s).getD [], AMap.NodupKeys kv3.2 := by
    cases hf : AMap.find? m1 s with
    | none => exact ⟨List.nodup_nil, by simp⟩
    | some m2 => exact hm1.2 (s, m2) (AMap.mem_of_find? hf)
  set m2 := (AMap.find? m1 s).getD [] with hm2d
  have hm3 : AMap.NodupKeys ((AMap.find? m2 p).getD []) := by
    cases hf : AMap.find? m2 p with
    | none => exact List.nodup_nil
    | some m3 => exact hm2.2 (p, m3) (AMap.mem_of_find? hf)
  refine ⟨AMap.nodupKeys_set h.1 _ _, ?_⟩
  intro kv1 hkv1
  rcases AMap_mem_set hkv1 with rfl | hkv1
  · refine ⟨AMap.nodupKeys_set hm1.1 _ _, ?_⟩
    intro kv2 hkv2
    rcases AMap_mem_set hkv2 with rfl | hkv2
    · refine ⟨AMap.nodupKeys_set hm2.1 _ _, ?_⟩
      intro kv3 hkv3
      rcases AMap_mem_set hkv3 with rfl | hkv3
      · exact AMap.nodupKeys_set hm3 _ _
      · exact hm2.2 kv3 hkv3
    · exact hm1.2 kv2 hkv2
  · exact h.2 kv1 hkv1

theorem Uniq.eraseAt {c : Cache} (h : Uniq c) (e1 : Nat) (s p : String) (e2 : Nat) :
    Uniq (eraseAt c e1 s p e2) := by
  unfold XCorr.eraseAt
  cases hf1 : AMap.find? c e1 with
  | none => exact h
  | some m1 =>
    have hm1 := h.2 (e1, m1) (AMap.mem_of_find? hf1)
    simp only
    cases hf2 : AMap.find? m1 s with
    | none => exact h
    | some m2 =>
      have hm2 := hm1.2 (s, m2) (AMap.mem_of_find? hf2)
      simp only
      cases hf3 : AMap.find? m2 p with
      | none => exact h
      | some m3 =>
        have hm3 := hm2.2 (p, m3) (AMap.mem_of_find? hf3)
        simp only
        refine ⟨AMap.nodupKeys_set h.1 _ _, ?_⟩
        intro kv1 hkv1
        rcases AMap_mem_set hkv1 with rfl | hkv1
        · refine ⟨AMap.nodupKeys_set hm1.1 _ _, ?_⟩
          intro kv2 hkv2
          rcases AMap_mem_set hkv2 with rfl | hkv2
          · refine ⟨AMap.nodupKeys_set hm2.1 _ _, ?_⟩
            intro kv3 hkv3
            rcases AMap_mem_set hkv3 with rfl | hkv3
            · exact AMap.nodupKeys_erase hm3 _
            · exact hm2.2 kv3 hkv3
          · exact hm1.2 kv2 hkv2
        · exact h.2 kv1 hkv1

theorem Uniq.add {c : Cache} (h : Uniq c) (e1 e2 : Nat) (s p : String) (e : Entry) :
    Uniq (add c e1 e2 s p e) := (h.assign _ _ _ _ _).eraseAt _ _ _ _

theorem Uniq.remove {c : Cache} (h : Uniq c) (e1 e2 : Nat) (s p : String) :
    Uniq (remove c e1 e2 s p) := (h.eraseAt _ _ _ _).eraseAt _ _ _ _

theorem mem_forEach {c : Cache} (h : Uniq c) (a b : Nat) (s p : String) (e : Entry) :
    (a, b, s, p, e) ∈ forEach c ↔ at? c a s p b = some e := by
  unfold forEach at?
  simp only [List.mem_flatMap, List.mem_map, Prod.mk.injEq]
  constructor
  · rintro ⟨⟨k1, m1⟩, h1, ⟨k2, m2⟩, h2, ⟨k3, m3⟩, h3, ⟨k4, x⟩, h4, rfl, rfl, rfl, rfl, rfl⟩
    have u1 := h.2 _ h1
    have u2 := u1.2 _ h2
    have u3 := u2.2 _ h3
    simp only [AMap.find?_of_mem h.1 h1, AMap.find?_of_mem u1.1 h2, AMap.find?_of_mem u2.1 h3,
      AMap.find?_of_mem u3 h4, Option.bind_some]
  · intro hf
    simp only [Option.bind_eq_some_iff] at hf
    obtain ⟨m1, h1, m2, h2, m3, h3, h4⟩ := hf
    exact ⟨_, AMap.mem_of_find? h1, _, AMap.mem_of_find? h2, _, AMap.mem_of_find? h3, _,
      AMap.mem_of_find? h4, rfl, rfl, rfl, rfl, rfl⟩

/-- direct slot after merging a list of results into `c` -/
theorem get_of_oneDir {c : Cache} (h : OneDir c) (a b : Nat) (s p : String) (e : Entry)
    (hd : at? c a s p b = some e) : get c a b s p = some e ∧ get c b a s p = some e.neg := by
  have hb := h a b s p (by rw [hd]; simp)
  simp [get, hd, hb]

theorem Entry.neg_neg (e : Entry) : e.neg.neg = e := by simp [Entry.neg]

theorem flip_eq_neg (e : Entry) : flip e = e.neg := rfl

theorem get_symm {c : Cache} (h : OneDir c) (a b : Nat) (s p : String) :
    get c b a s p = (get c a b s p).map Entry.neg := by
  unfold get
  cases h1 : at? c a s p b with
  | some e =>
    rw [h a b s p (by rw [h1]; simp)]; rfl
  | none =>
    cases h2 : at? c b s p a with
    | some e => simp [Entry.neg_neg]
    | none => rfl

theorem get_add {c : Cache} (h : OneDir c) (e1 e2 : Nat) (s p : String) (e : Entry) {a b : Nat}
    (hab : a ≠ b) (s' p' : String) :
    get (add c e1 e2 s p e) a b s' p' =
      View.record (fun a b s p => get c a b s p) e1 e2 s p e a b s' p' := by
  unfold View.record
  by_cases hk : s' = s ∧ p' = p
  · rw [if_pos hk]
    obtain ⟨rfl, rfl⟩ := hk
    by_cases h1 : a = e1 ∧ b = e2
    · obtain ⟨rfl, rfl⟩ := h1
      have : at? (add c a b s' p' e) a s' p' b = some e := by
        rw [at?_add, if_neg (by rintro ⟨_, _, h, _⟩; exact hab h), if_pos ⟨rfl, rfl, rfl, rfl⟩]
      simp [get, this]
    · rw [if_neg h1]
      by_cases h2 : a = e2 ∧ b = e1
      · obtain ⟨rfl, rfl⟩ := h2
        have : at? (add c b a s' p' e) b s' p' a = some e := by
          rw [at?_add, if_neg (by rintro ⟨_, _, h, _⟩; exact hab h.symm), if_pos ⟨rfl, rfl, rfl, rfl⟩]
        rw [if_pos ⟨rfl, rfl⟩, flip_eq_neg]
        exact (get_of_oneDir (h.add _ _ _ _ _) _ _ _ _ _ this).2
      · rw [if_neg h2]
        unfold get
        rw [at?_add, at?_add, if_neg (by tauto), if_neg (by tauto), if_neg (by tauto),
          if_neg (by tauto)]
  · rw [if_neg hk]
    unfold get
    rw [at?_add, at?_add, if_neg (by tauto), if_neg (by tauto), if_neg (by tauto),
      if_neg (by tauto)]

theorem get_remove (c : Cache) (e1 e2 : Nat) (s p : String) (a b : Nat) (s' p' : String) :
    get (remove c e1 e2 s p) a b s' p' =
      View.forget (fun a b s p => get c a b s p) e1 e2 s p a b s' p' := by
  unfold View.forget get
  rw [at?_remove, at?_remove]
  by_cases hk : s' = s ∧ p' = p ∧ ((a = e1 ∧ b = e2) ∨ (a = e2 ∧ b = e1))
  · rw [if_pos hk, if_pos hk, if_pos (by tauto)]
  · rw [if_neg hk, if_neg hk, if_neg (by tauto)]

/-- folding `add` over a list of results that mentions each unordered pair consistently -/
theorem foldl_add (l : List (Nat × Nat × String × String × Entry)) :
    ∀ {c : Cache}, OneDir c → Uniq c →
      OneDir (l.foldl (fun c x => add c x.1 x.2.1 x.2.2.1 x.2.2.2.1 x.2.2.2.2) c) ∧
      Uniq (l.foldl (fun c x => add c x.1 x.2.1 x.2.2.1 x.2.2.2.1 x.2.2.2.2) c) ∧
      ∀ a b s p, a ≠ b →
        ((∀ e, (a, b, s, p, e) ∉ l) → (∀ e, (b, a, s, p, e) ∉ l) →
          get (l.foldl (fun c x => add c x.1 x.2.1 x.2.2.1 x.2.2.2.1 x.2.2.2.2) c) a b s p =
            get c a b s p) ∧
        (∀ e, (a, b, s, p, e) ∈ l → (∀ e', (a, b, s, p, e') ∈ l → e' = e) →
          (∀ e', (b, a, s, p, e') ∉ l) →
          get (l.foldl (fun c x => add c x.1 x.2.1 x.2.2.1 x.2.2.2.1 x.2.2.2.2) c) a b s p =
            some e) := by
  induction l with
  | nil =>
    intro c h1 h2
    exact ⟨h1, h2, fun a b s p _ => ⟨fun _ _ => rfl, fun e he => by simp at he⟩⟩
  | cons x l ih =>
    intro c h1 h2
    obtain ⟨x1, x2, xs, xp, xe⟩ := x
    simp only [List.foldl_cons]
    have h1' := h1.add x1 x2 xs xp xe
    have h2' := h2.add x1 x2 xs xp xe
    obtain ⟨i1, i2, i3⟩ := ih h1' h2'
    refine ⟨i1, i2, ?_⟩
    intro a b s p hab
    obtain ⟨j1, j2⟩ := i3 a b s p hab
    refine ⟨?_, ?_⟩
    · intro k1 k2
      rw [j1 (fun e he => k1 e (List.mem_cons_of_mem _ he))
        (fun e he => k2 e (List.mem_cons_of_mem _ he)), get_add h1 _ _ _ _ _ hab]
      unfold View.record
      split
      · rename_i hk
        split
        · rename_i hk2
          obtain ⟨rfl, rfl⟩ := hk; obtain ⟨rfl, rfl⟩ := hk2
          exact absurd List.mem_cons_self (k1 xe)
        · split
          · rename_i hk2
            obtain ⟨rfl, rfl⟩ := hk; obtain ⟨rfl, rfl⟩ := hk2
            exact absurd List.mem_cons_self (k2 xe)
          · rfl
      · rfl
    · intro e he huniq hrev
      by_cases hin : (a, b, s, p, e) ∈ l
      · exact j2 e hin (fun e' he' => huniq e' (List.mem_cons_of_mem _ he'))
          (fun e' he' => hrev e' (List.mem_cons_of_mem _ he'))
      · rcases List.mem_cons.1 he with heq | hin'
        · simp only [Prod.mk.injEq] at heq
          obtain ⟨rfl, rfl, rfl, rfl, rfl⟩ := heq
          rw [j1 ?_ (fun e' he' => hrev e' (List.mem_cons_of_mem _ he')), get_add h1 _ _ _ _ _ hab]
          · simp [View.record]
          · intro e' he'
            have := huniq e' (List.mem_cons_of_mem _ he')
            subst this; exact hin he'
        · exact absurd hin' hin

theorem get_merge {c o : Cache} (hc : OneDir c) (uc : Uniq c) (ho : OneDir o) (uo : Uniq o)
    {a b : Nat} (hab : a ≠ b) (s p : String) :
    get (merge c o) a b s p =
      View.overlay (fun a b s p => get c a b s p) (fun a b s p => get o a b s p) a b s p := by
  unfold View.overlay
  simp only
  obtain ⟨_, _, hm⟩ := foldl_add (forEach o) hc uc
  cases h1 : at? o a s p b with
  | some e =>
    have hrev := ho a b s p (by rw [h1]; simp)
    have hg : get o a b s p = some e := by simp [get, h1]
    rw [hg]
    exact (hm a b s p hab).2 e ((mem_forEach uo _ _ _ _ _).2 h1)
      (fun e' he' => by
        have := (mem_forEach uo _ _ _ _ _).1 he'; rw [h1] at this; injection this with this
        exact this.symm)
      (fun e' he' => by
        have := (mem_forEach uo _ _ _ _ _).1 he'; rw [hrev] at this; simp at this)
  | none =>
    cases h2 : at? o b s p a with
    | some e =>
      have hg : get o a b s p = some e.neg := by simp [get, h1, h2]
      rw [hg]
      have := (hm b a s p (Ne.symm hab)).2 e ((mem_forEach uo _ _ _ _ _).2 h2)
        (fun e' he' => by
          have := (mem_forEach uo _ _ _ _ _).1 he'; rw [h2] at this; injection this with this
          exact this.symm)
        (fun e' he' => by
          have := (mem_forEach uo _ _ _ _ _).1 he'; rw [h1] at this; simp at this)
      have hsym := get_symm (foldl_add (forEach o) hc uc).1 b a s p
      unfold merge
      rw [hsym, this]; rfl
    | none =>
      have hg : get o a b s p = none := by simp [get, h1, h2]
      rw [hg]
      exact (hm a b s p hab).1
        (fun e he => by have := (mem_forEach uo _ _ _ _ _).1 he; rw [h1] at this; simp at this)
        (fun e he => by have := (mem_forEach uo _ _ _ _ _).1 he; rw [h2] at this; simp at this)

theorem merge_inv {c o : Cache} (hc : OneDir c) (uc : Uniq c) :
    OneDir (merge c o) ∧ Uniq (merge c o) :=
  ⟨(foldl_add (forEach o) hc uc).1, (foldl_add (forEach o) hc uc).2.1⟩

end Verif.XCorr
