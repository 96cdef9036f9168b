import Verif.Proofs.WorkingDir

/-!
# C114: the directory of a relocation
-/

set_option linter.unusedSimpArgs false

namespace Verif.WorkingDir
open Verif.Utc

/-! ## the name -/

/-- From 1970 to 2106 the name is determined by the kind of relocation and the second: the number at the end, which looks random,
adds nothing.  Names of different kinds or seconds are different. -/
theorem name_is_the_second (draw : Nat → Nat) (k k' : Kind) {a b : Int} (ha : InRange a) (hb : InRange b) :
    ∃ n n', generate draw k a = .ok n ∧ generate draw k' b = .ok n' ∧ (n = n' ↔ k = k' ∧ second a = second b) := by
  refine ⟨_, _, generate_ok ha, generate_ok hb, fun h => ?_, ?_⟩
  · exact generate_inj ha hb (generate_ok ha) (by rw [generate_ok hb, h])
  · rintro ⟨rfl, h⟩
    have := generate_second (draw := draw) (k := k) ha h hb.1
    rw [generate_ok ha, generate_ok hb] at this
    simpa using this

/-! ## the search -/

/-- The search takes the name of the first reading of the clock that does not exist. -/
theorem search_first {draw : Nat → Nat} {k : Kind} {dirs : List Name} {clock : List Int} (hc : ∀ t ∈ clock, InRange t) (n : Name) :
    search draw k dirs clock = .ok (some n) ↔
      ∃ before now after, clock = before ++ now :: after ∧ generate draw k now = .ok n ∧ n ∉ dirs ∧
        ∀ t ∈ before, ∃ m ∈ dirs, generate draw k t = .ok m := by
  induction clock with
  | nil => simp [search]
  | cons t clock ih =>
    have ht := generate_ok (draw := draw) (k := k) (hc t (List.mem_cons_self ..))
    generalize (k.prefix_ ++ _) = m at ht
    have ih := ih fun u hu => hc u (List.mem_cons_of_mem _ hu)
    unfold search
    simp only [ht]
    by_cases hm : m ∈ dirs
    · rw [if_pos hm, ih]
      constructor
      · rintro ⟨b, now, a, rfl, h1, h2, h3⟩
        refine ⟨t :: b, now, a, rfl, h1, h2, fun u hu => ?_⟩
        rcases List.mem_cons.1 hu with rfl | hu
        · exact ⟨m, hm, ht⟩
        · exact h3 u hu
      · rintro ⟨b, now, a, h0, h1, h2, h3⟩
        cases b with
        | nil =>
          simp only [List.nil_append, List.cons.injEq] at h0
          rw [← h0.1, ht] at h1
          simp only [Outcome.ok.injEq] at h1
          exact absurd (h1 ▸ hm) h2
        | cons u b =>
          simp only [List.cons_append, List.cons.injEq] at h0
          exact ⟨b, now, a, h0.2, h1, h2, fun v hv => h3 v (List.mem_cons_of_mem _ hv)⟩
    · rw [if_neg hm]
      simp only [Outcome.ok.injEq, Option.some.injEq]
      constructor
      · rintro rfl
        exact ⟨[], t, clock, rfl, ht, hm, by simp⟩
      · rintro ⟨b, now, a, h0, h1, h2, h3⟩
        cases b with
        | nil =>
          simp only [List.nil_append, List.cons.injEq] at h0
          rw [← h0.1, ht] at h1
          simpa using h1
        | cons u b =>
          simp only [List.cons_append, List.cons.injEq] at h0
          obtain ⟨m', hm', hg⟩ := h3 u (List.mem_cons_self ..)
          rw [← h0.1, ht] at hg
          simp only [Outcome.ok.injEq] at hg
          exact absurd (hg ▸ hm') hm

/-- The search has not ended exactly if all names so far exist. -/
theorem search_goes_on {draw : Nat → Nat} {k : Kind} {dirs : List Name} {clock : List Int} (hc : ∀ t ∈ clock, InRange t) :
    search draw k dirs clock = .ok none ↔ ∀ t ∈ clock, ∃ m ∈ dirs, generate draw k t = .ok m := by
  induction clock with
  | nil => simp [search]
  | cons t clock ih =>
    have ht := generate_ok (draw := draw) (k := k) (hc t (List.mem_cons_self ..))
    generalize (k.prefix_ ++ _) = m at ht
    have ih := ih fun u hu => hc u (List.mem_cons_of_mem _ hu)
    unfold search
    simp only [ht, List.mem_cons, forall_eq_or_imp, Outcome.ok.injEq, exists_eq_right']
    by_cases hm : m ∈ dirs
    · rw [if_pos hm, ih]
      simp [hm]
    · rw [if_neg hm]
      simp [hm]

/-- The search ends in no more seconds than there are directories, plus one. -/
theorem search_ends {draw : Nat → Nat} {k : Kind} {dirs : List Name} {clock : List Int} (hc : ∀ t ∈ clock, InRange t)
    (h : dirs.length < (clock.map second).toFinset.card) : ∃ n, search draw k dirs clock = .ok (some n) := by
  have htot : ∃ r, search draw k dirs clock = .ok r := by
    clear h
    induction clock with
    | nil => exact ⟨none, rfl⟩
    | cons t clock ih =>
      have ht := generate_ok (draw := draw) (k := k) (hc t (List.mem_cons_self ..))
      unfold search
      simp only [ht]
      split
      · exact ih fun u hu => hc u (List.mem_cons_of_mem _ hu)
      · exact ⟨_, rfl⟩
  obtain ⟨r, hr⟩ := htot
  cases r with
  | some n => exact ⟨n, hr⟩
  | none =>
    exfalso
    have hall := (search_goes_on hc).1 hr
    classical
    -- each second has its own directory
    have hex : ∀ s ∈ (clock.map second).toFinset, ∃ m ∈ dirs, ∃ t ∈ clock, second t = s ∧ generate draw k t = .ok m := by
      intro s hs
      simp only [List.mem_toFinset, List.mem_map] at hs
      obtain ⟨t, ht, rfl⟩ := hs
      obtain ⟨m, hm, hg⟩ := hall t ht
      exact ⟨m, hm, t, ht, rfl, hg⟩
    choose! f hf using hex
    have hle : (clock.map second).toFinset.card ≤ dirs.toFinset.card := by
      refine Finset.card_le_card_of_injOn f (fun s hs => ?_) (fun s hs s' hs' he => ?_)
      · simpa using (hf s hs).1
      · obtain ⟨-, t, ht, rfl, hg⟩ := hf s hs
        obtain ⟨-, t', ht', rfl, hg'⟩ := hf s' hs'
        rw [he] at hg
        exact (generate_inj (hc t ht) (hc t' ht') hg hg').2
    have := List.toFinset_card_le dirs
    omega

/-! ## one relocation after the other -/

/-- A relocation uses a directory that did not exist. -/
theorem relocation_new {draw : Nat → Nat} {dirs dirs' : List Name} {k : Kind} {clock : List Int} {can : Bool} {r : Option Name}
    (h : relocation draw dirs k clock can = .ok (dirs', r)) :
    (∀ n, r = some n → n ∉ dirs) ∧ dirs' = r.toList ++ dirs := by
  unfold relocation at h
  have hs : ∀ n, search draw k dirs clock = .ok (some n) → n ∉ dirs := by
    intro n hn
    clear h
    induction clock with
    | nil => simp [search] at hn
    | cons t clock ih =>
      unfold search at hn
      cases hg : generate draw k t with
      | ok m =>
        simp only [hg] at hn
        by_cases hm : m ∈ dirs
        · rw [if_pos hm] at hn
          exact ih hn
        · rw [if_neg hm] at hn
          simp only [Outcome.ok.injEq, Option.some.injEq] at hn
          exact hn ▸ hm
      | throws => simp [hg] at hn
      | ub => simp [hg] at hn
  cases hr : search draw k dirs clock with
  | throws => simp [hr] at h
  | ub => simp [hr] at h
  | ok o =>
    cases o with
    | none =>
      simp only [hr, Outcome.ok.injEq, Prod.mk.injEq] at h
      obtain ⟨rfl, rfl⟩ := h
      simp
    | some n =>
      simp only [hr] at h
      rw [if_neg (hs n hr)] at h
      by_cases hcan : can = true
      · rw [if_pos hcan] at h
        simp only [Outcome.ok.injEq, Prod.mk.injEq] at h
        obtain ⟨rfl, rfl⟩ := h
        exact ⟨fun m hm => by cases hm; exact hs n hr, rfl⟩
      · rw [if_neg hcan] at h
        simp only [Outcome.ok.injEq, Prod.mk.injEq] at h
        obtain ⟨rfl, rfl⟩ := h
        simp

/-- Relocations one after the other use different directories, none of which existed before, and all of which exist afterwards. -/
theorem relocations_apart {draw : Nat → Nat} {cs : List (Kind × List Int × Bool)} {dirs dirs' : List Name} {ns : List (Option Name)}
    (h : relocations draw dirs cs = .ok (dirs', ns)) :
    (used ns).Nodup ∧ (∀ n ∈ used ns, n ∉ dirs) ∧ ∀ n, n ∈ dirs' ↔ n ∈ dirs ∨ n ∈ used ns := by
  induction cs generalizing dirs ns with
  | nil =>
    simp only [relocations, Outcome.ok.injEq, Prod.mk.injEq] at h
    obtain ⟨rfl, rfl⟩ := h
    simp [used]
  | cons c cs ih =>
    obtain ⟨k, clock, can⟩ := c
    unfold relocations at h
    cases hr : relocation draw dirs k clock can with
    | throws => simp [hr] at h
    | ub => simp [hr] at h
    | ok x =>
      obtain ⟨d1, r⟩ := x
      simp only [hr] at h
      obtain ⟨hnew, rfl⟩ := relocation_new hr
      cases hrest : relocations draw (r.toList ++ dirs) cs with
      | throws => simp [hrest] at h
      | ub => simp [hrest] at h
      | ok y =>
        obtain ⟨d2, rs⟩ := y
        simp only [hrest, Outcome.ok.injEq, Prod.mk.injEq] at h
        obtain ⟨rfl, rfl⟩ := h
        obtain ⟨i1, i2, i3⟩ := ih hrest
        cases r with
        | none =>
          simp only [Option.toList_none, List.nil_append] at i2 i3
          exact ⟨i1, i2, i3⟩
        | some n =>
          simp only [Option.toList_some, List.singleton_append, List.mem_cons, not_or] at i2 i3
          have hu : used (some n :: rs) = n :: used rs := rfl
          rw [hu]
          refine ⟨List.nodup_cons.2 ⟨fun hn => (i2 n hn).1 rfl, i1⟩, fun m hm => ?_, fun m => ?_⟩
          · rcases List.mem_cons.1 hm with rfl | hm
            · exact hnew _ rfl
            · exact (i2 m hm).2
          · rw [i3, List.mem_cons]
            tauto

/-! ## several processes -/

/-- However the steps of several processes are interleaved, no process uses a directory that was there at the start. -/
theorem used_is_new {draw : Nat → Nat} {dirs : List Name} {ops : List Op} {s : State} (h : run draw (start dirs) ops = .ok s)
    {p : Nat} {n : Name} (hp : s.phase p = .using n) : n ∉ dirs :=
  ((inv_run ops [] (inv_start draw dirs) h).2 p n (Or.inr hp)).1

/-- Two processes use the same directory only if they have chosen it in the same second, for the same kind of relocation. -/
theorem shared_same_second_partial {draw : Nat → Nat} {dirs : List Name} {ops : List Op} {s : State}
    (h : run draw (start dirs) ops = .ok s) (hc : ∀ p k now, Op.try_ p k now ∈ ops → InRange now)
    {p q : Nat} {n : Name} (hp : s.phase p = .using n) (hq : s.phase q = .using n) :
    ∃ k a b, Op.try_ p k a ∈ ops ∧ Op.try_ q k b ∈ ops ∧ second a = second b := by
  have hi := inv_run ops [] (inv_start draw dirs) h
  simp only [List.nil_append] at hi
  obtain ⟨-, k, a, ha, hga⟩ := hi.2 p n (Or.inr hp)
  obtain ⟨-, k', b, hb, hgb⟩ := hi.2 q n (Or.inr hq)
  obtain ⟨rfl, hs⟩ := generate_inj (hc _ _ _ ha) (hc _ _ _ hb) hga hgb
  exact ⟨k, a, b, ha, hb, hs⟩

/-- From 1970 to 2106 no schedule has undefined behaviour. -/
theorem run_defined {draw : Nat → Nat} {ops : List Op} (s : State) (hc : ∀ p k now, Op.try_ p k now ∈ ops → InRange now) :
    ∃ s', run draw s ops = .ok s' := by
  induction ops generalizing s with
  | nil => exact ⟨s, rfl⟩
  | cons o ops ih =>
    have hstep : ∃ s1, step draw s o = .ok s1 := by
      cases o with
      | try_ p k now =>
        have hg := generate_ok (draw := draw) (k := k) (hc p k now (List.mem_cons_self ..))
        simp only [step]
        cases s.phase p <;> simp only [hg] <;> first | exact ⟨_, rfl⟩ | (split <;> exact ⟨_, rfl⟩)
      | create p can =>
        simp only [step]
        cases s.phase p <;> simp only <;> first | exact ⟨_, rfl⟩ | (split <;> first | exact ⟨_, rfl⟩ | (split <;> exact ⟨_, rfl⟩))
      | finish p =>
        simp only [step]
        cases s.phase p <;> exact ⟨_, rfl⟩
    obtain ⟨s1, h1⟩ := hstep
    obtain ⟨s2, h2⟩ := ih s1 fun p k now hm => hc p k now (List.mem_cons_of_mem _ hm)
    exact ⟨s2, by unfold run; simp only [h1]; exact h2⟩

namespace Example

/-- 2026-11-17 19:30:05.25 and half a second later -/
def t1 : Int := 1794943805250000
def t2 : Int := 1794943805750000

def draw (n : Nat) : Nat := n % 10000

example : InRange t1 ∧ InRange t2 ∧ second t1 = second t2 := by
  unfold InRange second t1 t2
  decide

example : generate draw .single t1 = .ok "singleevent_20261117193005_3805".toList := by decide +kernel

/-- Two processes that start a relocation in the same second share a directory: the second one looks before the first one has
created it. -/
theorem shared :
    (run draw (start []) [.try_ 1 .single t1, .try_ 2 .single t2, .create 1 true, .create 2 true]).map
      (fun s => (s.phase 1, s.phase 2)) = .ok (.using "singleevent_20261117193005_3805".toList,
        .using "singleevent_20261117193005_3805".toList) := by
  decide +kernel

/-- with the directory created in between, the second process waits for the next second -/
example :
    (run draw (start []) [.try_ 1 .single t1, .create 1 true, .try_ 2 .single t2, .try_ 2 .single (t2 + 1000000),
      .create 2 true]).map (fun s => (s.phase 1, s.phase 2)) = .ok (.using "singleevent_20261117193005_3805".toList,
        .using "singleevent_20261117193006_3806".toList) := by
  decide +kernel

example : relocations draw [] [(.single, [t1], true), (.single, [t1 + 100, t2, t2 + 1000000], true), (.multi, [t2 + 1000000], true)] =
    .ok (["multievent_20261117193006_3806".toList, "singleevent_20261117193006_3806".toList, "singleevent_20261117193005_3805".toList],
      [some "singleevent_20261117193005_3805".toList, some "singleevent_20261117193006_3806".toList,
       some "multievent_20261117193006_3806".toList]) := by decide +kernel

/-- after 2106 the seed does not fit -/
example : generate draw .single (4294967296 * 1000000) = .ub := by decide +kernel

end Example

end Verif.WorkingDir
