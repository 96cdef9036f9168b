import Verif.Model.XCorrBuild
import Verif.Spec.ClusterFiles
import Verif.Proofs.XCorrCache
import Verif.Proofs.XCorrBuild
import Mathlib.Data.List.Sort
import Mathlib.Data.List.Forall2

/-!
# The order in which the neighbours and phases of an event are listed does not matter for a relocation (C99)
-/

set_option linter.unusedSimpArgs false
set_option linter.unusedSectionVars false

namespace Verif.Relocate
open Verif.Catalog Verif.XCorr

variable {K : Type} [Field K] [LinearOrder K]

theorem foldlM_congr₂ {S A B : Type} {R : A → B → Prop} {f : S → A → Outcome S} {g : S → B → Outcome S}
    (h : ∀ s a b, R a b → f s a = g s b) : ∀ {l : List A} {l' : List B}, List.Forall₂ R l l' → ∀ s, l.foldlM f s = l'.foldlM g s
  | [], [], .nil, s => rfl
  | a :: l, b :: l', .cons h1 h2, s => by
    rw [List.foldlM_cons, List.foldlM_cons, h s a b h1]
    congr 1
    funext s'
    exact foldlM_congr₂ h h2 s'

/-- the same event with the same neighbours and phases, listed in any order -/
structure AlikeNb (n m : Neighbours) : Prop where
  ref : n.refId = m.refId
  ids : n.ids.Perm m.ids
  phases : n.phases.Perm m.phases
  has : ∀ b sp, n.hasPhase b sp = m.hasPhase b sp

abbrev AlikeEntry (x y : Nat × Neighbours) : Prop := x.1 = y.1 ∧ AlikeNb x.2 y.2

/-- the caches store the same results the same way round -/
def SameCache (c d : Cache) : Prop := ∀ a s p b, at? c a s p b = at? d a s p b

theorem SameCache.get {c d : Cache} (h : SameCache c d) (a b : Nat) (s p : String) : XCorr.get c a b s p = XCorr.get d a b s p := by
  unfold XCorr.get
  rw [h a s p b, h b s p a]

/-! ## the relocation -/

theorem xcorrEntry_get (c : Cache) (a b : Nat) (sp : StaPhase) :
    xcorrEntry c a b sp = (XCorr.get c a b sp.1 sp.2).bind (fun e => if e.valid then some e else none) := by
  unfold xcorrEntry
  by_cases h : XCorr.empty c = true
  · rw [if_pos h]
    have : c = [] := by simpa [XCorr.empty] using h
    subst this
    rfl
  · rw [if_neg h]

theorem string_trichotomy (a b : String) : a < b ∨ a = b ∨ b < a := by
  by_cases h : a < b
  · exact .inl h
  · by_cases h' : b < a
    · exact .inr (.inr h')
    · exact .inr (.inl (String.le_antisymm (String.not_lt.1 h') (String.not_lt.1 h)))

theorem tupleLe_total (a b : StaPhase × Nat) : tupleLe a b ∨ tupleLe b a := by
  unfold tupleLe
  rcases string_trichotomy a.1.1 b.1.1 with h | h | h
  · exact .inl (.inl h)
  · rcases string_trichotomy a.1.2 b.1.2 with h' | h' | h'
    · exact .inl (.inr ⟨h, .inl h'⟩)
    · rcases le_total a.2 b.2 with h'' | h''
      · exact .inl (.inr ⟨h, .inr ⟨h', h''⟩⟩)
      · exact .inr (.inr ⟨h.symm, .inr ⟨h'.symm, h''⟩⟩)
    · exact .inr (.inr ⟨h.symm, .inl h'⟩)
  · exact .inr (.inl h)

theorem tupleLe_trans (a b c : StaPhase × Nat) (h : tupleLe a b) (h' : tupleLe b c) : tupleLe a c := by
  unfold tupleLe at *
  rcases h with h | ⟨h, h1⟩
  · rcases h' with h' | ⟨h', -⟩
    · exact .inl (String.lt_trans h h')
    · exact .inl (h' ▸ h)
  · rcases h' with h' | ⟨h', h2⟩
    · exact .inl (h ▸ h')
    · refine .inr ⟨h.trans h', ?_⟩
      rcases h1 with h1 | ⟨h1, h3⟩
      · rcases h2 with h2 | ⟨h2, -⟩
        · exact .inl (String.lt_trans h1 h2)
        · exact .inl (h2 ▸ h1)
      · rcases h2 with h2 | ⟨h2, h4⟩
        · exact .inl (h1 ▸ h2)
        · exact .inr ⟨h1.trans h2, h3.trans h4⟩

theorem tupleLe_antisymm (a b : StaPhase × Nat) (h : tupleLe a b) (h' : tupleLe b a) : a = b := by
  unfold tupleLe at *
  rcases h with h | ⟨h, h1⟩
  · rcases h' with h' | ⟨h', -⟩
    · exact absurd (String.lt_trans h h') (String.lt_irrefl _)
    · exact absurd h (h' ▸ String.lt_irrefl _)
  · rcases h' with h' | ⟨-, h2⟩
    · exact absurd h' (h ▸ String.lt_irrefl _)
    · rcases h1 with h1 | ⟨h1, h3⟩
      · rcases h2 with h2 | ⟨h2, -⟩
        · exact absurd (String.lt_trans h1 h2) (String.lt_irrefl _)
        · exact absurd h1 (h2 ▸ String.lt_irrefl _)
      · rcases h2 with h2 | ⟨-, h4⟩
        · exact absurd h2 (h1 ▸ String.lt_irrefl _)
        · exact Prod.ext (Prod.ext h h1) (le_antisymm h3 h4)

instance : IsTotal (StaPhase × Nat) tupleLe := ⟨tupleLe_total⟩
instance : IsTrans (StaPhase × Nat) tupleLe := ⟨tupleLe_trans⟩
instance : Std.Antisymm (tupleLe) := ⟨tupleLe_antisymm⟩

theorem sorted_perm {l l' : List (StaPhase × Nat)} (h : l.Perm l') : l.insertionSort tupleLe = l'.insertionSort tupleLe := by
  refine List.Perm.eq_of_pairwise (le := tupleLe) ?_ (List.pairwise_insertionSort _ _) (List.pairwise_insertionSort _ _)
    ((List.perm_insertionSort _ _).trans (h.trans (List.perm_insertionSort _ _).symm))
  intro a b _ _ h1 h2
  exact tupleLe_antisymm a b h1 h2

theorem obsStep_same (env : Env K) (o : ObsOptions K) (cat : Catalog K) {c d : Cache} (h : SameCache c d) (refEv : Event K) :
    obsStep env o cat c refEv = obsStep env o cat d refEv := by
  funext s t
  unfold obsStep neighStep observation
  simp only [xcorrEntry_get, h.get]

theorem addObservations_alike (env : Env K) (o : ObsOptions K) (cat : Catalog K) {c d : Cache} (h : SameCache c d)
    {n m : Neighbours} (hn : AlikeNb n m) (ops : List (SolverOp K)) :
    addObservations env o cat c n ops = addObservations env o cat d m ops := by
  unfold addObservations
  rw [hn.ref, sorted_perm hn.phases]
  congr 1
  funext refEv
  rw [obsStep_same env o cat h]

theorem observe_alike (env : Env K) (o : ObsOptions K) {c d : Cache} (h : SameCache c d) {l l' : Cluster}
    (hl : List.Forall₂ AlikeEntry l l') (prev cur : Catalog K) : observe env o c l prev cur = observe env o d l' prev cur := by
  unfold observe
  refine foldlM_congr₂ ?_ hl _
  rintro s ⟨k, n⟩ ⟨k', m⟩ ⟨rfl, hn⟩
  unfold observeStep
  simp only [addObservations_alike env o _ h hn]

theorem residuals_alike (env : Env K) (u first : Bool) (ops : List (SolverOp K)) {l l' : Cluster}
    (hl : List.Forall₂ AlikeEntry l l') (cat : Catalog K) :
    computeEventResiduals env u first ops l cat = computeEventResiduals env u first ops l' cat := by
  unfold computeEventResiduals
  refine foldlM_congr₂ ?_ hl _
  rintro s ⟨k, n⟩ ⟨k', m⟩ ⟨rfl, hn⟩
  have hr : n.refId = m.refId := hn.ref
  unfold residualsStep
  simp only [hr]

theorem update_alike (env : Env K) (first : Bool) (ans : Answer K) {l l' : Cluster}
    (hl : List.Forall₂ AlikeEntry l l') (cat : Catalog K) :
    updateRelocatedEvents env first ans l cat = updateRelocatedEvents env first ans l' cat := by
  unfold updateRelocatedEvents
  refine foldlM_congr₂ ?_ hl _
  rintro s ⟨k, n⟩ ⟨k', m⟩ ⟨rfl, hn⟩
  have hr : n.refId = m.refId := hn.ref
  unfold updateStep
  simp only [hr]

theorem relocate_alike (env : Env K) (so : SolverOptions K) (o : ObsOptions K) {c d : Cache} (h : SameCache c d) {l l' : Cluster}
    (hl : List.Forall₂ AlikeEntry l l') (sol : SolverAnswers K) (cat : Catalog K) :
    relocate ⟨env, so, o, c, l, sol⟩ cat = relocate ⟨env, so, o, d, l', sol⟩ cat := by
  have hit : ∀ it s, iteration ⟨env, so, o, c, l, sol⟩ it s = iteration ⟨env, so, o, d, l', sol⟩ it s := by
    intro it s
    unfold iteration
    simp only [observe_alike env o h hl, residuals_alike env _ _ _ hl, update_alike env _ _ hl]
  have hloop : ∀ n it s, loop ⟨env, so, o, c, l, sol⟩ n it s = loop ⟨env, so, o, d, l', sol⟩ n it s := by
    intro n
    induction n with
    | zero => intro it s; rfl
    | succ n ih =>
      intro it s
      unfold loop
      rw [hit]
      simp only [ih]
  unfold relocate
  rw [hloop]

/-! ## merging correlation results -/

theorem at?_foldl (a b : Nat) (s p : String) : ∀ (l : List (Nat × Nat × String × String × Entry)) (c : Cache),
    ((∀ e, (a, b, s, p, e) ∉ l) → (∀ e, (b, a, s, p, e) ∉ l) →
      at? (l.foldl (fun c x => add c x.1 x.2.1 x.2.2.1 x.2.2.2.1 x.2.2.2.2) c) a s p b = at? c a s p b) ∧
    (∀ e, (a, b, s, p, e) ∈ l → (∀ e', (a, b, s, p, e') ∈ l → e' = e) → (∀ e', (b, a, s, p, e') ∉ l) →
      at? (l.foldl (fun c x => add c x.1 x.2.1 x.2.2.1 x.2.2.2.1 x.2.2.2.2) c) a s p b = some e) ∧
    (∀ e, (b, a, s, p, e) ∈ l → (∀ e', (a, b, s, p, e') ∉ l) →
      at? (l.foldl (fun c x => add c x.1 x.2.1 x.2.2.1 x.2.2.2.1 x.2.2.2.2) c) a s p b = none)
  | [], c => ⟨fun _ _ => rfl, fun e he => by simp at he, fun e he => by simp at he⟩
  | (x1, x2, xs, xp, xe) :: l, c => by
    obtain ⟨i1, i2, i3⟩ := at?_foldl a b s p l (add c x1 x2 xs xp xe)
    simp only [List.foldl_cons]
    refine ⟨?_, ?_, ?_⟩
    · intro h1 h2
      rw [i1 (fun e he => h1 e (List.mem_cons_of_mem _ he)) (fun e he => h2 e (List.mem_cons_of_mem _ he)), at?_add, if_neg, if_neg]
      · rintro ⟨rfl, rfl, rfl, rfl⟩
        exact h1 xe (by simp)
      · rintro ⟨rfl, rfl, rfl, rfl⟩
        exact h2 xe (by simp)
    · intro e he hu hr
      by_cases hin : (a, b, s, p, e) ∈ l
      · exact i2 e hin (fun e' he' => hu e' (List.mem_cons_of_mem _ he')) (fun e' he' => hr e' (List.mem_cons_of_mem _ he'))
      · rcases List.mem_cons.1 he with heq | hin'
        · simp only [Prod.mk.injEq] at heq
          obtain ⟨rfl, rfl, rfl, rfl, rfl⟩ := heq
          rw [i1 ?_ (fun e' he' => hr e' (List.mem_cons_of_mem _ he')), at?_add, if_neg, if_pos ⟨rfl, rfl, rfl, rfl⟩]
          · rintro ⟨-, -, rfl, -⟩
            exact hr e he
          · intro e' he'
            have := hu e' (List.mem_cons_of_mem _ he')
            subst this; exact hin he'
        · exact absurd hin' hin
    · intro e he hr
      by_cases hin : ∃ e, (b, a, s, p, e) ∈ l
      · obtain ⟨e', he'⟩ := hin
        exact i3 e' he' (fun e' he' => hr e' (List.mem_cons_of_mem _ he'))
      · rcases List.mem_cons.1 he with heq | hin'
        · simp only [Prod.mk.injEq] at heq
          obtain ⟨rfl, rfl, rfl, rfl, rfl⟩ := heq
          rw [i1 (fun e' he' => hr e' (List.mem_cons_of_mem _ he')) (fun e' he' => hin ⟨e', he'⟩), at?_add, if_pos ⟨rfl, rfl, rfl, rfl⟩]
        · exact absurd ⟨e, hin'⟩ hin

theorem at?_merge {o : Cache} (ho : OneDir o) (uo : Uniq o) (c : Cache) (a b : Nat) (s p : String) :
    at? (merge c o) a s p b = match at? o a s p b with
      | some e => some e
      | none => match at? o b s p a with
        | some _ => none
        | none => at? c a s p b := by
  obtain ⟨h1, h2, h3⟩ := at?_foldl a b s p (forEach o) c
  unfold merge
  have hm := fun a b e => mem_forEach uo a b s p e
  cases ha : at? o a s p b with
  | some e =>
    refine h2 e ((hm a b e).2 ha) ?_ ?_
    · intro e' he'
      have := (hm a b e').1 he'
      rw [ha] at this; injection this with this; exact this.symm
    · intro e' he'
      have := (hm b a e').1 he'
      rw [ho a b s p (by rw [ha]; simp)] at this; cases this
  | none =>
    have hna : ∀ e, (a, b, s, p, e) ∉ forEach o := by
      intro e he
      have := (hm a b e).1 he
      rw [ha] at this; cases this
    cases hb : at? o b s p a with
    | some e => exact h3 e ((hm b a e).2 hb) hna
    | none =>
      refine h1 hna ?_
      intro e he
      have := (hm b a e).1 he
      rw [hb] at this; cases this

theorem SameCache.merge {c d o q : Cache} (h : SameCache c d) (h' : SameCache o q) (ho : OneDir o) (uo : Uniq o)
    (hq : OneDir q) (uq : Uniq q) : SameCache (merge c o) (merge d q) := by
  intro a s p b
  rw [at?_merge ho uo, at?_merge hq uq, h' a s p b, h' b s p a, h a s p b]

theorem SameCache.add {c d : Cache} (h : SameCache c d) (e1 e2 : Nat) (s p : String) (e : Entry) :
    SameCache (add c e1 e2 s p e) (add d e1 e2 s p e) := by
  intro a s' p' b
  rw [at?_add, at?_add, h a s' p' b]

theorem SameCache.trans {a b c : Cache} (h : SameCache a b) (h' : SameCache b c) : SameCache a c :=
  fun x s p y => (h x s p y).trans (h' x s p y)

theorem add_comm {c : Cache} {r n1 n2 : Nat} (h1 : r ≠ n1) (h2 : r ≠ n2) (h12 : n1 ≠ n2) (s p : String) (e1 e2 : Entry) :
    SameCache (add (add c r n1 s p e1) r n2 s p e2) (add (add c r n2 s p e2) r n1 s p e1) := by
  intro a s' p' b
  simp only [at?_add]
  by_cases hs : s' = s ∧ p' = p
  · obtain ⟨rfl, rfl⟩ := hs
    simp only [true_and]
    by_cases c1 : a = n2 ∧ b = r
    · obtain ⟨rfl, rfl⟩ := c1
      simp [h12, h12.symm, h1, h1.symm, h2, h2.symm]
    · by_cases c2 : a = r ∧ b = n2
      · obtain ⟨rfl, rfl⟩ := c2
        simp [h12, h12.symm, h1, h1.symm, h2, h2.symm]
      · rw [if_neg c1, if_neg c2, if_neg c1, if_neg c2]
  · have k : ∀ q : Prop, ¬ (s' = s ∧ p' = p ∧ q) := fun q hq => hs ⟨hq.1, hq.2.1⟩
    simp only [k, if_false]

theorem has_add {c : Cache} {r n1 n2 : Nat} (h1 : r ≠ n1) (h2 : r ≠ n2) (h12 : n1 ≠ n2) (s p : String) (e : Entry) :
    XCorr.has (XCorr.add c r n1 s p e) r n2 s p = XCorr.has c r n2 s p := by
  unfold XCorr.has XCorr.get
  simp only [at?_add]
  simp [h12, h12.symm, h1, h1.symm, h2, h2.symm]

/-! ## folds -/

theorem fold_related {S A : Type} {R : S → S → Prop} {f : S → A → Outcome S} {P : A → Prop}
    (hresp : ∀ a, P a → ∀ s s' t, R s s' → f s a = .ok t → ∃ t', f s' a = .ok t' ∧ R t t') :
    ∀ (l : List A), (∀ a ∈ l, P a) → ∀ s s' t, R s s' → l.foldlM f s = .ok t → ∃ t', l.foldlM f s' = .ok t' ∧ R t t'
  | [], _, s, s', t, h, h' => by
    cases h'
    exact ⟨s', rfl, h⟩
  | a :: l, hP, s, s', t, h, h' => by
    rw [List.foldlM_cons] at h'
    cases hs : f s a with
    | ok u =>
      rw [hs] at h'
      obtain ⟨u', k1, k2⟩ := hresp a (hP a (by simp)) s s' u h hs
      obtain ⟨t', k3, k4⟩ := fold_related hresp l (fun a ha => hP a (by simp [ha])) u u' t k2 h'
      exact ⟨t', by rw [List.foldlM_cons, k1]; exact k3, k4⟩
    | throws => rw [hs] at h'; cases h'
    | ub => rw [hs] at h'; cases h'

theorem fold_perm {S A : Type} {R : S → S → Prop} (htr : ∀ s t u, R s t → R t u → R s u) {f : S → A → Outcome S} {P : A → Prop}
    (hresp : ∀ a, P a → ∀ s s' t, R s s' → f s a = .ok t → ∃ t', f s' a = .ok t' ∧ R t t')
    (hcomm : ∀ a b, P a → P b → ∀ s t u, f s a = .ok t → f t b = .ok u → ∃ t' u', f s b = .ok t' ∧ f t' a = .ok u' ∧ R u u')
    (hrefl : ∀ s, R s s) {l l' : List A} (hp : l.Perm l') : (∀ a ∈ l, P a) → ∀ s s' t, R s s' → l.foldlM f s = .ok t →
      ∃ t', l'.foldlM f s' = .ok t' ∧ R t t' := by
  induction hp with
  | nil => intro hP s s' t h h'; exact fold_related hresp [] hP s s' t h h'
  | cons a _ ih =>
    intro hP s s' t h h'
    rw [List.foldlM_cons] at h'
    cases hs : f s a with
    | ok u =>
      rw [hs] at h'
      obtain ⟨u', k1, k2⟩ := hresp a (hP a (by simp)) s s' u h hs
      obtain ⟨t', k3, k4⟩ := ih (fun a ha => hP a (by simp [ha])) u u' t k2 h'
      exact ⟨t', by rw [List.foldlM_cons, k1]; exact k3, k4⟩
    | throws => rw [hs] at h'; cases h'
    | ub => rw [hs] at h'; cases h'
  | swap a b l =>
    intro hP s s' t h h'
    rw [List.foldlM_cons] at h'
    cases hs : f s b with
    | ok u =>
      rw [hs] at h'
      change (a :: l).foldlM f u = _ at h'
      rw [List.foldlM_cons] at h'
      cases hu : f u a with
      | ok v =>
        rw [hu] at h'
        obtain ⟨u1, v1, k1, k2, k3⟩ := hcomm b a (hP b (by simp)) (hP a (by simp)) s u v hs hu
        obtain ⟨u2, k4, k5⟩ := hresp a (hP a (by simp)) s s' u1 h k1
        obtain ⟨v2, k6, k7⟩ := hresp b (hP b (by simp)) u1 u2 v1 k5 k2
        obtain ⟨t', k8, k9⟩ := fold_related hresp l (fun a ha => hP a (by simp [ha])) v v2 t (htr _ _ _ k3 k7) h'
        refine ⟨t', ?_, k9⟩
        rw [List.foldlM_cons, k4]
        change (b :: l).foldlM f u2 = _
        rw [List.foldlM_cons, k6]
        exact k8
      | throws => rw [hu] at h'; cases h'
      | ub => rw [hu] at h'; cases h'
    | throws => rw [hs] at h'; cases h'
    | ub => rw [hs] at h'; cases h'
  | trans h1 _ ih1 ih2 =>
    intro hP s s' t h h'
    obtain ⟨t1, k1, k2⟩ := ih1 hP s s' t h h'
    obtain ⟨t2, k3, k4⟩ := ih2 (fun a ha => hP a (h1.symm.subset ha)) s' s' t1 (hrefl s') k1
    exact ⟨t2, k3, htr _ _ _ k2 k4⟩

/-! ## building the cache -/

/-- the correlation of two picks does not depend on when it is done -/
def Steady (x : XcorrArgs K) : Prop := ∀ i j, x.correlate i = x.correlate j

/-- the same results, and the same correlations in any order -/
structure SameBuild (s t : BuildState K) : Prop where
  cache : SameCache s.cache t.cache
  calls : s.calls.Perm t.calls

/-- a step that looks for the pair `(r, n)` -/
def lookStep (r n : Nat) (st ty : String) (v : Outcome (Entry × List (XcorrCall K))) (s : BuildState K) : Outcome (BuildState K) :=
  if XCorr.has s.cache r n st ty then .ok s
  else match v with
    | .ok (e, cs) => .ok ⟨XCorr.add s.cache r n st ty e, s.calls ++ cs⟩
    | .throws => .throws
    | .ub => .ub

theorem request_form {x : XcorrArgs K} (hx : Steady x) (pre : Cache) (refEv : Event K) (rp : Phase K) (ev : Event K) (p : Phase K) :
    ∃ v, request x pre refEv rp ev p = lookStep refEv.id ev.id rp.stationId rp.type v := by
  cases hg : XCorr.get pre refEv.id ev.id rp.stationId rp.type with
  | some e =>
    refine ⟨.ok (e, []), ?_⟩
    funext s
    unfold request lookStep
    rw [hg]
    simp
  | none =>
    cases hc : x.correlate 0 refEv rp ev p with
    | ok e =>
      refine ⟨.ok (e, [⟨refEv, rp, ev, p, e⟩]), ?_⟩
      funext s
      unfold request lookStep
      rw [hg, hx s.calls.length 0, hc]
      rfl
    | throws =>
      refine ⟨.throws, ?_⟩
      funext s
      unfold request lookStep
      rw [hg, hx s.calls.length 0, hc]
      rfl
    | ub =>
      refine ⟨.ub, ?_⟩
      funext s
      unfold request lookStep
      rw [hg, hx s.calls.length 0, hc]
      rfl

theorem pairStep_form {x : XcorrArgs K} (hx : Steady x) {cat : Catalog K} (hs : cat.Sound) (pre : Cache) (nb : Neighbours)
    (refEv : Event K) (rp : Phase K) (n : Nat) :
    (∀ s, pairStep x cat pre nb refEv rp s n = .ok s) ∨ (∀ s t, pairStep x cat pre nb refEv rp s n ≠ .ok t) ∨
    ∃ v, ∀ s, pairStep x cat pre nb refEv rp s n = lookStep refEv.id n rp.stationId rp.type v s := by
  unfold pairStep
  cases he : cat.events.find? n with
  | none => exact .inr (.inl (fun s t h => by cases h))
  | some ev =>
    simp only
    by_cases h1 : x.maxInterEvDist < x.evEv refEv ev ∧ 0 ≤ x.maxInterEvDist
    · left; intro s; rw [if_pos h1]
    · by_cases h2 : nb.hasPhase n (rp.stationId, rp.type) = true
      · cases hp : searchPhase cat ev.id (rp.stationId, rp.type) with
        | none => right; left; intro s t; rw [if_neg h1, if_pos h2]; intro h; cases h
        | some p =>
          by_cases h3 : p.source ≠ Source.catalog
          · right; left; intro s t; rw [if_neg h1, if_pos h2]; simp only; rw [if_pos h3]; intro h; cases h
          · obtain ⟨v, hv⟩ := request_form hx pre refEv rp ev p
            right; right
            refine ⟨v, ?_⟩
            intro s
            rw [if_neg h1, if_pos h2]
            simp only
            rw [if_neg h3, hv, (hs.eventKey _ _ he).1]
      · left; intro s; rw [if_neg h1, if_neg h2]

theorem lookStep_resp {r n : Nat} {st ty : String} {v : Outcome (Entry × List (XcorrCall K))} {s s' t : BuildState K}
    (h : SameBuild s s') (ht : lookStep r n st ty v s = .ok t) : ∃ t', lookStep r n st ty v s' = .ok t' ∧ SameBuild t t' := by
  have hh : XCorr.has s.cache r n st ty = XCorr.has s'.cache r n st ty := by unfold XCorr.has; rw [h.cache.get]
  unfold lookStep at *
  rw [← hh]
  split at ht
  · rename_i hhas
    cases ht
    rw [if_pos hhas]
    exact ⟨s', rfl, h⟩
  · rename_i hhas
    rw [if_neg hhas]
    cases v with
    | ok ec =>
      cases ht
      exact ⟨_, rfl, h.cache.add _ _ _ _ _, h.calls.append_right _⟩
    | throws => cases ht
    | ub => cases ht

theorem lookStep_comm {r n1 n2 : Nat} (h1 : r ≠ n1) (h2 : r ≠ n2) (h12 : n1 ≠ n2) {st ty : String}
    {v1 v2 : Outcome (Entry × List (XcorrCall K))} {s t u : BuildState K}
    (ht : lookStep r n1 st ty v1 s = .ok t) (hu : lookStep r n2 st ty v2 t = .ok u) :
    ∃ t' u', lookStep r n2 st ty v2 s = .ok t' ∧ lookStep r n1 st ty v1 t' = .ok u' ∧ SameBuild u u' := by
  by_cases a1 : XCorr.has s.cache r n1 st ty = true
  · have : t = s := by unfold lookStep at ht; rw [if_pos a1] at ht; cases ht; rfl
    subst this
    refine ⟨u, u, hu, ?_, fun _ _ _ _ => rfl, List.Perm.refl _⟩
    unfold lookStep
    rw [if_pos]
    unfold lookStep at hu
    split at hu
    · cases hu; exact a1
    · cases v2 with
      | ok ec =>
        cases hu
        rw [has_add h2 h1 h12.symm]
        exact a1
      | throws => cases hu
      | ub => cases hu
  · cases v1 with
    | throws => unfold lookStep at ht; rw [if_neg a1] at ht; cases ht
    | ub => unfold lookStep at ht; rw [if_neg a1] at ht; cases ht
    | ok ec1 =>
      obtain ⟨e1, c1⟩ := ec1
      unfold lookStep at ht
      rw [if_neg a1] at ht
      cases ht
      by_cases a2 : XCorr.has s.cache r n2 st ty = true
      · unfold lookStep at hu
        rw [if_pos (by rw [has_add h1 h2 h12]; exact a2)] at hu
        cases hu
        refine ⟨s, ⟨XCorr.add s.cache r n1 st ty e1, s.calls ++ c1⟩, ?_, ?_, fun _ _ _ _ => rfl, List.Perm.refl _⟩
        · unfold lookStep; rw [if_pos a2]
        · unfold lookStep; rw [if_neg a1]
      · unfold lookStep at hu
        rw [if_neg (by rw [has_add h1 h2 h12]; exact a2)] at hu
        cases v2 with
        | throws => cases hu
        | ub => cases hu
        | ok ec2 =>
          obtain ⟨e2, c2⟩ := ec2
          cases hu
          refine ⟨⟨XCorr.add s.cache r n2 st ty e2, s.calls ++ c2⟩,
            ⟨XCorr.add (XCorr.add s.cache r n2 st ty e2) r n1 st ty e1, (s.calls ++ c2) ++ c1⟩, ?_, ?_, add_comm h1 h2 h12 _ _ _ _, ?_⟩
          · unfold lookStep; rw [if_neg a2]
          · unfold lookStep; rw [if_neg (by rw [has_add h2 h1 h12.symm]; exact a1)]
          · simp only [List.append_assoc]
            exact List.Perm.append_left _ List.perm_append_comm

theorem SameBuild.refl (s : BuildState K) : SameBuild s s := ⟨fun _ _ _ _ => rfl, List.Perm.refl _⟩

theorem SameBuild.trans (s t u : BuildState K) (h : SameBuild s t) (h' : SameBuild t u) : SameBuild s u :=
  ⟨h.cache.trans h'.cache, h.calls.trans h'.calls⟩

theorem pairStep_resp {x : XcorrArgs K} (hx : Steady x) {cat : Catalog K} (hs : cat.Sound) (pre : Cache) (nb : Neighbours)
    (refEv : Event K) (rp : Phase K) (n : Nat) {s s' t : BuildState K} (h : SameBuild s s')
    (ht : pairStep x cat pre nb refEv rp s n = .ok t) : ∃ t', pairStep x cat pre nb refEv rp s' n = .ok t' ∧ SameBuild t t' := by
  rcases pairStep_form hx hs pre nb refEv rp n with hf | hf | ⟨v, hf⟩
  · rw [hf] at ht; cases ht
    exact ⟨s', hf s', h⟩
  · exact absurd ht (hf s t)
  · rw [hf] at ht ⊢
    exact lookStep_resp h ht

theorem pairStep_comm {x : XcorrArgs K} (hx : Steady x) {cat : Catalog K} (hs : cat.Sound) (pre : Cache) (nb : Neighbours)
    (refEv : Event K) (rp : Phase K) {a b : Nat} (ha : refEv.id ≠ a) (hb : refEv.id ≠ b) {s t u : BuildState K}
    (ht : pairStep x cat pre nb refEv rp s a = .ok t) (hu : pairStep x cat pre nb refEv rp t b = .ok u) :
    ∃ t' u', pairStep x cat pre nb refEv rp s b = .ok t' ∧ pairStep x cat pre nb refEv rp t' a = .ok u' ∧ SameBuild u u' := by
  by_cases hab : a = b
  · subst hab
    exact ⟨t, u, ht, hu, SameBuild.refl u⟩
  · rcases pairStep_form hx hs pre nb refEv rp a with hfa | hfa | ⟨va, hfa⟩
    · rw [hfa] at ht; cases ht
      exact ⟨u, u, hu, hfa u, SameBuild.refl u⟩
    · exact absurd ht (hfa s t)
    · rcases pairStep_form hx hs pre nb refEv rp b with hfb | hfb | ⟨vb, hfb⟩
      · rw [hfb] at hu; cases hu
        exact ⟨s, t, hfb s, ht, SameBuild.refl t⟩
      · exact absurd hu (hfb t u)
      · simp only [hfa, hfb] at ht hu ⊢
        exact lookStep_comm ha hb hab ht hu

theorem pairStep_alike (x : XcorrArgs K) (cat : Catalog K) {pre pre' : Cache} (hp : SameCache pre pre') {n m : Neighbours}
    (hn : AlikeNb n m) : pairStep x cat pre n = pairStep x cat pre' m := by
  funext refEv rp s b
  unfold pairStep request
  simp only [hn.has, hp.get]

theorem refPhaseStep_alike {x : XcorrArgs K} (hx : Steady x) {cat : Catalog K} (hs : cat.Sound) {pre pre' : Cache}
    (hp : SameCache pre pre') {n m : Neighbours} (hn : AlikeNb n m) {refEv : Event K} (hself : refEv.id ∉ n.ids) (rp : Phase K)
    {s s' t : BuildState K} (h : SameBuild s s') (ht : refPhaseStep x cat pre n refEv s rp = .ok t) :
    ∃ t', refPhaseStep x cat pre' m refEv s' rp = .ok t' ∧ SameBuild t t' := by
  unfold refPhaseStep at *
  split at ht
  · cases ht
  · rename_i st hst
    split at ht
    · rename_i h1
      cases ht
      rw [if_pos h1]
      exact ⟨s', rfl, h⟩
    · rename_i h1
      rw [if_neg h1]
      split at ht
      · rename_i h2
        cases ht
        rw [if_pos h2]
        exact ⟨s', rfl, h⟩
      · rename_i h2
        rw [if_neg h2, ← pairStep_alike x cat hp hn]
        refine fold_perm (R := SameBuild) SameBuild.trans (P := fun b => refEv.id ≠ b) ?_ ?_ SameBuild.refl hn.ids ?_ s s' t h ht
        · intro b _ s s' t h ht
          exact pairStep_resp hx hs pre n refEv rp b h ht
        · intro a b ha hb s t u ht hu
          exact pairStep_comm hx hs pre n refEv rp ha hb ht hu
        · rintro b hb rfl
          exact hself hb

theorem foldlM_related₂ {S A B : Type} {R : S → S → Prop} {Q : A → B → Prop} {f : S → A → Outcome S} {g : S → B → Outcome S}
    (h : ∀ a b, Q a b → ∀ s s' t, R s s' → f s a = .ok t → ∃ t', g s' b = .ok t' ∧ R t t') :
    ∀ {l : List A} {l' : List B}, List.Forall₂ Q l l' → ∀ s s' t, R s s' → l.foldlM f s = .ok t → ∃ t', l'.foldlM g s' = .ok t' ∧ R t t'
  | [], [], .nil, s, s', t, hs, ht => by
    cases ht
    exact ⟨s', rfl, hs⟩
  | a :: l, b :: l', .cons h1 h2, s, s', t, hs, ht => by
    rw [List.foldlM_cons] at ht
    cases hu : f s a with
    | ok u =>
      rw [hu] at ht
      obtain ⟨u', k1, k2⟩ := h a b h1 s s' u hs hu
      obtain ⟨t', k3, k4⟩ := foldlM_related₂ h h2 u u' t k2 ht
      exact ⟨t', by rw [List.foldlM_cons, k1]; exact k3, k4⟩
    | throws => rw [hu] at ht; cases ht
    | ub => rw [hu] at ht; cases ht

theorem clusterStep_alike {x : XcorrArgs K} (hx : Steady x) {cat : Catalog K} (hs : cat.Sound) {pre pre' : Cache}
    (hp : SameCache pre pre') {kv kv' : Nat × Neighbours} (hn : AlikeEntry kv kv') (hself : kv.2.refId ∉ kv.2.ids)
    {s s' t : BuildState K} (h : SameBuild s s') (ht : clusterStep x cat pre s kv = .ok t) :
    ∃ t', clusterStep x cat pre' s' kv' = .ok t' ∧ SameBuild t t' := by
  unfold clusterStep at *
  rw [← hn.2.ref]
  split at ht
  · cases ht
  · rename_i refEv he
    have hid : refEv.id ∉ kv.2.ids := by rw [(hs.eventKey _ _ he).1]; exact hself
    refine foldlM_related₂ (R := SameBuild) (Q := Eq) ?_ (List.forall₂_refl _) s s' t h ht
    rintro rp _ rfl s s' t h ht
    exact refPhaseStep_alike hx hs hp hn.2 hid rp h ht

theorem build_alike {x : XcorrArgs K} (hx : Steady x) {cat : Catalog K} (hs : cat.Sound) {pre pre' : Cache}
    (hp : SameCache pre pre') {l l' : Cluster} (hl : List.Forall₂ AlikeEntry l l') (hself : NoSelf l)
    {calls calls' : List (XcorrCall K)} (hc : calls.Perm calls') {t : BuildState K} (ht : buildXCorrCache x cat l pre calls = .ok t) :
    ∃ t', buildXCorrCache x cat l' pre' calls' = .ok t' ∧ SameBuild t t' := by
  unfold buildXCorrCache at *
  split at ht
  · rename_i he
    rw [if_pos he]
    have hl' : List.Forall₂ (fun kv kv' => AlikeEntry kv kv' ∧ kv.2.refId ∉ kv.2.ids) l l' := by
      clear ht
      induction hl with
      | nil => exact .nil
      | cons h1 h2 ih => exact .cons ⟨h1, hself _ (by simp)⟩ (ih (fun kv hkv => hself kv (by simp [hkv])))
    refine foldlM_related₂ (R := SameBuild) ?_ hl' ⟨[], calls⟩ ⟨[], calls'⟩ t ⟨fun _ _ _ _ => rfl, hc⟩ ht
    rintro kv kv' ⟨h1, h2⟩ s s' t h ht
    exact clusterStep_alike hx hs hp h1 h2 h ht
  · rename_i he
    rw [if_neg he]
    cases ht
    exact ⟨_, rfl, fun _ _ _ _ => rfl, hc⟩

/-! ## all clusters -/

/-- the same relocated events, the same correlation results and the same iterations -/
structure SameRun (s t : MultiState K) : Prop where
  reloc : s.reloc = t.reloc
  data : SameCache s.xcorrData t.xcorrData
  calls : s.calls.Perm t.calls
  done : List.Forall₂ (fun a b => SameCache a.1 b.1 ∧ a.2 = b.2) s.done t.done
  od : OneDir s.xcorrData ∧ OneDir t.xcorrData
  uq : Uniq s.xcorrData ∧ Uniq t.xcorrData

theorem noSelf_alike {l l' : Cluster} (hl : List.Forall₂ AlikeEntry l l') (h : NoSelf l) : NoSelf l' := by
  induction hl with
  | nil => exact h
  | cons h1 _ ih =>
    intro kv hkv
    rcases List.mem_cons.1 hkv with rfl | hkv
    · rw [← h1.2.ref]
      intro hm
      exact h _ (by simp) (h1.2.ids.symm.subset hm)
    · exact ih (fun kv hkv => h kv (by simp [hkv])) kv hkv

theorem multiStep_alike {m : MultiArgs K} (hx : Steady m.x) {bg : Catalog K} (hs : bg.Sound) {l l' : Cluster}
    (hl : List.Forall₂ AlikeEntry l l') (hself : NoSelf l) {s s' t : MultiState K} (h : SameRun s s')
    (ht : multiStep m bg s l = .ok t) : ∃ t', multiStep m bg s' l' = .ok t' ∧ SameRun t t' := by
  unfold multiStep at ht
  cases hb : buildXCorrCache m.x bg l s.xcorrData s.calls with
  | throws => rw [hb] at ht; cases ht
  | ub => rw [hb] at ht; cases ht
  | ok b =>
    obtain ⟨b', k1, k2⟩ := build_alike hx hs h.data hl hself h.calls hb
    obtain ⟨_, _, e1⟩ := (build_ext hs h.od.1 hself hb).built ⟨[], by simp, Built.start _ _ _ _⟩
    obtain ⟨_, _, e2⟩ := (build_ext hs h.od.2 (noSelf_alike hl hself) k1).built ⟨[], by simp, Built.start _ _ _ _⟩
    rw [hb] at ht
    simp only [Outcome.bind_ok] at ht
    have hr : relocate (m.toArgs s.done.length l b.cache) bg = relocate (m.toArgs s'.done.length l' b'.cache) bg := by
      unfold MultiArgs.toArgs
      rw [h.done.length_eq]
      exact relocate_alike _ _ _ k2.cache hl _ _
    unfold multiStep
    rw [k1]
    simp only [Outcome.bind_ok]
    rw [← hr]
    cases hrel : relocate (m.toArgs s.done.length l b.cache) bg with
    | throws => rw [hrel] at ht; cases ht
    | ub => rw [hrel] at ht; cases ht
    | ok rl =>
      obtain ⟨r, log⟩ := rl
      rw [hrel] at ht
      simp only [Outcome.bind_ok] at ht ⊢
      rw [← h.reloc]
      cases ha : s.reloc.addAll r true with
      | mk reloc o =>
        rw [ha] at ht
        cases o with
        | throws => cases ht
        | ub => cases ht
        | ok u =>
          cases ht
          exact ⟨_, rfl, rfl, h.data.merge k2.cache e1.od e1.uq e2.od e2.uq, k2.calls,
            List.rel_append h.done (.cons ⟨k2.cache, rfl⟩ .nil), ⟨(merge_inv h.od.1 h.uq.1).1, (merge_inv h.od.2 h.uq.2).1⟩,
            ⟨(merge_inv h.od.1 h.uq.1).2, (merge_inv h.od.2 h.uq.2).2⟩⟩

theorem multi_alike {m : MultiArgs K} (hx : Steady m.x) {bg : Catalog K} (hs : bg.Sound) {ls ls' : List Cluster}
    (hl : List.Forall₂ (fun l l' => List.Forall₂ AlikeEntry l l' ∧ NoSelf l) ls ls') {data : Cache} (ho : OneDir data) (hu : Uniq data)
    {t : MultiState K} (ht : relocateMultiEvents m bg ls data = .ok t) :
    ∃ t', relocateMultiEvents m bg ls' data = .ok t' ∧ SameRun t t' := by
  unfold relocateMultiEvents at *
  refine foldlM_related₂ (R := SameRun) ?_ hl _ _ t ⟨rfl, fun _ _ _ _ => rfl, List.Perm.refl _, .nil, ⟨ho, ho⟩, ⟨hu, hu⟩⟩ ht
  rintro l l' ⟨h1, h2⟩ s s' t h ht
  exact multiStep_alike hx hs h1 h2 h ht

end Verif.Relocate
