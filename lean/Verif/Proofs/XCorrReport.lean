import Verif.Spec.XCorrReport
import Verif.Proofs.ClusterRelocation
import Verif.Props.Stats

/-! Helper lemmas for C110. -/

set_option linter.unusedSimpArgs false

namespace Verif.XCorrReport
open Verif.Catalog Verif.Relocate Verif.Stats Verif.ClusterFiles

/-- the pairs in the order in which they are visited -/
def visits (cluster : Cluster) : List Pair :=
  cluster.flatMap (fun kv => kv.2.phases.map (fun t => ⟨kv.2.refId, t.2, t.1.1, t.1.2⟩))

theorem mem_visits {cluster : Cluster} (hc : Proper cluster) (x : Pair) : x ∈ visits cluster ↔
    ∃ kv ∈ cluster, kv.2.refId = x.ev ∧ (x.station, x.phase) ∈ kv.2.phasesOf x.nb := by
  unfold visits
  rw [List.mem_flatMap]
  constructor
  · rintro ⟨kv, hkv, h⟩
    obtain ⟨⟨⟨st, ph⟩, b⟩, ht, rfl⟩ := List.mem_map.1 h
    exact ⟨kv, hkv, rfl, (mem_phases (hc.neighbours kv hkv) _ _).1 ht⟩
  · rintro ⟨kv, hkv, h, hp⟩
    refine ⟨kv, hkv, List.mem_map.2 ⟨((x.station, x.phase), x.nb), (mem_phases (hc.neighbours kv hkv) _ _).2 hp, ?_⟩⟩
    rw [h]

theorem nodup_visits {cluster : Cluster} (hc : Proper cluster) : (visits cluster).Nodup := by
  unfold visits
  rw [List.nodup_flatMap]
  constructor
  · intro kv hkv
    refine (nodup_phases (hc.neighbours kv hkv) (hc.phases kv hkv)).map ?_
    rintro ⟨⟨a, b⟩, c⟩ ⟨⟨a', b'⟩, c'⟩ h
    simp only [Pair.mk.injEq, true_and] at h
    simp [h]
  · have hn := hc.good.nodup
    unfold List.Nodup at hn
    rw [List.pairwise_map] at hn
    refine List.Pairwise.imp_of_mem ?_ hn
    intro a b ha hb hab
    show List.Disjoint _ _
    intro x h1 h2
    obtain ⟨_, _, rfl⟩ := List.mem_map.1 h1
    obtain ⟨_, _, e⟩ := List.mem_map.1 h2
    simp only [Pair.mk.injEq] at e
    apply hab
    rw [← hc.good.key a ha, ← hc.good.key b hb, e.1]

/-- the counters of a list of outcomes -/
def tally (m : ℚ) (es : List XCorr.Entry) : Counters :=
  ⟨es.countP (·.valid), es.countP (fun e => !e.valid), es.countP (fun e => e.valid && decide (m ≤ |e.coeff|)),
    (es.filter (·.valid)).map (fun e => |e.coeff|)⟩

theorem count_tally (m : ℚ) (es : List XCorr.Entry) (e : XCorr.Entry) :
    count (some m) (tally m es) e = .ok (tally m (es ++ [e])) := by
  unfold count tally
  cases hv : e.valid
  · simp [hv]
  · by_cases h : m ≤ |e.coeff| <;> simp [hv, h]

section
variable (validP validS : List String) (xc : XCorr.Cache)

/-- the outcomes of the pairs with phases of a type -/
def found (ty : PhaseType) (vs : List Pair) : List (Pair × XCorr.Entry) :=
  vs.filterMap (fun x => if Catalog.Catalog.classify validP validS x.phase = ty then
    (XCorr.get xc x.ev x.nb x.station x.phase).map (fun e => (x, e)) else none)

theorem mem_found (ty : PhaseType) (vs : List Pair) (y : Pair × XCorr.Entry) : y ∈ found validP validS xc ty vs ↔
    y.1 ∈ vs ∧ Catalog.Catalog.classify validP validS y.1.phase = ty ∧ XCorr.get xc y.1.ev y.1.nb y.1.station y.1.phase = some y.2 := by
  unfold found
  rw [List.mem_filterMap]
  constructor
  · rintro ⟨x, hx, h⟩
    split at h
    · rename_i hc
      rw [Option.map_eq_some_iff] at h
      obtain ⟨e, he, rfl⟩ := h
      exact ⟨hx, hc, he⟩
    · cases h
  · rintro ⟨h1, h2, h3⟩
    exact ⟨y.1, h1, by rw [if_pos h2, h3]; rfl⟩

theorem nodup_found {ty : PhaseType} {vs : List Pair} (h : vs.Nodup) : ((found validP validS xc ty vs).map (·.1)).Nodup := by
  induction vs with
  | nil => simp [found]
  | cons x vs ih =>
    have hx := List.nodup_cons.1 h
    unfold found
    rw [List.filterMap_cons]
    split
    · exact ih hx.2
    · rename_i y hy
      rw [List.map_cons, List.nodup_cons]
      refine ⟨?_, ih hx.2⟩
      intro hc
      obtain ⟨z, hz, e⟩ := List.mem_map.1 hc
      have h1 := ((mem_found validP validS xc ty vs z).1 hz).1
      have h2 : y.1 = x := by
        split at hy
        · rw [Option.map_eq_some_iff] at hy
          obtain ⟨_, _, rfl⟩ := hy
          rfl
        · cases hy
      rw [e, h2] at h1
      exact hx.1 h1

/-- a table has the counters of the outcomes, by station -/
structure TInv (m : ℚ) (es : List (Pair × XCorr.Entry)) (t : AMap String Counters) : Prop where
  nodup : t.NodupKeys
  find : ∀ sta, t.find? sta = if es.filter (fun y => y.1.station = sta) = [] then none
    else some (tally m ((es.filter (fun y => y.1.station = sta)).map (·.2)))
  performed : (t.map (·.2.performed)).sum = (tally m (es.map (·.2))).performed
  failed : (t.map (·.2.failed)).sum = (tally m (es.map (·.2))).failed
  above : (t.map (·.2.aboveThreshold)).sum = (tally m (es.map (·.2))).aboveThreshold

theorem sum_set (f : Counters → Nat) (h0 : f {} = 0) {t : AMap String Counters} (ht : t.NodupKeys) (k : String) (c : Counters) :
    ((t.set k c).map (fun kv => f kv.2)).sum + f ((t.find? k).getD {}) = (t.map (fun kv => f kv.2)).sum + f c := by
  have key : ∀ t : AMap String Counters, t.NodupKeys → ((t.erase k).map (fun kv => f kv.2)).sum + f ((t.find? k).getD {}) =
      (t.map (fun kv => f kv.2)).sum := by
    intro t
    induction t with
    | nil => intro _; simp [AMap.erase, h0]
    | cons a t ih =>
      intro hn
      have hn' : a.1 ∉ AMap.keys t ∧ AMap.NodupKeys t := List.nodup_cons.1 hn
      obtain ⟨ak, av⟩ := a
      rw [AMap.find?_cons]
      by_cases h : ak = k
      · subst h
        have : AMap.erase ((ak, av) :: t) ak = t := by
          have := AMap.erase_of_not_mem hn'.1
          simp only [AMap.erase] at this ⊢
          rw [List.filter_cons_of_neg (by simp)]
          exact this
        rw [this]
        simp; omega
      · have : AMap.erase ((ak, av) :: t) k = (ak, av) :: AMap.erase t k := by
          simp only [AMap.erase]
          rw [List.filter_cons_of_pos (by simpa using h)]
        rw [this]
        have := ih hn'.2
        simp only [List.map_cons, List.sum_cons, h, if_false]
        omega
  have := key t ht
  simp only [AMap.set, List.map_cons, List.sum_cons]
  omega

theorem find_getD {m : ℚ} {es : List (Pair × XCorr.Entry)} {t : AMap String Counters} (h : TInv m es t) (sta : String) :
    (t.find? sta).getD {} = tally m ((es.filter (fun y => y.1.station = sta)).map (·.2)) := by
  rw [h.find]
  by_cases he : es.filter (fun y => y.1.station = sta) = []
  · rw [if_pos he, he]; rfl
  · rw [if_neg he]; rfl

theorem tinv_step {m : ℚ} {es : List (Pair × XCorr.Entry)} {t : AMap String Counters} (h : TInv m es t) (x : Pair)
    (e : XCorr.Entry) : ∃ c, count (some m) ((t.find? x.station).getD {}) e = .ok c ∧ TInv m (es ++ [(x, e)]) (t.set x.station c) := by
  have hg := find_getD h x.station
  refine ⟨_, by rw [hg]; exact count_tally .., AMap.nodupKeys_set h.nodup _ _, ?_, ?_, ?_, ?_⟩
  · intro sta
    rw [AMap.find?_set, h.find, List.filter_append]
    by_cases hs : sta = x.station
    · subst hs
      simp
    · have : ([(x, e)] : List (Pair × XCorr.Entry)).filter (fun y => y.1.station = sta) = [] := by
        simp; exact fun h => hs h.symm
      rw [this, List.append_nil]
      simp [hs]
  · have := sum_set (·.performed) rfl h.nodup x.station (tally m (((es.filter (fun y => y.1.station = x.station)).map (·.2)) ++ [e]))
    rw [hg, h.performed] at this
    simp only [tally, List.map_append, List.countP_append] at this ⊢
    simp only [List.map_cons, List.map_nil]
    omega
  · have := sum_set (·.failed) rfl h.nodup x.station (tally m (((es.filter (fun y => y.1.station = x.station)).map (·.2)) ++ [e]))
    rw [hg, h.failed] at this
    simp only [tally, List.map_append, List.countP_append] at this ⊢
    simp only [List.map_cons, List.map_nil]
    omega
  · have := sum_set (·.aboveThreshold) rfl h.nodup x.station (tally m (((es.filter (fun y => y.1.station = x.station)).map (·.2)) ++ [e]))
    rw [hg, h.above] at this
    simp only [tally, List.map_append, List.countP_append] at this ⊢
    simp only [List.map_cons, List.map_nil]
    omega

theorem tinv_nil (m : ℚ) : TInv m [] [] := ⟨AMap.nodupKeys_nil, by simp, rfl, rfl, rfl⟩

variable {minCoef : PhaseType → Option ℚ} {mP mS : ℚ}

theorem found_append (ty : PhaseType) (a b : List Pair) :
    found validP validS xc ty (a ++ b) = found validP validS xc ty a ++ found validP validS xc ty b := List.filterMap_append ..

theorem visit_ok (hP : minCoef .P = some mP) (hS : minCoef .S = some mS) {done : List Pair} {s : Tables}
    (h1 : TInv mP (found validP validS xc .P done) s.p) (h2 : TInv mS (found validP validS xc .S done) s.s) (x : Pair) :
    ∃ s', visit validP validS minCoef xc x.ev s ((x.station, x.phase), x.nb) = .ok s' ∧
      TInv mP (found validP validS xc .P (done ++ [x])) s'.p ∧ TInv mS (found validP validS xc .S (done ++ [x])) s'.s := by
  have hP1 : ∀ ty, Catalog.Catalog.classify validP validS x.phase ≠ ty → found validP validS xc ty (done ++ [x]) = found validP validS xc ty done := by
    intro ty h
    rw [found_append]
    have : found validP validS xc ty [x] = [] := by simp [found, h]
    rw [this, List.append_nil]
  have hN : XCorr.get xc x.ev x.nb x.station x.phase = none → ∀ ty, found validP validS xc ty (done ++ [x]) = found validP validS xc ty done := by
    intro h ty
    rw [found_append]
    have : found validP validS xc ty [x] = [] := by simp [found, h]
    rw [this, List.append_nil]
  have hE : ∀ ty e, Catalog.Catalog.classify validP validS x.phase = ty → XCorr.get xc x.ev x.nb x.station x.phase = some e →
      found validP validS xc ty (done ++ [x]) = found validP validS xc ty done ++ [(x, e)] := by
    intro ty e h h'
    rw [found_append]
    congr 1
    simp [found, h, h']
  unfold visit
  cases hc : Catalog.Catalog.classify validP validS x.phase with
  | NO =>
    simp only
    exact ⟨s, rfl, by rw [hP1 _ (by rw [hc]; simp)]; exact h1, by rw [hP1 _ (by rw [hc]; simp)]; exact h2⟩
  | P =>
    simp only
    cases hx : XCorr.get xc x.ev x.nb x.station x.phase with
    | none => exact ⟨s, rfl, by rw [hN hx]; exact h1, by rw [hN hx]; exact h2⟩
    | some e =>
      obtain ⟨c, h3, h4⟩ := tinv_step h1 x e
      refine ⟨{ s with p := s.p.set x.station c }, ?_, by rw [hE _ e hc hx]; exact h4, by rw [hP1 _ (by rw [hc]; simp)]; exact h2⟩
      simp only [hP, h3]
      rfl
  | S =>
    simp only
    cases hx : XCorr.get xc x.ev x.nb x.station x.phase with
    | none => exact ⟨s, rfl, by rw [hN hx]; exact h1, by rw [hN hx]; exact h2⟩
    | some e =>
      obtain ⟨c, h3, h4⟩ := tinv_step h2 x e
      refine ⟨{ s with s := s.s.set x.station c }, ?_, by rw [hP1 _ (by rw [hc]; simp)]; exact h1, by rw [hE _ e hc hx]; exact h4⟩
      simp only [hS, h3]
      rfl

theorem fold_ok (hP : minCoef .P = some mP) (hS : minCoef .S = some mS) : ∀ (vs done : List Pair) (s : Tables),
    TInv mP (found validP validS xc .P done) s.p → TInv mS (found validP validS xc .S done) s.s →
    ∃ s', vs.foldlM (fun s (x : Pair) => visit validP validS minCoef xc x.ev s ((x.station, x.phase), x.nb)) s = .ok s' ∧
      TInv mP (found validP validS xc .P (done ++ vs)) s'.p ∧ TInv mS (found validP validS xc .S (done ++ vs)) s'.s := by
  intro vs
  induction vs with
  | nil => intro done s h1 h2; exact ⟨s, rfl, by simpa using h1, by simpa using h2⟩
  | cons x vs ih =>
    intro done s h1 h2
    obtain ⟨s1, e1, h3, h4⟩ := visit_ok validP validS xc hP hS h1 h2 x
    obtain ⟨s2, e2, h5, h6⟩ := ih _ s1 h3 h4
    refine ⟨s2, ?_, by simpa using h5, by simpa using h6⟩
    rw [List.foldlM_cons, e1]
    exact e2

theorem tables_eq (minCoef : PhaseType → Option ℚ) (cluster : Cluster) (s : Tables) :
    cluster.foldlM (fun s kv => kv.2.phases.foldlM (visit validP validS minCoef xc kv.2.refId) s) s =
      (visits cluster).foldlM (fun s (x : Pair) => visit validP validS minCoef xc x.ev s ((x.station, x.phase), x.nb)) s := by
  induction cluster generalizing s with
  | nil => rfl
  | cons kv cluster ih =>
    rw [List.foldlM_cons]
    have : visits (kv :: cluster) = kv.2.phases.map (fun t => ⟨kv.2.refId, t.2, t.1.1, t.1.2⟩) ++ visits cluster := by
      simp [visits]
    rw [this, List.foldlM_append, List.foldlM_map]
    congr 1
    funext s'
    exact ih s'

theorem tables_ok (hP : minCoef .P = some mP) (hS : minCoef .S = some mS) (cluster : Cluster) :
    ∃ s, tables validP validS minCoef xc cluster = .ok s ∧ TInv mP (found validP validS xc .P (visits cluster)) s.p ∧
      TInv mS (found validP validS xc .S (visits cluster)) s.s := by
  unfold tables
  rw [tables_eq]
  exact fold_ok validP validS xc hP hS (visits cluster) [] {} (by simpa [found] using tinv_nil mP) (by simpa [found] using tinv_nil mS)

end

theorem mapM_cases {A B : Type} {f : A → Outcome B} {R : A → B → Prop} : ∀ (l : List A),
    (∀ x ∈ l, f x = .ub ∨ ∃ y, f x = .ok y ∧ R x y) →
    (l.mapM f = .ub ∧ ∃ x ∈ l, f x = .ub) ∨ ∃ ys, l.mapM f = .ok ys ∧ List.Forall₂ R l ys := by
  intro l
  induction l with
  | nil => intro _; exact .inr ⟨[], rfl, .nil⟩
  | cons a l ih =>
    intro h
    rw [List.mapM_cons]
    rcases h a (by simp) with ha | ⟨y, hy, hr⟩
    · exact .inl ⟨by rw [ha]; rfl, a, by simp, ha⟩
    · rcases ih (fun x hx => h x (by simp [hx])) with ⟨h1, x, hx, h2⟩ | ⟨ys, h1, h2⟩
      · exact .inl ⟨by rw [hy, h1]; rfl, x, by simp [hx], h2⟩
      · exact .inr ⟨y :: ys, by rw [hy, h1]; rfl, .cons hr h2⟩

theorem summary_cases (nth : NthElement (id : ℚ → ℚ)) (values : List ℚ) :
    (fiveNumberSummary nth values = .ub ∧ 1 ≤ values.length ∧ values.length ≤ 3) ∨
    ((values.length = 0 ∨ 4 ≤ values.length) ∧ ∃ s, fiveNumberSummary nth values = .ok s ∧ IsSummary values s) := by
  rcases Nat.lt_or_ge 3 values.length with h | h
  · right
    have hs : SortedOf (values.insertionSort (· ≤ ·)) values :=
      ⟨List.pairwise_insertionSort _ _, List.perm_insertionSort _ _⟩
    exact ⟨.inr h, _, five_numbers_partial nth values _ hs h, _, hs.1, hs.2, rfl⟩
  · cases values with
    | nil => exact .inr ⟨.inl rfl, _, rfl, [], .nil, .refl _, rfl⟩
    | cons a l =>
      left
      exact ⟨five_numbers_ub nth _ (by simp) h, by simp, h⟩

end Verif.XCorrReport
