import Verif.Spec.KdTree
import Mathlib.Data.List.Induction
import Mathlib.Order.Lattice

/-!
# Lemmas for C23–C26
-/

set_option linter.unusedSectionVars false
set_option linter.unusedSimpArgs false

namespace Verif.KdTree
variable {C K : Type} [LinearOrder C] [LinearOrder K]

/-! ## C23: construction -/

theorem getD_mem_split {r : List Nat} {k : Nat} (h : k < r.length) :
    r = r.take k ++ r.getD k 0 :: r.drop (k + 1) := by
  rw [List.getD_eq_getElem?_getD, List.getElem?_eq_getElem h]; simp

theorem build_spec (pt : Nat → Pt C) (nth : (axis : Nat) → NthElement (fun i => coord axis (pt i)))
    (indices : List Nat) (depth : Nat) :
    (contents (build pt nth indices depth)).Perm indices ∧ Ordered pt depth (build pt nth indices depth) := by
  induction hn : indices.length using Nat.strong_induction_on generalizing indices depth with
  | _ n ih =>
    rw [build]
    by_cases h : indices = []
    · subst h; simp [contents, Ordered]
    · rw [dif_neg h]
      have hpos : 0 < indices.length := List.length_pos_iff.2 h
      have hnth := (nth (depth % 3)).ok indices ((indices.length - 1) / 2) (by omega)
      simp only
      generalize (nth (depth % 3)).run indices ((indices.length - 1) / 2) = r at *
      have hlen := hnth.perm.length_eq
      have hmid : (indices.length - 1) / 2 < r.length := by omega
      have hsplit := getD_mem_split hmid
      generalize hm : (indices.length - 1) / 2 = mid at *
      obtain ⟨l1, l2⟩ := ih (r.take mid).length (by rw [List.length_take]; omega) (r.take mid) (depth + 1) rfl
      obtain ⟨r1, r2⟩ := ih (r.drop (mid + 1)).length (by rw [List.length_drop]; omega) (r.drop (mid + 1)) (depth + 1) rfl
      have hget : r[mid]? = some (r.getD mid 0) := by
        rw [List.getD_eq_getElem?_getD, List.getElem?_eq_getElem hmid]; rfl
      obtain ⟨s1, s2⟩ := hnth.split _ hget
      refine ⟨?_, rfl, ?_, ?_, l2, r2⟩
      · unfold contents
        refine List.Perm.trans ?_ hnth.perm
        conv_rhs => rw [hsplit]
        exact l1.append (r1.cons _)
      · intro i hi; exact s1 i (l1.subset hi)
      · intro i hi; exact s2 i (r1.subset hi)

theorem search_some {pt : Nat → Pt C} {q : Pt C} {t : KdNode} {i : Nat} (h : search pt q t = some i) :
    i ∈ contents t ∧ pt i = q := by
  induction t with
  | nil => cases h
  | node idx axis l r ihl ihr =>
    unfold search at h
    unfold contents
    by_cases hc : (pt idx).lat = q.lat ∧ (pt idx).lon = q.lon ∧ (pt idx).depth = q.depth
    · rw [if_pos hc] at h; simp only [Option.some.injEq] at h; subst h
      refine ⟨by simp, ?_⟩
      cases hp : pt idx; cases q; rw [hp] at hc; simp_all
    · rw [if_neg hc] at h
      have hl : search pt q l = some i → i ∈ contents l ++ idx :: contents r ∧ pt i = q :=
        fun h => ⟨by simp [(ihl h).1], (ihl h).2⟩
      have hr : search pt q r = some i → i ∈ contents l ++ idx :: contents r ∧ pt i = q :=
        fun h => ⟨by simp [(ihr h).1], (ihr h).2⟩
      simp only at h
      split_ifs at h
      all_goals first | exact hl h | exact hr h

theorem search_none {pt : Nat → Pt C} {q : Pt C} {t : KdNode} {depth : Nat} (ho : Ordered pt depth t)
    (h : search pt q t = none) : ∀ i ∈ contents t, pt i ≠ q := by
  induction t generalizing depth with
  | nil => intro i hi; cases hi
  | node idx axis l r ihl ihr =>
    obtain ⟨-, h1, h2, hol, hor⟩ := ho
    unfold search at h
    by_cases hc : (pt idx).lat = q.lat ∧ (pt idx).lon = q.lon ∧ (pt idx).depth = q.depth
    · rw [if_pos hc] at h; cases h
    · rw [if_neg hc] at h
      have hidx : pt idx ≠ q := fun he => hc (by rw [he]; exact ⟨rfl, rfl, rfl⟩)
      have key : (∀ i ∈ contents l, pt i ≠ q) ∧ (∀ i ∈ contents r, pt i ≠ q) := by
        simp only at h
        rcases lt_trichotomy (coord axis q) (coord axis (pt idx)) with hlt | heq | hgt
        · rw [if_pos hlt, if_neg (by rintro ⟨-, he⟩; exact absurd he (ne_of_lt hlt))] at h
          refine ⟨ihl hol h, ?_⟩
          intro i hi he
          have := h2 i hi; rw [he] at this
          exact absurd hlt (not_lt.2 this)
        · have hnl : ¬ coord axis q < coord axis (pt idx) := by rw [heq]; exact lt_irrefl _
          rw [if_neg hnl, if_neg hnl] at h
          cases hr : search pt q r with
          | some j => rw [hr] at h; simp at h
          | none =>
            rw [hr] at h
            rw [if_pos ⟨rfl, heq⟩] at h
            exact ⟨ihl hol h, ihr hor hr⟩
        · have hnl : ¬ coord axis q < coord axis (pt idx) := not_lt.2 (le_of_lt hgt)
          rw [if_neg hnl, if_neg (by rintro ⟨-, he⟩; exact absurd he (ne_of_gt hgt))] at h
          refine ⟨?_, ihr hor h⟩
          intro i hi he
          have := h1 i hi; rw [he] at this
          exact absurd hgt (not_lt.2 this)
      intro i hi
      unfold contents at hi
      rcases List.mem_append.1 hi with hi | hi
      · exact key.1 i hi
      · rcases List.mem_cons.1 hi with rfl | hi
        · exact hidx
        · exact key.2 i hi

/-! ## sorted queues -/

theorem emplace_perm (queue : List (K × Nat)) (d : K) (i : Nat) : (emplace queue d i).Perm ((d, i) :: queue) := by
  unfold emplace
  refine List.perm_middle.trans (List.Perm.cons _ ?_)
  rw [List.takeWhile_append_dropWhile]

theorem emplace_sorted {queue : List (K × Nat)} (h : Sorted queue) (d : K) (i : Nat) : Sorted (emplace queue d i) := by
  induction queue with
  | nil => simp [emplace, Sorted]
  | cons x l ih =>
    unfold Sorted at h
    rw [List.pairwise_cons] at h
    by_cases hx : x.1 ≤ d
    · have e : emplace (x :: l) d i = x :: emplace l d i := by
        unfold emplace
        rw [List.takeWhile_cons, List.dropWhile_cons]
        simp [hx]
      rw [e]
      unfold Sorted
      rw [List.pairwise_cons]
      refine ⟨?_, ih h.2⟩
      intro y hy
      rcases List.mem_cons.1 ((emplace_perm l d i).subset hy) with rfl | hy
      · exact hx
      · exact h.1 y hy
    · have e : emplace (x :: l) d i = (d, i) :: x :: l := by
        unfold emplace
        rw [List.takeWhile_cons, List.dropWhile_cons]
        simp [hx]
      rw [e]
      unfold Sorted
      rw [List.pairwise_cons]
      refine ⟨?_, by rw [List.pairwise_cons]; exact h⟩
      intro y hy
      rcases List.mem_cons.1 hy with rfl | hy
      · exact le_of_lt (not_le.1 hx)
      · exact le_trans (le_of_lt (not_le.1 hx)) (h.1 y hy)

/-! ## admissibility on sub-trees -/

section
variable {pt : Nat → Pt C} {dist : Pt C → Pt C → K} {axisDist : Nat → Pt C → Pt C → K} {q : Pt C}

/-- admissible for the points of a tree -/
def AdmTree (pt : Nat → Pt C) (dist : Pt C → Pt C → K) (axisDist : Nat → Pt C → Pt C → K) (q : Pt C) (t : KdNode) : Prop :=
  Admissible dist axisDist q ((contents t).map pt)

theorem Admissible.mono {S S' : List (Pt C)} (h : Admissible dist axisDist q S) (hs : ∀ p ∈ S', p ∈ S) :
    Admissible dist axisDist q S' :=
  fun a ha c hc p hp => h a ha c (hs c hc) p (hs p hp)

theorem AdmTree.left {idx axis : Nat} {l r : KdNode} (h : AdmTree pt dist axisDist q (.node idx axis l r)) :
    AdmTree pt dist axisDist q l :=
  Admissible.mono h (fun p hp => by
    obtain ⟨i, hi, rfl⟩ := List.mem_map.1 hp
    exact List.mem_map_of_mem (by simp [contents, hi]))

theorem AdmTree.right {idx axis : Nat} {l r : KdNode} (h : AdmTree pt dist axisDist q (.node idx axis l r)) :
    AdmTree pt dist axisDist q r :=
  Admissible.mono h (fun p hp => by
    obtain ⟨i, hi, rfl⟩ := List.mem_map.1 hp
    exact List.mem_map_of_mem (by simp [contents, hi]))

/-- pruning bound when the query is on the left -/
theorem far_right {idx axis depth : Nat} {l r : KdNode} (ho : Ordered pt depth (.node idx axis l r))
    (h : AdmTree pt dist axisDist q (.node idx axis l r)) (hq : coord axis q < coord axis (pt idx)) :
    ∀ i ∈ contents r, axisDist axis (pt idx) q ≤ dist (pt i) q := by
  intro i hi
  obtain ⟨ha, -, h2, -⟩ := ho
  exact h axis (by rw [ha]; omega) _ (List.mem_map_of_mem (by simp [contents])) _
    (List.mem_map_of_mem (by simp [contents, hi])) (.inl ⟨hq, h2 i hi⟩)

/-- pruning bound when the query is on the right -/
theorem far_left {idx axis depth : Nat} {l r : KdNode} (ho : Ordered pt depth (.node idx axis l r))
    (h : AdmTree pt dist axisDist q (.node idx axis l r)) (hq : ¬ coord axis q < coord axis (pt idx)) :
    ∀ i ∈ contents l, axisDist axis (pt idx) q ≤ dist (pt i) q := by
  intro i hi
  obtain ⟨ha, h1, -⟩ := ho
  exact h axis (by rw [ha]; omega) _ (List.mem_map_of_mem (by simp [contents])) _
    (List.mem_map_of_mem (by simp [contents, hi])) (.inr ⟨h1 i hi, not_lt.1 hq⟩)

theorem admTree_ofPoints {nth : (axis : Nat) → NthElement (fun i => coord axis (pt i))} {n : Nat}
    (h : Admissible dist axisDist q ((List.range n).map pt)) : AdmTree pt dist axisDist q (ofPoints pt nth n) :=
  Admissible.mono h (fun p hp => by
    obtain ⟨i, hi, rfl⟩ := List.mem_map.1 hp
    exact List.mem_map_of_mem ((build_spec pt nth (List.range n) 0).1.subset hi))

/-! ## C24: radius search -/

/-- the points within the radius -/
def within (pt : Nat → Pt C) (dist : Pt C → Pt C → K) (q : Pt C) (rad : K) (l : List Nat) : List (K × Nat) :=
  withDist pt dist q (l.filter (fun i => decide (dist (pt i) q ≤ rad)))

theorem within_append (rad : K) (a b : List Nat) :
    within pt dist q rad (a ++ b) = within pt dist q rad a ++ within pt dist q rad b := by
  simp [within, withDist]

theorem within_nil {rad : K} {l : List Nat} (h : ∀ i ∈ l, rad < dist (pt i) q) : within pt dist q rad l = [] := by
  unfold within withDist
  rw [List.map_eq_nil_iff, List.filter_eq_nil_iff]
  intro i hi
  simpa using h i hi

theorem radius_spec {t : KdNode} {depth : Nat} (ho : Ordered pt depth t) (ha : AdmTree pt dist axisDist q t)
    (rad : K) (queue : List (K × Nat)) (hs : Sorted queue) :
    Sorted (radius pt dist axisDist q rad t queue) ∧
    (radius pt dist axisDist q rad t queue).Perm (within pt dist q rad (contents t) ++ queue) := by
  induction t generalizing depth queue with
  | nil => exact ⟨hs, by simp [radius, contents, within, withDist]⟩
  | node idx axis l r ihl ihr =>
    have hol := ho.2.2.2.1
    have hor := ho.2.2.2.2
    unfold radius
    simp only
    -- queue after the node itself
    generalize hq1 : (if dist (pt idx) q ≤ rad then emplace queue (dist (pt idx) q) idx else queue) = queue1
    have hs1 : Sorted queue1 := by
      rw [← hq1]; split
      · exact emplace_sorted hs _ _
      · exact hs
    have hp1 : queue1.Perm (within pt dist q rad [idx] ++ queue) := by
      rw [← hq1]
      by_cases h : dist (pt idx) q ≤ rad
      · rw [if_pos h]
        have : within pt dist q rad [idx] = [(dist (pt idx) q, idx)] := by simp [within, withDist, h]
        rw [this]; exact emplace_perm _ _ _
      · rw [if_neg h]
        have : within pt dist q rad [idx] = [] := by simp [within, withDist, h]
        rw [this]; exact List.Perm.refl _
    have hall : within pt dist q rad (contents (.node idx axis l r)) =
        within pt dist q rad (contents l) ++ (within pt dist q rad [idx] ++ within pt dist q rad (contents r)) := by
      rw [← within_append, ← within_append]; rfl
    rw [hall]
    by_cases hq : coord axis q < coord axis (pt idx)
    · rw [if_pos hq]
      obtain ⟨a1, a2⟩ := ihl hol ha.left queue1 hs1
      have hperm1 : (radius pt dist axisDist q rad l queue1).Perm
          (within pt dist q rad (contents l) ++ (within pt dist q rad [idx] ++ queue)) :=
        a2.trans (List.Perm.append_left _ hp1)
      by_cases hf : axisDist axis (pt idx) q ≤ rad
      · rw [if_pos hf]
        obtain ⟨b1, b2⟩ := ihr hor ha.right _ a1
        refine ⟨b1, b2.trans ((List.Perm.append_left _ hperm1).trans ?_)⟩
        refine (List.perm_append_comm_assoc _ _ _).trans ?_
        rw [List.append_assoc, List.append_assoc]
        exact List.Perm.append_left _ (List.perm_append_comm_assoc _ _ _)
      · rw [if_neg hf]
        have : within pt dist q rad (contents r) = [] :=
          within_nil (fun i hi => lt_of_lt_of_le (not_le.1 hf) (far_right ho ha hq i hi))
        rw [this, List.append_nil, List.append_assoc]
        exact ⟨a1, hperm1⟩
    · rw [if_neg hq]
      obtain ⟨a1, a2⟩ := ihr hor ha.right queue1 hs1
      have hperm1 : (radius pt dist axisDist q rad r queue1).Perm
          (within pt dist q rad [idx] ++ within pt dist q rad (contents r) ++ queue) := by
        refine a2.trans ((List.Perm.append_left _ hp1).trans ?_)
        rw [List.append_assoc]
        exact List.perm_append_comm_assoc _ _ _
      by_cases hf : axisDist axis (pt idx) q ≤ rad
      · rw [if_pos hf]
        obtain ⟨b1, b2⟩ := ihl hol ha.left _ a1
        refine ⟨b1, b2.trans ?_⟩
        rw [List.append_assoc]
        exact List.Perm.append_left _ hperm1
      · rw [if_neg hf]
        have : within pt dist q rad (contents l) = [] :=
          within_nil (fun i hi => lt_of_lt_of_le (not_le.1 hf) (far_left ho ha hq i hi))
        rw [this, List.nil_append]
        exact ⟨a1, hperm1⟩

/-! ## C25: nearest neighbours -/

theorem below_false {d : K} {b : Option (Nat × K)} (h : ¬ below d b = true) : ∃ x, b = some x ∧ x.2 ≤ d := by
  cases b with
  | none => simp [below] at h
  | some x => exact ⟨x, rfl, by simpa [below] using h⟩

/-- `best'` improves on `best` with the points of `l` -/
def Improves (pt : Nat → Pt C) (dist : Pt C → Pt C → K) (q : Pt C) (l : List Nat) (best best' : Option (Nat × K)) : Prop :=
  (best' = best ∨ ∃ i ∈ l, best' = some (i, dist (pt i) q)) ∧
  (∀ i ∈ l, ∃ x, best' = some x ∧ x.2 ≤ dist (pt i) q) ∧
  (∀ y, best = some y → ∃ x, best' = some x ∧ x.2 ≤ y.2)

theorem Improves.trans {l l' : List Nat} {a b c : Option (Nat × K)} (h : Improves pt dist q l a b)
    (h' : Improves pt dist q l' b c) : Improves pt dist q (l ++ l') a c := by
  refine ⟨?_, ?_, ?_⟩
  · rcases h'.1 with rfl | ⟨i, hi, he⟩
    · rcases h.1 with rfl | ⟨i, hi, he⟩
      · exact .inl rfl
      · exact .inr ⟨i, by simp [hi], he⟩
    · exact .inr ⟨i, by simp [hi], he⟩
  · intro i hi
    rcases List.mem_append.1 hi with hi | hi
    · obtain ⟨x, hx, hle⟩ := h.2.1 i hi
      obtain ⟨y, hy, hle'⟩ := h'.2.2 x hx
      exact ⟨y, hy, le_trans hle' hle⟩
    · exact h'.2.1 i hi
  · intro y hy
    obtain ⟨x, hx, hle⟩ := h.2.2 y hy
    obtain ⟨z, hz, hle'⟩ := h'.2.2 x hx
    exact ⟨z, hz, le_trans hle' hle⟩

theorem Improves.perm {l l' : List Nat} {a b : Option (Nat × K)} (h : Improves pt dist q l a b)
    (hp : ∀ i, i ∈ l' ↔ i ∈ l) : Improves pt dist q l' a b :=
  ⟨h.1.imp id (fun ⟨i, hi, he⟩ => ⟨i, (hp i).2 hi, he⟩), fun i hi => h.2.1 i ((hp i).1 hi), h.2.2⟩

theorem improves_pruned {l : List Nat} {b : Option (Nat × K)} {d : K} (h : ¬ below d b = true)
    (hl : ∀ i ∈ l, d ≤ dist (pt i) q) : Improves pt dist q l b b := by
  obtain ⟨x, hx, hle⟩ := below_false h
  exact ⟨.inl rfl, fun i hi => ⟨x, hx, le_trans hle (hl i hi)⟩, fun y hy => ⟨y, hy, le_rfl⟩⟩

theorem improves_one (idx : Nat) (b : Option (Nat × K)) :
    Improves pt dist q [idx] b (if below (dist (pt idx) q) b then some (idx, dist (pt idx) q) else b) := by
  by_cases h : below (dist (pt idx) q) b = true
  · rw [if_pos h]
    refine ⟨.inr ⟨idx, by simp, rfl⟩, ?_, ?_⟩
    · intro i hi; simp only [List.mem_singleton] at hi; subst hi; exact ⟨_, rfl, le_rfl⟩
    · intro y hy; subst hy
      exact ⟨_, rfl, by simp only [below, decide_eq_true_eq] at h; exact le_of_lt h⟩
  · rw [if_neg h]
    exact improves_pruned h (fun i hi => by simp only [List.mem_singleton] at hi; subst hi; exact le_rfl)

theorem nn_spec {t : KdNode} {depth : Nat} (ho : Ordered pt depth t) (ha : AdmTree pt dist axisDist q t)
    (b : Option (Nat × K)) : Improves pt dist q (contents t) b (nn pt dist axisDist q t b) := by
  induction t generalizing depth b with
  | nil => exact ⟨.inl rfl, by simp [contents], fun y hy => ⟨y, hy, le_rfl⟩⟩
  | node idx axis l r ihl ihr =>
    have hol := ho.2.2.2.1
    have hor := ho.2.2.2.2
    unfold nn
    simp only
    have h1 := improves_one (pt := pt) (dist := dist) (q := q) idx b
    generalize (if below (dist (pt idx) q) b then some (idx, dist (pt idx) q) else b) = b1 at *
    by_cases hq : coord axis q < coord axis (pt idx)
    · rw [if_pos hq]
      have h2 := ihl hol ha.left b1
      generalize nn pt dist axisDist q l b1 = b2 at *
      have h3 : Improves pt dist q (contents r) b2
          (if below (axisDist axis (pt idx) q) b2 then nn pt dist axisDist q r b2 else b2) := by
        by_cases hf : below (axisDist axis (pt idx) q) b2 = true
        · rw [if_pos hf]; exact ihr hor ha.right b2
        · rw [if_neg hf]; exact improves_pruned hf (far_right ho ha hq)
      exact ((h1.trans h2).trans h3).perm (by intro i; simp [contents]; tauto)
    · rw [if_neg hq]
      have h2 := ihr hor ha.right b1
      generalize nn pt dist axisDist q r b1 = b2 at *
      have h3 : Improves pt dist q (contents l) b2
          (if below (axisDist axis (pt idx) q) b2 then nn pt dist axisDist q l b2 else b2) := by
        by_cases hf : below (axisDist axis (pt idx) q) b2 = true
        · rw [if_pos hf]; exact ihl hol ha.left b2
        · rw [if_neg hf]; exact improves_pruned hf (far_left ho ha hq)
      exact ((h1.trans h2).trans h3).perm (by intro i; simp [contents]; tauto)

theorem sorted_getLast {queue : List (K × Nat)} (hs : Sorted queue) {last : K × Nat} (hl : queue.getLast? = some last) :
    ∀ x ∈ queue, x.1 ≤ last.1 := by
  intro x hx
  have hne : queue ≠ [] := by rintro rfl; simp at hl
  rw [List.getLast?_eq_some_getLast hne] at hl
  simp only [Option.some.injEq] at hl
  have hsp := List.dropLast_append_getLast hne
  rw [hl] at hsp
  rw [← hsp] at hx hs
  rcases List.mem_append.1 hx with hx | hx
  · exact (List.pairwise_append.1 hs).2.2 x hx last (by simp)
  · simp only [List.mem_singleton] at hx; subst hx; exact le_rfl

/-- leaving out points that are not nearer than the farthest of a full queue -/
theorem IsNearest.skip {k : Nat} {all queue : List (K × Nat)} (h : IsNearest k all queue) {last : K × Nat}
    (hk : ¬ queue.length < k) (hl : queue.getLast? = some last) {more : List (K × Nat)}
    (hm : ∀ x ∈ more, last.1 ≤ x.1) : IsNearest k (more ++ all) queue := by
  obtain ⟨h1, h2, rest, h3, h4⟩ := h
  refine ⟨h1, by rw [List.length_append]; omega, more ++ rest, ?_, ?_⟩
  · refine (List.perm_append_comm_assoc _ _ _).trans (List.Perm.append_left _ h3)
  · intro x hx y hy
    rcases List.mem_append.1 hy with hy | hy
    · exact le_trans (sorted_getLast h1 hl x hx) (hm y hy)
    · exact h4 x hx y hy

theorem IsNearest.perm {k : Nat} {all all' queue : List (K × Nat)} (h : IsNearest k all queue) (hp : all.Perm all') :
    IsNearest k all' queue := by
  obtain ⟨h1, h2, rest, h3, h4⟩ := h
  exact ⟨h1, by rw [h2, hp.length_eq], rest, h3.trans hp, h4⟩

theorem knnAdd_spec {k : Nat} (hk : 0 < k) {all queue : List (K × Nat)} (h : IsNearest k all queue) (d : K) (i : Nat) :
    ∃ queue', knnAdd k queue d i = .ok queue' ∧ IsNearest k ((d, i) :: all) queue' := by
  unfold knnAdd
  by_cases hlt : queue.length < k
  · rw [if_pos hlt]
    obtain ⟨h1, h2, rest, h3, h4⟩ := h
    have hr : rest = [] := by
      have := h3.length_eq; rw [List.length_append] at this
      have : rest.length = 0 := by omega
      exact List.length_eq_zero_iff.1 this
    subst hr
    refine ⟨_, rfl, emplace_sorted h1 _ _, ?_, [], ?_, by simp⟩
    · rw [(emplace_perm queue d i).length_eq, List.length_cons, List.length_cons]; omega
    · rw [List.append_nil] at h3 ⊢
      exact (emplace_perm _ _ _).trans (h3.cons _)
  · rw [if_neg hlt]
    have hqne : queue ≠ [] := by rintro rfl; exact hlt hk
    obtain ⟨last, hl⟩ : ∃ last, queue.getLast? = some last := ⟨_, List.getLast?_eq_some_getLast hqne⟩
    rw [hl]
    simp only
    by_cases hd : d < last.1
    · rw [if_pos hd]
      obtain ⟨h1, h2, rest, h3, h4⟩ := h
      have hne : emplace queue d i ≠ [] := by
        intro hc; have := (emplace_perm queue d i).length_eq; rw [hc] at this; simp at this
      have hsp := List.dropLast_append_getLast hne
      generalize (emplace queue d i).getLast hne = m at hsp
      have hes := emplace_sorted h1 d i
      rw [← hsp] at hes
      have hes' := List.pairwise_append.1 hes
      refine ⟨_, rfl, hes'.1, ?_, m :: rest, ?_, ?_⟩
      · rw [List.length_dropLast, (emplace_perm queue d i).length_eq]
        simp only [List.length_cons]; omega
      · have : ((emplace queue d i).dropLast ++ m :: rest) = (emplace queue d i) ++ rest := by
          conv_rhs => rw [← hsp]
          rw [List.append_assoc]; rfl
        rw [this]
        exact ((emplace_perm queue d i).append_right _).trans (h3.cons _)
      · intro x hx y hy
        rcases List.mem_cons.1 hy with rfl | hy
        · exact hes'.2.2 x hx _ (by simp)
        · have hx' : x ∈ emplace queue d i := List.dropLast_subset _ hx
          rcases List.mem_cons.1 ((emplace_perm queue d i).subset hx') with rfl | hx'
          · exact le_trans (le_of_lt hd) (h4 last (List.mem_of_getLast? hl) y hy)
          · exact h4 x hx' y hy
    · rw [if_neg hd]
      refine ⟨_, rfl, ?_⟩
      have := h.skip hlt hl (more := [(d, i)]) (by
        intro x hx; simp only [List.mem_singleton] at hx; subst hx; exact not_lt.1 hd)
      simpa using this

theorem knn_far_spec {k : Nat} (hk : 0 < k) {all queue : List (K × Nat)} (h : IsNearest k all queue)
    (f : List (K × Nat) → Outcome (List (K × Nat))) (d : K) (more : List (K × Nat)) (hm : ∀ x ∈ more, d ≤ x.1)
    (hf : ∃ queue', f queue = .ok queue' ∧ IsNearest k (more ++ all) queue') :
    ∃ queue', (do let far ← knnFar k queue d; if far = true then f queue else .ok queue) = .ok queue' ∧
      IsNearest k (more ++ all) queue' := by
  unfold knnFar
  by_cases hlt : queue.length < k
  · rw [if_pos hlt]; simpa using hf
  · rw [if_neg hlt]
    have hqne : queue ≠ [] := by rintro rfl; exact hlt hk
    obtain ⟨last, hl⟩ : ∃ last, queue.getLast? = some last := ⟨_, List.getLast?_eq_some_getLast hqne⟩
    rw [hl]
    simp only [Outcome.bind_ok]
    by_cases hd : d < last.1
    · simpa [hd] using hf
    · refine ⟨queue, by simp [hd], h.skip hlt hl (fun x hx => le_trans (not_lt.1 hd) (hm x hx))⟩

theorem knn_spec {t : KdNode} {depth : Nat} (ho : Ordered pt depth t) (ha : AdmTree pt dist axisDist q t)
    {k : Nat} (hk : 0 < k) {all queue : List (K × Nat)} (h : IsNearest k all queue) :
    ∃ queue', knn pt dist axisDist q k t queue = .ok queue' ∧
      IsNearest k (withDist pt dist q (contents t) ++ all) queue' := by
  induction t generalizing depth all queue with
  | nil => exact ⟨queue, rfl, by simpa [contents, withDist] using h⟩
  | node idx axis l r ihl ihr =>
    have hol := ho.2.2.2.1
    have hor := ho.2.2.2.2
    unfold knn
    obtain ⟨q1, e1, h1⟩ := knnAdd_spec hk h (dist (pt idx) q) idx
    rw [e1, Outcome.bind_ok]
    by_cases hq : coord axis q < coord axis (pt idx)
    · rw [if_pos hq]
      obtain ⟨q2, e2, h2⟩ := ihl hol ha.left h1
      rw [e2, Outcome.bind_ok]
      obtain ⟨q3, e3, h3⟩ := knn_far_spec hk h2 (knn pt dist axisDist q k r) (axisDist axis (pt idx) q)
        (withDist pt dist q (contents r))
        (by intro x hx; obtain ⟨i, hi, rfl⟩ := List.mem_map.1 hx; exact far_right ho ha hq i hi)
        (ihr hor ha.right h2)
      refine ⟨q3, e3, h3.perm ?_⟩
      simp only [contents, withDist, List.map_append, List.map_cons, List.append_assoc, List.cons_append]
      refine (List.perm_append_comm_assoc _ _ _).trans (List.Perm.append_left _ ?_)
      exact List.perm_middle
    · rw [if_neg hq]
      obtain ⟨q2, e2, h2⟩ := ihr hor ha.right h1
      rw [e2, Outcome.bind_ok]
      obtain ⟨q3, e3, h3⟩ := knn_far_spec hk h2 (knn pt dist axisDist q k l) (axisDist axis (pt idx) q)
        (withDist pt dist q (contents l))
        (by intro x hx; obtain ⟨i, hi, rfl⟩ := List.mem_map.1 hx; exact far_left ho ha hq i hi)
        (ihl hol ha.left h2)
      refine ⟨q3, e3, h3.perm ?_⟩
      simp only [contents, withDist, List.map_append, List.map_cons, List.append_assoc, List.cons_append]
      exact List.Perm.append_left _ List.perm_middle

/-! ## C26: best-first enumeration -/

def itemContents : Item K → List Nat
  | .sub _ n => contents n
  | .point _ i => [i]

/-- What holds for the items in the priority queue; the part needed for the order only under the
assumption `A`. -/
def ItemOk (A : Prop) (pt : Nat → Pt C) (dist : Pt C → Pt C → K) (axisDist : Nat → Pt C → Pt C → K) (q : Pt C) : Item K → Prop
  | .sub d n => n ≠ .nil ∧ (A → (∃ depth, Ordered pt depth n) ∧ AdmTree pt dist axisDist q n ∧
      ∀ i ∈ contents n, d ≤ dist (pt i) q)
  | .point d i => d = dist (pt i) q

theorem ItemOk.le {A : Prop} {x : Item K} (h : ItemOk A pt dist axisDist q x) (a : A) : ∀ i ∈ itemContents x, x.key ≤ dist (pt i) q := by
  cases x with
  | sub d n => exact (h.2 a).2.2
  | point d i =>
    intro j hj
    simp only [itemContents, List.mem_singleton] at hj; subst hj
    exact le_of_eq h

theorem push_spec {A : Prop} {d : K} {n : KdNode} {pq : List (Item K)}
    (hA : A → (∃ depth, Ordered pt depth n) ∧ AdmTree pt dist axisDist q n ∧ ∀ i ∈ contents n, d ≤ dist (pt i) q)
    (hpq : ∀ x ∈ pq, ItemOk A pt dist axisDist q x) :
    (∀ x ∈ push d n pq, ItemOk A pt dist axisDist q x) ∧
    (push d n pq).flatMap itemContents = contents n ++ pq.flatMap itemContents ∧
    ((push d n pq).map Item.weight).sum = 2 * size n + (pq.map Item.weight).sum := by
  cases n with
  | nil => exact ⟨hpq, by simp [push, contents], by simp [push, size]⟩
  | node idx axis l r =>
    refine ⟨?_, by simp [push, itemContents], by simp [push, Item.weight]⟩
    intro x hx
    simp only [push, List.mem_cons] at hx
    rcases hx with rfl | hx
    · exact ⟨by simp, hA⟩
    · exact hpq x hx

theorem expand_spec {A : Prop} {d : K} {n : KdNode} {pq : List (Item K)} (h : ItemOk A pt dist axisDist q (.sub d n))
    (hpq : ∀ x ∈ pq, ItemOk A pt dist axisDist q x) :
    (∀ x ∈ expand pt dist axisDist q d n pq, ItemOk A pt dist axisDist q x) ∧
    ((expand pt dist axisDist q d n pq).flatMap itemContents).Perm (contents n ++ pq.flatMap itemContents) ∧
    ((expand pt dist axisDist q d n pq).map Item.weight).sum + 1 = 2 * size n + (pq.map Item.weight).sum := by
  obtain ⟨hne, hA⟩ := h
  cases n with
  | nil => exact absurd rfl hne
  | node idx axis l r =>
    have hpq1 : ∀ x ∈ (.point (dist (pt idx) q) idx :: pq), ItemOk A pt dist axisDist q x := by
      intro x hx
      rcases List.mem_cons.1 hx with rfl | hx
      · rfl
      · exact hpq x hx
    have hl : A → (∃ depth, Ordered pt depth l) ∧ AdmTree pt dist axisDist q l ∧ ∀ i ∈ contents l, d ≤ dist (pt i) q := by
      intro a
      obtain ⟨⟨depth, ho⟩, ha, hd⟩ := hA a
      exact ⟨⟨_, ho.2.2.2.1⟩, ha.left, fun i hi => hd i (by simp [contents, hi])⟩
    have hr : A → (∃ depth, Ordered pt depth r) ∧ AdmTree pt dist axisDist q r ∧ ∀ i ∈ contents r, d ≤ dist (pt i) q := by
      intro a
      obtain ⟨⟨depth, ho⟩, ha, hd⟩ := hA a
      exact ⟨⟨_, ho.2.2.2.2⟩, ha.right, fun i hi => hd i (by simp [contents, hi])⟩
    unfold expand
    simp only
    by_cases hq : coord axis q < coord axis (pt idx)
    · rw [if_pos hq]
      obtain ⟨a1, a2, a3⟩ := push_spec hl hpq1
      obtain ⟨b1, b2, b3⟩ := push_spec (d := max d (axisDist axis (pt idx) q)) (n := r)
        (fun a => ⟨(hr a).1, (hr a).2.1, fun i hi => max_le ((hr a).2.2 i hi)
          (far_right (hA a).1.choose_spec (hA a).2.1 hq i hi)⟩) a1
      refine ⟨b1, ?_, ?_⟩
      · rw [b2, a2]
        simp only [List.flatMap_cons, itemContents, contents, List.append_assoc, List.singleton_append,
          List.cons_append]
        refine (List.perm_append_comm_assoc _ _ _).trans (List.Perm.append_left _ List.perm_middle)
      · rw [b3, a3]
        simp only [List.map_cons, List.sum_cons, Item.weight, size]; omega
    · rw [if_neg hq]
      obtain ⟨a1, a2, a3⟩ := push_spec hr hpq1
      obtain ⟨b1, b2, b3⟩ := push_spec (d := max d (axisDist axis (pt idx) q)) (n := l)
        (fun a => ⟨(hl a).1, (hl a).2.1, fun i hi => max_le ((hl a).2.2 i hi)
          (far_left (hA a).1.choose_spec (hA a).2.1 hq i hi)⟩) a1
      refine ⟨b1, ?_, ?_⟩
      · rw [b2, a2]
        simp only [List.flatMap_cons, itemContents, contents, List.append_assoc, List.singleton_append,
          List.cons_append]
        exact List.Perm.append_left _ List.perm_middle
      · rw [b3, a3]
        simp only [List.map_cons, List.sum_cons, Item.weight, size]; omega

theorem loop_spec {A : Prop} (pop : Pop K) (fuel : Nat) (pq : List (Item K)) (hok : ∀ x ∈ pq, ItemOk A pt dist axisDist q x)
    (hw : (pq.map Item.weight).sum ≤ fuel) :
    ∃ E : List (K × Nat), E.Perm (withDist pt dist q (pq.flatMap itemContents)) ∧ (A → Sorted E) ∧
      ∀ {S : Type} (visit : S → Nat → K → S × Bool) (s : S),
        loop pt dist axisDist q pop visit fuel pq s = some (deliver visit E s) := by
  induction fuel generalizing pq with
  | zero =>
    have hnil : pq = [] := by
      cases pq with
      | nil => rfl
      | cons x l =>
        exfalso
        have hx := hok x (by simp)
        simp only [List.map_cons, List.sum_cons] at hw
        cases x with
        | point d i => simp [Item.weight] at hw
        | sub d n =>
          cases n with
          | nil => exact hx.1 rfl
          | node => simp [Item.weight, size] at hw
    subst hnil
    refine ⟨[], by simp [withDist], fun _ => List.Pairwise.nil, ?_⟩
    intro S visit s
    simp [loop, pop.empty, deliver]
  | succ fuel ih =>
    by_cases hne : pq = []
    · subst hne
      refine ⟨[], by simp [withDist], fun _ => List.Pairwise.nil, ?_⟩
      intro S visit s
      simp [loop, pop.empty, deliver]
    · obtain ⟨x, rest, hrun, hperm, hmin⟩ := pop.ok pq hne
      have hxok : ItemOk A pt dist axisDist q x := hok x (hperm.subset (by simp))
      have hrok : ∀ y ∈ rest, ItemOk A pt dist axisDist q y := fun y hy => hok y (hperm.subset (by simp [hy]))
      have hws : x.weight + (rest.map Item.weight).sum = (pq.map Item.weight).sum := by
        rw [← (hperm.map Item.weight).sum_nat]; simp
      have hcp : (pq.flatMap itemContents).Perm (itemContents x ++ rest.flatMap itemContents) := by
        have := (List.Perm.flatMap_right itemContents hperm).symm
        simpa using this
      cases x with
      | point d i =>
        have hd : d = dist (pt i) q := hxok
        obtain ⟨E, h1, h2, h3⟩ := ih rest hrok (by simp only [Item.weight] at hws; omega)
        refine ⟨(d, i) :: E, ?_, ?_, ?_⟩
        · refine List.Perm.trans ?_ (hcp.map _).symm
          simp only [itemContents, List.singleton_append, List.map_cons, ← hd]
          exact h1.cons _
        · intro a
          unfold Sorted
          rw [List.pairwise_cons]
          refine ⟨?_, h2 a⟩
          intro y hy
          obtain ⟨j, hj, rfl⟩ := List.mem_map.1 (h1.subset hy)
          obtain ⟨z, hz, hj⟩ := List.mem_flatMap.1 hj
          have hz1 := hmin z (hperm.subset (by simp [hz]))
          exact le_trans hz1 ((hrok z hz).le a j hj)
        · intro S visit s
          simp only [loop, hrun, deliver]
          by_cases hstop : (visit s i d).2 = true
          · simp [hstop]
          · simp only [hstop]
            exact h3 visit _
      | sub d n =>
        obtain ⟨e1, e2, e3⟩ := expand_spec hxok hrok
        obtain ⟨E, h1, h2, h3⟩ := ih (expand pt dist axisDist q d n rest) e1
          (by simp only [Item.weight] at hws; omega)
        refine ⟨E, h1.trans ((e2.trans hcp.symm).map _), h2, ?_⟩
        intro S visit s
        simp only [loop, hrun]
        exact h3 visit s

/-- The search delivers every point of the tree once, with its distance; in order of distance if the
axis distances are lower bounds. -/
theorem bestFirst_spec (A : Prop) (pop : Pop K) (zero : K) (tree : KdNode)
    (hA : A → (∃ depth, Ordered pt depth tree) ∧ AdmTree pt dist axisDist q tree ∧
      ∀ i ∈ contents tree, zero ≤ dist (pt i) q) :
    ∃ E : List (K × Nat), E.Perm (withDist pt dist q (contents tree)) ∧ (A → Sorted E) ∧
      ∀ {S : Type} (visit : S → Nat → K → S × Bool) (s : S),
        bestFirst pt dist axisDist q pop zero visit tree s = some (deliver visit E s) := by
  cases tree with
  | nil => exact ⟨[], List.Perm.refl _, fun _ => List.Pairwise.nil, fun visit s => rfl⟩
  | node idx axis l r =>
    obtain ⟨E, h1, h2, h3⟩ := loop_spec (A := A) pop (2 * size (.node idx axis l r)) [.sub zero (.node idx axis l r)]
      (by intro x hx; simp only [List.mem_singleton] at hx; subst hx; exact ⟨by simp, hA⟩)
      (by simp [Item.weight])
    refine ⟨E, h1.trans ?_, h2, fun visit s => h3 visit s⟩
    simp only [List.flatMap_cons, List.flatMap_nil, itemContents, List.append_nil]
    exact List.Perm.refl _

/-- Without any assumption a radius search returns some of the points within the radius, sorted. -/
theorem radius_sub (rad : K) (t : KdNode) (queue : List (K × Nat)) (hs : Sorted queue) :
    Sorted (radius pt dist axisDist q rad t queue) ∧
    ∃ L : List Nat, L.Sublist (contents t) ∧
      (radius pt dist axisDist q rad t queue).Perm (within pt dist q rad L ++ queue) := by
  induction t generalizing queue with
  | nil => exact ⟨hs, [], List.Sublist.refl _, by simp [radius, within, withDist]⟩
  | node idx axis l r ihl ihr =>
    unfold radius
    simp only
    generalize hq1 : (if dist (pt idx) q ≤ rad then emplace queue (dist (pt idx) q) idx else queue) = queue1
    have hs1 : Sorted queue1 := by
      rw [← hq1]; split
      · exact emplace_sorted hs _ _
      · exact hs
    have hp1 : queue1.Perm (within pt dist q rad [idx] ++ queue) := by
      rw [← hq1]
      by_cases h : dist (pt idx) q ≤ rad
      · rw [if_pos h]
        have : within pt dist q rad [idx] = [(dist (pt idx) q, idx)] := by simp [within, withDist, h]
        rw [this]; exact emplace_perm _ _ _
      · rw [if_neg h]
        have : within pt dist q rad [idx] = [] := by simp [within, withDist, h]
        rw [this]; exact List.Perm.refl _
    have fin : ∀ (res : List (K × Nat)) (L R : List Nat), Sorted res → L.Sublist (contents l) → R.Sublist (contents r) →
        res.Perm (within pt dist q rad L ++ (within pt dist q rad R ++ (within pt dist q rad [idx] ++ queue))) →
        Sorted res ∧ ∃ M : List Nat, M.Sublist (contents (.node idx axis l r)) ∧
          res.Perm (within pt dist q rad M ++ queue) := by
      intro res L R hres hL hR hperm
      refine ⟨hres, L ++ idx :: R, hL.append (hR.cons_cons idx), hperm.trans ?_⟩
      have : within pt dist q rad (L ++ idx :: R) =
          within pt dist q rad L ++ (within pt dist q rad [idx] ++ within pt dist q rad R) := by
        rw [← within_append, ← within_append]; rfl
      rw [this, List.append_assoc, List.append_assoc]
      exact List.Perm.append_left _ (List.perm_append_comm_assoc _ _ _)
    by_cases hq : coord axis q < coord axis (pt idx)
    · rw [if_pos hq]
      obtain ⟨a1, L, a2, a4⟩ := ihl queue1 hs1
      by_cases hf : axisDist axis (pt idx) q ≤ rad
      · rw [if_pos hf]
        obtain ⟨b1, R, b2, b4⟩ := ihr _ a1
        refine fin _ L R b1 a2 b2 (b4.trans ?_)
        refine (List.Perm.append_left _ (a4.trans (List.Perm.append_left _ hp1))).trans ?_
        exact List.perm_append_comm_assoc _ _ _
      · rw [if_neg hf]
        refine fin _ L [] a1 a2 (List.nil_sublist _) ?_
        refine a4.trans ?_
        simpa [within, withDist] using List.Perm.append_left _ hp1
    · rw [if_neg hq]
      obtain ⟨a1, R, a2, a4⟩ := ihr queue1 hs1
      by_cases hf : axisDist axis (pt idx) q ≤ rad
      · rw [if_pos hf]
        obtain ⟨b1, L, b2, b4⟩ := ihl _ a1
        refine fin _ L R b1 b2 a2 (b4.trans ?_)
        exact List.Perm.append_left _ (a4.trans (List.Perm.append_left _ hp1))
      · rw [if_neg hf]
        refine fin _ [] R a1 (List.nil_sublist _) a2 ?_
        refine a4.trans ?_
        simpa [within, withDist] using List.Perm.append_left _ hp1

/-! ## Radius search when the axis distance is only a lower bound up to a slack -/

/-- `f` bounds the axis distance of the splitting points that separate a point from the query -/
def Slack (pt : Nat → Pt C) (axisDist : Nat → Pt C → Pt C → K) (q : Pt C) (f : Nat → K) (S : List Nat) : Prop :=
  ∀ axis < 3, ∀ c ∈ S, ∀ j ∈ S,
    (coord axis q < coord axis (pt c) ∧ coord axis (pt c) ≤ coord axis (pt j)) ∨
    (coord axis (pt j) ≤ coord axis (pt c) ∧ coord axis (pt c) ≤ coord axis q) →
      axisDist axis (pt c) q ≤ f j

theorem radius_slack {f : Nat → K} {t : KdNode} {depth : Nat} (ho : Ordered pt depth t)
    (ha : Slack pt axisDist q f (contents t)) (rad : K) (queue : List (K × Nat)) (hs : Sorted queue) :
    Sorted (radius pt dist axisDist q rad t queue) ∧
    ∃ L : List Nat, L.Sublist (contents t) ∧
      (∀ j ∈ contents t, dist (pt j) q ≤ rad → f j ≤ rad → j ∈ L) ∧
      (radius pt dist axisDist q rad t queue).Perm (within pt dist q rad L ++ queue) := by
  induction t generalizing depth queue with
  | nil => exact ⟨hs, [], List.Sublist.refl _, by simp [contents], by simp [radius, within, withDist]⟩
  | node idx axis l r ihl ihr =>
    have hax := ho.1
    have h1 := ho.2.1
    have h2 := ho.2.2.1
    have hol := ho.2.2.2.1
    have hor := ho.2.2.2.2
    have hal : Slack pt axisDist q f (contents l) := fun a h c hc j hj =>
      ha a h c (by simp [contents, hc]) j (by simp [contents, hj])
    have har : Slack pt axisDist q f (contents r) := fun a h c hc j hj =>
      ha a h c (by simp [contents, hc]) j (by simp [contents, hj])
    unfold radius
    simp only
    generalize hq1 : (if dist (pt idx) q ≤ rad then emplace queue (dist (pt idx) q) idx else queue) = queue1
    have hs1 : Sorted queue1 := by
      rw [← hq1]; split
      · exact emplace_sorted hs _ _
      · exact hs
    have hp1 : queue1.Perm (within pt dist q rad [idx] ++ queue) := by
      rw [← hq1]
      by_cases h : dist (pt idx) q ≤ rad
      · rw [if_pos h]
        have : within pt dist q rad [idx] = [(dist (pt idx) q, idx)] := by simp [within, withDist, h]
        rw [this]; exact emplace_perm _ _ _
      · rw [if_neg h]
        have : within pt dist q rad [idx] = [] := by simp [within, withDist, h]
        rw [this]; exact List.Perm.refl _
    -- the result with the parts `L` and `R` of the two sub-trees
    have fin : ∀ (res : List (K × Nat)) (L R : List Nat), Sorted res → L.Sublist (contents l) → R.Sublist (contents r) →
        (∀ j ∈ contents l, dist (pt j) q ≤ rad → f j ≤ rad → j ∈ L) →
        (∀ j ∈ contents r, dist (pt j) q ≤ rad → f j ≤ rad → j ∈ R) →
        res.Perm (within pt dist q rad L ++ (within pt dist q rad R ++ (within pt dist q rad [idx] ++ queue))) →
        Sorted res ∧ ∃ M : List Nat, M.Sublist (contents (.node idx axis l r)) ∧
          (∀ j ∈ contents (.node idx axis l r), dist (pt j) q ≤ rad → f j ≤ rad → j ∈ M) ∧
          res.Perm (within pt dist q rad M ++ queue) := by
      intro res L R hres hL hR cL cR hperm
      refine ⟨hres, L ++ idx :: R, hL.append (hR.cons_cons idx), ?_, hperm.trans ?_⟩
      · intro j hj hd hf
        unfold contents at hj
        rcases List.mem_append.1 hj with hj | hj
        · simp [cL j hj hd hf]
        · rcases List.mem_cons.1 hj with rfl | hj
          · simp
          · simp [cR j hj hd hf]
      · have : within pt dist q rad (L ++ idx :: R) =
            within pt dist q rad L ++ (within pt dist q rad [idx] ++ within pt dist q rad R) := by
          rw [← within_append, ← within_append]; rfl
        rw [this, List.append_assoc, List.append_assoc]
        exact List.Perm.append_left _ (List.perm_append_comm_assoc _ _ _)
    by_cases hq : coord axis q < coord axis (pt idx)
    · rw [if_pos hq]
      obtain ⟨a1, L, a2, a3, a4⟩ := ihl hol hal queue1 hs1
      by_cases hf : axisDist axis (pt idx) q ≤ rad
      · rw [if_pos hf]
        obtain ⟨b1, R, b2, b3, b4⟩ := ihr hor har _ a1
        refine fin _ L R b1 a2 b2 a3 b3 (b4.trans ?_)
        refine (List.Perm.append_left _ (a4.trans (List.Perm.append_left _ hp1))).trans ?_
        exact List.perm_append_comm_assoc _ _ _
      · rw [if_neg hf]
        refine fin _ L [] a1 a2 (List.nil_sublist _) a3 ?_ ?_
        · intro j hj _ hfj
          exact absurd (le_trans (ha axis (by rw [hax]; omega) idx (by simp [contents]) j (by simp [contents, hj])
            (.inl ⟨hq, h2 j hj⟩)) hfj) hf
        · refine a4.trans ?_
          simpa [within, withDist] using List.Perm.append_left _ hp1
    · rw [if_neg hq]
      obtain ⟨a1, R, a2, a3, a4⟩ := ihr hor har queue1 hs1
      by_cases hf : axisDist axis (pt idx) q ≤ rad
      · rw [if_pos hf]
        obtain ⟨b1, L, b2, b3, b4⟩ := ihl hol hal _ a1
        refine fin _ L R b1 b2 a2 b3 a3 (b4.trans ?_)
        exact List.Perm.append_left _ (a4.trans (List.Perm.append_left _ hp1))
      · rw [if_neg hf]
        refine fin _ [] R a1 (List.nil_sublist _) a2 ?_ a3 ?_
        · intro j hj _ hfj
          exact absurd (le_trans (ha axis (by rw [hax]; omega) idx (by simp [contents]) j (by simp [contents, hj])
            (.inr ⟨h1 j hj, not_lt.1 hq⟩)) hfj) hf
        · refine a4.trans ?_
          simpa [within, withDist] using List.Perm.append_left _ hp1

end

end Verif.KdTree
