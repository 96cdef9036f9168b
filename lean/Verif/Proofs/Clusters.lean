import Verif.Model.Clusters
import Verif.Spec.Clusters

/-!
# Helper lemmas for C32, C33
-/

set_option linter.unusedSimpArgs false

namespace Verif.Clusters

theorem mem_insertId {l : List Nat} {i x : Nat} : x ∈ insertId l i ↔ x ∈ l ∨ x = i := by
  unfold insertId
  split
  · constructor
    · exact .inl
    · rintro (h | rfl) <;> assumption
  · simp

theorem length_insertId (l : List Nat) (i : Nat) : (insertId l i).length ≤ l.length + 1 := by
  unfold insertId; split <;> simp

theorem nodup_insertId {l : List Nat} {i : Nat} (h : l.Nodup) : (insertId l i).Nodup := by
  unfold insertId
  split
  · exact h
  · rename_i hi
    exact (List.perm_append_singleton i l).nodup_iff.2 (List.nodup_cons.2 ⟨hi, h⟩)

theorem mem_foldl_insertId {is l : List Nat} {x : Nat} : x ∈ is.foldl insertId l ↔ x ∈ l ∨ x ∈ is := by
  induction is generalizing l with
  | nil => simp
  | cons i is ih => simp only [List.foldl_cons, ih, mem_insertId, List.mem_cons]; tauto

theorem length_foldl_insertId (is l : List Nat) : (is.foldl insertId l).length ≤ l.length + is.length := by
  induction is generalizing l with
  | nil => simp
  | cons i is ih =>
    have := length_insertId l i
    have := ih (insertId l i)
    simp only [List.foldl_cons, List.length_cons]; omega

theorem foldl_remove (ps : List (Nat × Nat)) (n : Neighbours) :
    (ps.foldl (fun n p => n.remove p.2) n).refId = n.refId ∧
    ∀ b, (ps.foldl (fun n p => n.remove p.2) n).nbs.find? b = if b ∈ ps.map (·.2) then none else n.nbs.find? b := by
  induction ps generalizing n with
  | nil => simp
  | cons p ps ih =>
    obtain ⟨h1, h2⟩ := ih (n.remove p.2)
    refine ⟨h1, ?_⟩
    intro b
    rw [List.foldl_cons, h2, show (n.remove p.2).nbs = n.nbs.erase p.2 from rfl, AMap.find?_erase, List.map_cons]
    simp only [List.mem_cons]
    by_cases e : b = p.2
    · simp [e]
    · simp only [e, if_false, false_or]

theorem dropSeen_refId (pairs : List (Nat × Nat)) (n : Neighbours) : (dropSeen pairs n).refId = n.refId :=
  (foldl_remove _ _).1

theorem dropSeen_find? (pairs : List (Nat × Nat)) (n : Neighbours) (b : Nat) :
    (dropSeen pairs n).nbs.find? b = if (n.refId, b) ∈ pairs then none else n.nbs.find? b := by
  unfold dropSeen
  rw [(foldl_remove _ _).2]
  have : b ∈ (pairs.filter (fun p => p.1 = n.refId)).map (·.2) ↔ (n.refId, b) ∈ pairs := by
    simp only [List.mem_map, List.mem_filter, decide_eq_true_eq]
    constructor
    · rintro ⟨⟨x, y⟩, ⟨h1, h2⟩, rfl⟩
      simp only at h2
      subst h2
      exact h1
    · intro h
      exact ⟨_, ⟨h, rfl⟩, rfl⟩
  simp only [this]

/-- What holds of the neighbours after dropping pairs: only a pair kept in the other direction is missing,
and no pair is kept in both directions. -/
structure Pairs (G : AMap Nat Neighbours) (P : List Neighbours) : Prop where
  kept : ∀ n ∈ P, ∃ m, G.find? n.refId = some m ∧ ∀ b, n.nbs.find? b = m.nbs.find? b ∨
    (n.nbs.find? b = none ∧ b ≠ n.refId ∧ ∃ n2 ∈ P, n2.refId = b ∧ n.refId ∈ n2.ids)
  once : ∀ n ∈ P, ∀ n2 ∈ P, n.refId ≠ n2.refId → n2.refId ∈ n.ids → n.refId ∉ n2.ids

theorem Pairs.perm {G : AMap Nat Neighbours} {P Q : List Neighbours} (h : P.Perm Q) (p : Pairs G P) : Pairs G Q := by
  refine ⟨?_, ?_⟩
  · intro n hn
    obtain ⟨m, h1, h2⟩ := p.kept n (h.symm.subset hn)
    refine ⟨m, h1, fun b => ?_⟩
    rcases h2 b with h3 | ⟨h3, h4, n2, h5, h6⟩
    · exact .inl h3
    · exact .inr ⟨h3, h4, n2, h.subset h5, h6⟩
  · intro n hn n2 hn2
    exact p.once n (h.symm.subset hn) n2 (h.symm.subset hn2)

/-- The neighbours kept for an event were listed for it. -/
theorem Pairs.lists {G : AMap Nat Neighbours} {P : List Neighbours} (p : Pairs G P) {n : Neighbours} (hn : n ∈ P)
    {b : Nat} (hb : b ∈ n.ids) : Lists G n.refId b := by
  obtain ⟨m, h1, h2⟩ := p.kept n hn
  refine ⟨m, h1, ?_⟩
  obtain ⟨phs, hf⟩ := Option.isSome_iff_exists.1 (AMap.find?_isSome.2 hb)
  rcases h2 b with h3 | ⟨h3, -⟩
  · rw [h3] at hf
    exact AMap.mem_keys_of_find? hf
  · rw [h3] at hf; cases hf

variable {G : AMap Nat Neighbours}

/-- the events of a list of neighbours -/
abbrev evs (l : List Neighbours) : List Nat := l.map (·.refId)

/-- all the neighbours in the clusters -/
abbrev flat (c : AMap Nat (List Neighbours)) : List Neighbours := List.flatMap (·.2) c

theorem mem_flat {c : AMap Nat (List Neighbours)} {n : Neighbours} (hc : c.NodupKeys) :
    n ∈ flat c ↔ ∃ k l, c.find? k = some l ∧ n ∈ l := by
  simp only [flat, List.mem_flatMap]
  constructor
  · rintro ⟨⟨k, l⟩, h, h'⟩
    exact ⟨k, l, AMap.find?_of_mem hc h, h'⟩
  · rintro ⟨k, l, h, h'⟩
    exact ⟨(k, l), AMap.mem_of_find? h, h'⟩

/-- between two traversals -/
structure Inv (G : AMap Nat Neighbours) (s : State) : Prop where
  todo : ∀ id n, s.todo.find? id = some n → G.find? id = some n
  todoUnique : s.todo.NodupKeys
  split : (s.todo.keys ++ evs (flat s.clusters)).Perm G.keys
  unique : s.clusters.NodupKeys
  ids : ∀ e k, s.clusterId.find? e = some k ↔ ∃ l, s.clusters.find? k = some l ∧ e ∈ evs l
  linked : ∀ k l, s.clusters.find? k = some l → ∀ a ∈ evs l, ∀ b ∈ evs l, Linked G a b
  closed : ∀ k l, s.clusters.find? k = some l → ∀ a ∈ evs l, ∀ b, Edge G a b → b ∈ evs l
  nonempty : ∀ k l, s.clusters.find? k = some l → l ≠ []
  pairs : Pairs G (flat s.clusters)

/-- during a traversal that began at `start` -/
structure WInv (G : AMap Nat Neighbours) (s : State) (start : Nat) (w : Walk) : Prop where
  todo : ∀ id n, w.todo.find? id = some n → G.find? id = some n
  todoUnique : w.todo.NodupKeys
  split : (w.todo.keys ++ (evs w.cluster ++ evs (flat s.clusters))).Perm G.keys
  frontier : ∀ x ∈ w.frontier, x ∈ G.keys → Linked G start x
  cluster : ∀ x ∈ evs w.cluster, Linked G start x
  connected : ∀ k ∈ w.connected, ∃ x, s.clusterId.find? x = some k ∧ Linked G start x
  connectedUnique : w.connected.Nodup
  edges : ∀ a ∈ evs w.cluster, ∀ b, Edge G a b →
    b ∈ w.frontier ∨ b ∈ evs w.cluster ∨ ∃ k ∈ w.connected, s.clusterId.find? b = some k
  begun : start ∈ w.frontier ∨ start ∈ evs w.cluster
  startKey : start ∈ w.todo.keys ∨ start ∈ evs w.cluster
  seen : ∀ x r, (x, r) ∈ w.pairs ↔ ∃ n ∈ w.cluster, n.refId = r ∧ x ∈ n.ids
  pairs : Pairs G (w.cluster ++ flat s.clusters)

def weight (w : Walk) : Nat := w.frontier.length + (w.todo.map (fun kv => kv.2.ids.length)).sum

theorem sum_erase {m : AMap Nat Neighbours} {k : Nat} {n : Neighbours} (h : m.NodupKeys) (hf : m.find? k = some n) :
    ((m.erase k).map (fun kv => kv.2.ids.length)).sum + n.ids.length = (m.map (fun kv => kv.2.ids.length)).sum := by
  induction m with
  | nil => simp at hf
  | cons kv m ih =>
    obtain ⟨k', n'⟩ := kv
    unfold AMap.NodupKeys AMap.keys at h
    simp only [List.map_cons, List.nodup_cons] at h
    by_cases e : k' = k
    · subst e
      have he : AMap.erase ((k', n') :: m) k' = m := by
        have h0 : AMap.erase ((k', n') :: m) k' = AMap.erase m k' := by simp [AMap.erase]
        rw [h0]
        unfold AMap.erase
        rw [List.filter_eq_self]
        intro x hx
        have : x.1 ≠ k' := fun hx' => h.1 (List.mem_map.2 ⟨x, hx, hx'⟩)
        simp [this]
      have hn : n' = n := by simpa [AMap.find?] using hf
      rw [he, hn]
      simp only [List.map_cons, List.sum_cons]
      omega
    · have he : AMap.erase ((k', n') :: m) k = (k', n') :: AMap.erase m k := by simp [AMap.erase, e]
      have hf' : AMap.find? m k = some n := by
        have : AMap.find? ((k', n') :: m) k = AMap.find? m k := by simp [AMap.find?, e]
        rw [this] at hf; exact hf
      have := ih h.2 hf'
      rw [he]
      simp only [List.map_cons, List.sum_cons]
      omega

theorem noteCluster_mem {cid : AMap Nat Nat} {ev : Nat} {c : List Nat} {k : Nat} :
    k ∈ noteCluster cid ev c ↔ k ∈ c ∨ cid.find? ev = some k := by
  unfold noteCluster
  cases h : cid.find? ev with
  | none => simp
  | some k' =>
    simp only [mem_insertId, Option.some.injEq]
    constructor
    · rintro (h | rfl) <;> simp [*]
    · rintro (h | rfl) <;> simp [*]

theorem perm_erase_key {m : AMap Nat Neighbours} {k : Nat} {n : Neighbours} (h : m.NodupKeys) (hf : m.find? k = some n) :
    (k :: (m.erase k).keys).Perm m.keys := by
  have h2 : (m.erase k).NodupKeys := AMap.nodupKeys_erase h k
  apply (List.perm_ext_iff_of_nodup ?_ h).2
  · intro x
    simp only [List.mem_cons, AMap.mem_keys_erase]
    have := AMap.mem_keys_of_find? hf
    constructor
    · rintro (rfl | ⟨h, -⟩) <;> assumption
    · intro hx
      by_cases e : x = k <;> simp_all
  · rw [List.nodup_cons]
    refine ⟨?_, h2⟩
    simp [AMap.mem_keys_erase]

theorem walkStep_spec (hG : WF G) (pick : Pick) {s : State} (i : Inv G s) {start : Nat} {w : Walk}
    (wi : WInv G s start w) (hne : w.frontier ≠ []) :
    WInv G s start (walkStep pick s.clusterId w) ∧ weight (walkStep pick s.clusterId w) < weight w := by
  have hpick := pick.mem w.frontier hne
  unfold walkStep
  simp only
  generalize pick.first w.frontier = ev at hpick
  have hlen : (w.frontier.filter (fun i => i ≠ ev)).length < w.frontier.length := by
    apply List.length_filter_lt_length_iff_exists.2
    exact ⟨ev, hpick, by simp⟩
  have hfr : ∀ x, x ∈ w.frontier → x = ev ∨ x ∈ w.frontier.filter (fun i => i ≠ ev) := by
    intro x hx
    by_cases e : x = ev
    · exact .inl e
    · exact .inr (List.mem_filter.2 ⟨hx, by simp [e]⟩)
  have hconn : ∀ k ∈ noteCluster s.clusterId ev w.connected, ∃ x, s.clusterId.find? x = some k ∧ Linked G start x := by
    intro k hk
    rcases noteCluster_mem.1 hk with hk | hk
    · exact wi.connected k hk
    · refine ⟨ev, hk, wi.frontier ev hpick ?_⟩
      obtain ⟨l, h1, h2⟩ := (i.ids ev k).1 hk
      apply wi.split.subset
      simp only [List.mem_append]
      refine .inr (.inr ?_)
      obtain ⟨n, hn, rfl⟩ := List.mem_map.1 h2
      exact List.mem_map.2 ⟨n, (mem_flat i.unique).2 ⟨k, l, h1, hn⟩, rfl⟩
  have hconnU : (noteCluster s.clusterId ev w.connected).Nodup := by
    unfold noteCluster
    split
    · exact nodup_insertId wi.connectedUnique
    · exact wi.connectedUnique
  cases hf : w.todo.find? ev with
  | none =>
    simp only
    have hev : ev ∈ G.keys → ev ∈ evs w.cluster ∨ ∃ k ∈ noteCluster s.clusterId ev w.connected, s.clusterId.find? ev = some k := by
      intro h
      have := wi.split.symm.subset h
      simp only [List.mem_append] at this
      rcases this with h | h | h
      · exact absurd h (AMap.find?_eq_none.1 hf)
      · exact .inl h
      · obtain ⟨n, hn, rfl⟩ := List.mem_map.1 h
        obtain ⟨k, l, h1, h2⟩ := (mem_flat i.unique).1 hn
        have hk : s.clusterId.find? n.refId = some k := (i.ids _ _).2 ⟨l, h1, List.mem_map.2 ⟨n, h2, rfl⟩⟩
        exact .inr ⟨k, noteCluster_mem.2 (.inr hk), hk⟩
    refine ⟨⟨wi.todo, wi.todoUnique, wi.split, ?_, wi.cluster, hconn, hconnU, ?_, ?_, wi.startKey, wi.seen, wi.pairs⟩, ?_⟩
    · intro x hx
      exact wi.frontier x (List.mem_filter.1 hx).1
    · intro a ha b hab
      rcases wi.edges a ha b hab with h | h | ⟨k, h, h'⟩
      · rcases hfr b h with rfl | h
        · rcases hev hab.1 with h | h
          · exact .inr (.inl h)
          · exact .inr (.inr h)
        · exact .inl h
      · exact .inr (.inl h)
      · exact .inr (.inr ⟨k, noteCluster_mem.2 (.inl h), h'⟩)
    · rcases wi.begun with h | h
      · rcases hfr _ h with rfl | h
        · rcases wi.startKey with h | h
          · exact absurd h (AMap.find?_eq_none.1 hf)
          · exact .inr h
        · exact .inl h
      · exact .inr h
    · unfold weight
      simp only
      omega
  | some n =>
    simp only
    have hGev := wi.todo _ _ hf
    have hr : n.refId = ev := hG.key _ _ hGev
    have hr' : (dropSeen w.pairs n).refId = ev := by rw [dropSeen_refId, hr]
    have hevG : ev ∈ G.keys := AMap.mem_keys_of_find? hGev
    have hlk : Linked G start ev := wi.frontier ev hpick hevG
    have hevs : evs (w.cluster ++ [dropSeen w.pairs n]) = evs w.cluster ++ [ev] := by simp [evs, hr']
    have hnd : (w.todo.keys ++ (evs w.cluster ++ evs (flat s.clusters))).Nodup := wi.split.nodup_iff.2 hG.unique
    have hevk : ev ∈ w.todo.keys := AMap.mem_keys_of_find? hf
    have hfresh : ev ∉ evs w.cluster ∧ ev ∉ evs (flat s.clusters) := by
      have h := (List.nodup_append.1 hnd).2.2 ev hevk
      constructor
      · intro hx; exact h ev (by simp only [List.mem_append]; exact .inl hx) rfl
      · intro hx; exact h ev (by simp only [List.mem_append]; exact .inr hx) rfl
    have hmem : ∀ b, b ∈ (dropSeen w.pairs n).ids ↔ (ev, b) ∉ w.pairs ∧ b ∈ n.ids := by
      intro b
      unfold Neighbours.ids
      rw [← AMap.find?_isSome, dropSeen_find?, hr, ← AMap.find?_isSome]
      by_cases e : (ev, b) ∈ w.pairs <;> simp [e]
    rw [hr]
    refine ⟨⟨?_, AMap.nodupKeys_erase wi.todoUnique _, ?_, ?_, ?_, hconn, hconnU, ?_, ?_, ?_, ?_, ?_⟩, ?_⟩
    · intro k m hk
      rw [AMap.find?_erase] at hk
      split at hk
      · cases hk
      · exact wi.todo k m hk
    · rw [hevs]
      refine List.Perm.trans ?_ wi.split
      have h1 := perm_erase_key wi.todoUnique hf
      have h2 : (evs w.cluster ++ [ev] ++ evs (flat s.clusters)).Perm (ev :: (evs w.cluster ++ evs (flat s.clusters))) := by
        rw [List.append_assoc]
        exact List.perm_middle
      refine (List.Perm.append_left _ h2).trans ?_
      refine List.perm_middle.trans ?_
      rw [← List.cons_append]
      exact List.Perm.append_right _ h1
    · intro x hx hxG
      rcases mem_foldl_insertId.1 hx with hx | hx
      · exact wi.frontier x (List.mem_filter.1 hx).1 hxG
      · exact hlk.trans _ _ _ (.rel _ _ ⟨hxG, n, hGev, hx⟩)
    · intro x hx
      rw [hevs] at hx
      rcases List.mem_append.1 hx with hx | hx
      · exact wi.cluster x hx
      · rw [List.mem_singleton.1 hx]; exact hlk
    · intro a ha b hab
      rw [hevs] at ha ⊢
      rcases List.mem_append.1 ha with ha | ha
      · rcases wi.edges a ha b hab with h | h | ⟨k, h, h'⟩
        · rcases hfr b h with rfl | h
          · exact .inr (.inl (by simp))
          · exact .inl (mem_foldl_insertId.2 (.inl h))
        · exact .inr (.inl (List.mem_append_left _ h))
        · exact .inr (.inr ⟨k, noteCluster_mem.2 (.inl h), h'⟩)
      · rw [List.mem_singleton.1 ha] at hab
        obtain ⟨-, m, hm, hb⟩ := hab
        rw [hGev] at hm
        cases hm
        exact .inl (mem_foldl_insertId.2 (.inr hb))
    · rw [hevs]
      rcases wi.begun with h | h
      · rcases hfr _ h with rfl | h
        · exact .inr (by simp)
        · exact .inl (mem_foldl_insertId.2 (.inl h))
      · exact .inr (List.mem_append_left _ h)
    · rw [hevs]
      rcases wi.startKey with h | h
      · by_cases e : start = ev
        · exact .inr (by simp [e])
        · exact .inl (AMap.mem_keys_erase.2 ⟨h, e⟩)
      · exact .inr (List.mem_append_left _ h)
    · intro x r
      simp only [List.mem_append, wi.seen, List.mem_map, Prod.mk.injEq, List.mem_singleton, hr']
      constructor
      · rintro (⟨m, h1, h2⟩ | ⟨y, h1, rfl, rfl⟩)
        · exact ⟨m, .inl h1, h2⟩
        · exact ⟨_, .inr rfl, hr', h1⟩
      · rintro ⟨m, h1 | rfl, h2, h3⟩
        · exact .inl ⟨m, h1, h2, h3⟩
        · exact .inr ⟨x, h3, rfl, by rw [← h2, hr']⟩
    · have hp := wi.pairs
      have hsub : ∀ m, m ∈ w.cluster ++ flat s.clusters → m ∈ w.cluster ++ [dropSeen w.pairs n] ++ flat s.clusters := by
        intro m hm
        rcases List.mem_append.1 hm with h | h
        · exact List.mem_append_left _ (List.mem_append_left _ h)
        · exact List.mem_append_right _ h
      have hcases : ∀ m, m ∈ w.cluster ++ [dropSeen w.pairs n] ++ flat s.clusters →
          m = dropSeen w.pairs n ∨ m ∈ w.cluster ++ flat s.clusters := by
        intro m hm
        simp only [List.mem_append, List.mem_singleton] at hm ⊢
        tauto
      -- an event of the earlier ones which lists the new one and is listed by it
      have hboth : ∀ m ∈ w.cluster ++ flat s.clusters, m.refId ∈ (dropSeen w.pairs n).ids → ev ∉ m.ids := by
        intro m hm h1 h2
        rcases List.mem_append.1 hm with h | h
        · exact ((hmem _).1 h1).1 ((wi.seen _ _).2 ⟨m, h, rfl, h2⟩)
        · obtain ⟨k, l, h3, h4⟩ := (mem_flat i.unique).1 h
          have h5 : Edge G m.refId ev := ⟨hevG, i.pairs.lists h h2⟩
          have h6 := i.closed k l h3 m.refId (List.mem_map.2 ⟨m, h4, rfl⟩) ev h5
          apply hfresh.2
          obtain ⟨m', h7, h8⟩ := List.mem_map.1 h6
          exact List.mem_map.2 ⟨m', (mem_flat i.unique).2 ⟨k, l, h3, h7⟩, h8⟩
      refine ⟨?_, ?_⟩
      · intro m hm
        rcases hcases m hm with rfl | hm
        · refine ⟨n, by rw [hr']; exact hGev, ?_⟩
          intro b
          rw [dropSeen_find?, hr, hr']
          by_cases e : (ev, b) ∈ w.pairs
          · rw [if_pos e]
            obtain ⟨m, h1, h2, h3⟩ := (wi.seen _ _).1 e
            refine .inr ⟨rfl, ?_, m, hsub m (List.mem_append_left _ h1), h2, h3⟩
            rintro rfl
            exact hfresh.1 (List.mem_map.2 ⟨m, h1, h2⟩)
          · rw [if_neg e]; exact .inl rfl
        · obtain ⟨m', h1, h2⟩ := hp.kept m hm
          refine ⟨m', h1, fun b => ?_⟩
          rcases h2 b with h | ⟨h3, h4, m2, h5, h6⟩
          · exact .inl h
          · exact .inr ⟨h3, h4, m2, hsub m2 h5, h6⟩
      · intro m hm m2 hm2 hne' h1 h2
        rcases hcases m hm with rfl | hm
        · rcases hcases m2 hm2 with rfl | hm2
          · exact hne' rfl
          · exact hboth m2 hm2 h1 (by rw [← hr']; exact h2)
        · rcases hcases m2 hm2 with rfl | hm2
          · exact hboth m hm h2 (by rw [← hr']; exact h1)
          · exact hp.once m hm m2 hm2 hne' h1 h2
    · have h1 := sum_erase wi.todoUnique hf
      have h2 := length_foldl_insertId n.ids (w.frontier.filter (fun i => i ≠ ev))
      unfold weight
      simp only
      omega

theorem walk_spec (hG : WF G) (pick : Pick) {s : State} (i : Inv G s) {start : Nat} :
    ∀ (fuel : Nat) (w : Walk), weight w ≤ fuel → WInv G s start w →
      ∃ w', walk pick s.clusterId fuel w = .ok w' ∧ WInv G s start w' ∧ w'.frontier = [] := by
  intro fuel
  induction fuel with
  | zero =>
    intro w hw wi
    have : w.frontier = [] := by
      unfold weight at hw
      exact List.length_eq_zero_iff.1 (by omega)
    exact ⟨w, by simp [walk, this], wi, this⟩
  | succ fuel ih =>
    intro w hw wi
    unfold walk
    split
    · rename_i h; exact ⟨w, rfl, wi, h⟩
    · rename_i h
      obtain ⟨h1, h2⟩ := walkStep_spec hG pick i wi h
      exact ih _ (by omega) h1

theorem flat_erase {m : AMap Nat (List Neighbours)} {k : Nat} {c : List Neighbours} (h : m.NodupKeys)
    (hf : m.find? k = some c) : (c ++ flat (m.erase k)).Perm (flat m) := by
  induction m with
  | nil => simp at hf
  | cons kv m ih =>
    obtain ⟨k', c'⟩ := kv
    unfold AMap.NodupKeys AMap.keys at h
    simp only [List.map_cons, List.nodup_cons] at h
    by_cases e : k' = k
    · subst e
      have he : AMap.erase ((k', c') :: m) k' = m := by
        have h0 : AMap.erase ((k', c') :: m) k' = AMap.erase m k' := by simp [AMap.erase]
        rw [h0, AMap.erase_of_not_mem]
        exact h.1
      have hn : c' = c := by simpa [AMap.find?] using hf
      rw [he, hn]
      simp [flat]
    · have he : AMap.erase ((k', c') :: m) k = (k', c') :: AMap.erase m k := by simp [AMap.erase, e]
      have hf' : AMap.find? m k = some c := by
        rw [AMap.find?_cons, if_neg e] at hf; exact hf
      have := ih h.2 hf'
      rw [he]
      simp only [flat, List.flatMap_cons]
      rw [← List.append_assoc]
      refine (List.Perm.append_right _ List.perm_append_comm).trans ?_
      rw [List.append_assoc]
      exact List.Perm.append_left _ this

theorem merge_spec : ∀ (ks : List Nat) (cur : List Neighbours) (clusters : AMap Nat (List Neighbours)),
    ks.Nodup → (∀ k ∈ ks, ∃ c, clusters.find? k = some c) → clusters.NodupKeys →
    ∃ cur' clusters', merge ks cur clusters = .ok (cur', clusters') ∧ clusters'.NodupKeys ∧
      (∀ k, clusters'.find? k = if k ∈ ks then none else clusters.find? k) ∧
      (∀ n, n ∈ cur' ↔ n ∈ cur ∨ ∃ k ∈ ks, ∃ c, clusters.find? k = some c ∧ n ∈ c) ∧
      (cur' ++ flat clusters').Perm (cur ++ flat clusters) := by
  intro ks
  induction ks with
  | nil => intro cur clusters _ _ h; exact ⟨cur, clusters, rfl, h, by simp, by simp, List.Perm.refl _⟩
  | cons k ks ih =>
    intro cur clusters hnd hex hu
    rw [List.nodup_cons] at hnd
    obtain ⟨c, hc⟩ := hex k (by simp)
    have hne : ∀ k' ∈ ks, k' ≠ k := by rintro k' h rfl; exact hnd.1 h
    obtain ⟨cur', clusters', h1, h2, h3, h4, h5⟩ := ih (cur ++ c) (clusters.erase k) hnd.2
      (by intro k' hk'
          obtain ⟨c', hc'⟩ := hex k' (by simp [hk'])
          exact ⟨c', by rw [AMap.find?_erase_ne _ (hne k' hk'), hc']⟩) (AMap.nodupKeys_erase hu k)
    refine ⟨cur', clusters', ?_, h2, ?_, ?_, ?_⟩
    · unfold merge
      simp only [hc]
      exact h1
    · intro k'
      rw [h3 k', AMap.find?_erase]
      simp only [List.mem_cons]
      by_cases e : k' = k
      · simp [e]
      · simp only [e, if_false, false_or]
    · intro n
      rw [h4 n, List.mem_append]
      constructor
      · rintro ((h | h) | ⟨k', hk', c', hc', h⟩)
        · exact .inl h
        · exact .inr ⟨k, by simp, c, hc, h⟩
        · rw [AMap.find?_erase_ne _ (hne k' hk')] at hc'
          exact .inr ⟨k', by simp [hk'], c', hc', h⟩
      · rintro (h | ⟨k', hk', c', hc', h⟩)
        · exact .inl (.inl h)
        · rcases List.mem_cons.1 hk' with rfl | hk'
          · rw [hc] at hc'; cases hc'
            exact .inl (.inr h)
          · exact .inr ⟨k', hk', c', by rw [AMap.find?_erase_ne _ (hne k' hk')]; exact hc', h⟩
    · refine h5.trans ?_
      rw [List.append_assoc]
      exact List.Perm.append_left _ (flat_erase hu hc)

theorem le_foldl_max (l : List Nat) (z : Nat) : z ≤ l.foldl max z ∧ ∀ x ∈ l, x ≤ l.foldl max z := by
  induction l generalizing z with
  | nil => simp
  | cons a l ih =>
    obtain ⟨h1, h2⟩ := ih (max z a)
    simp only [List.foldl_cons, List.mem_cons, forall_eq_or_imp]
    exact ⟨le_trans (le_max_left _ _) h1, le_trans (le_max_right _ _) h1, h2⟩

theorem newId_fresh (c : AMap Nat (List Neighbours)) : newId c ∉ c.keys := by
  intro h
  have := (le_foldl_max c.keys 0).2 _ h
  unfold newId at this
  omega

theorem foldl_set_find? (l : List Neighbours) (m : AMap Nat Nat) (id e : Nat) :
    (l.foldl (fun m n => m.set n.refId id) m).find? e = if e ∈ evs l then some id else m.find? e := by
  induction l generalizing m with
  | nil => simp
  | cons n l ih =>
    rw [List.foldl_cons, ih, AMap.find?_set]
    simp only [evs, List.map_cons, List.mem_cons]
    by_cases h1 : e ∈ List.map (fun x => x.refId) l
    · simp only [h1, if_true, or_true]
    · simp only [h1, if_false, or_false]

theorem traverse_spec (hG : WF G) (pick : Pick) {s : State} (i : Inv G s) (hne : s.todo ≠ []) :
    ∃ s', traverse pick s = .ok s' ∧ Inv G s' ∧ s'.todo.length < s.todo.length := by
  have hne' : s.todo.keys ≠ [] := by
    intro h; apply hne; unfold AMap.keys at h; exact List.map_eq_nil_iff.1 h
  have hstart := pick.mem _ hne'
  unfold traverse
  simp only
  generalize pick.first s.todo.keys = start at hstart
  have hw0 : WInv G s start ⟨s.todo, [start], [], [], []⟩ := by
    refine ⟨i.todo, i.todoUnique, by simpa using i.split, ?_, by simp, by simp, by simp, by simp, by simp, .inl hstart, by simp, by simpa using i.pairs⟩
    intro x hx _
    rw [List.mem_singleton.1 hx]
    exact .refl _
  obtain ⟨w, h1, wi, hfr⟩ := walk_spec hG pick i (budget s.todo) _ (by unfold weight budget; simp) hw0
  rw [h1]
  simp only
  obtain ⟨cur, cl, m1, m2, m3, m4, m5⟩ := merge_spec w.connected w.cluster s.clusters wi.connectedUnique
    (by intro k hk
        obtain ⟨x, hx, -⟩ := wi.connected k hk
        obtain ⟨l, hl, -⟩ := (i.ids x k).1 hx
        exact ⟨l, hl⟩) i.unique
  rw [m1]
  simp only
  have hstartC : start ∈ evs w.cluster := by
    rcases wi.begun with h | h
    · rw [hfr] at h; simp at h
    · exact h
  have hev : ∀ e, e ∈ evs cur ↔ e ∈ evs w.cluster ∨ ∃ k ∈ w.connected, ∃ c, s.clusters.find? k = some c ∧ e ∈ evs c := by
    intro e
    simp only [evs, List.mem_map]
    constructor
    · rintro ⟨n, hn, rfl⟩
      rcases (m4 n).1 hn with h | ⟨k, hk, c, hc, h⟩
      · exact .inl ⟨n, h, rfl⟩
      · exact .inr ⟨k, hk, c, hc, n, h, rfl⟩
    · rintro (⟨n, hn, rfl⟩ | ⟨k, hk, c, hc, n, hn, rfl⟩)
      · exact ⟨n, (m4 n).2 (.inl hn), rfl⟩
      · exact ⟨n, (m4 n).2 (.inr ⟨k, hk, c, hc, hn⟩), rfl⟩
  have hlinkS : ∀ e ∈ evs cur, Linked G start e := by
    intro e he
    rcases (hev e).1 he with h | ⟨k, hk, c, hc, h⟩
    · exact wi.cluster e h
    · obtain ⟨x, hx, hlx⟩ := wi.connected k hk
      obtain ⟨l, hl, hxl⟩ := (i.ids x k).1 hx
      rw [hc] at hl; cases hl
      exact hlx.trans _ _ _ (i.linked k c hc x hxl e h)
  have hfresh := newId_fresh cl
  have hins : cl.insertNew (newId cl) cur = (newId cl, cur) :: cl := by
    unfold AMap.insertNew
    rw [AMap.find?_eq_none.2 hfresh]
  have hfind : ∀ k, AMap.find? ((newId cl, cur) :: cl) k =
      if newId cl = k then some cur else if k ∈ w.connected then none else s.clusters.find? k := by
    intro k
    rw [AMap.find?_cons, m3]
  have hflat : flat ((newId cl, cur) :: cl) = cur ++ flat cl := by simp [flat]
  have hperm : (flat ((newId cl, cur) :: cl)).Perm (w.cluster ++ flat s.clusters) := by rw [hflat]; exact m5
  have hnd : (evs w.cluster ++ evs (flat s.clusters)).Nodup := (List.nodup_append.1 (wi.split.nodup_iff.2 hG.unique)).2.1
  refine ⟨_, rfl, ?_, ?_⟩
  · rw [hins]
    refine ⟨wi.todo, wi.todoUnique, ?_, ?_, ?_, ?_, ?_, ?_, ?_⟩
    · refine List.Perm.trans ?_ wi.split
      apply List.Perm.append_left
      have := hperm.map (·.refId)
      rw [List.map_append] at this
      exact this
    · unfold AMap.NodupKeys
      rw [AMap.keys_cons]
      exact List.nodup_cons.2 ⟨hfresh, m2⟩
    · intro e k
      simp only
      rw [foldl_set_find?, hfind]
      by_cases he : e ∈ evs cur
      · rw [if_pos he]
        constructor
        · intro h
          cases h
          exact ⟨cur, by rw [if_pos rfl], he⟩
        · rintro ⟨l, hl, hel⟩
          by_cases e1 : newId cl = k
          · rw [e1]
          · exfalso
            rw [if_neg e1] at hl
            split at hl
            · cases hl
            · rename_i hk
              have hin : s.clusterId.find? e = some k := (i.ids e k).2 ⟨l, hl, hel⟩
              rcases (hev e).1 he with h | ⟨k', hk', c, hc, h⟩
              · refine (List.nodup_append.1 hnd).2.2 e h e ?_ rfl
                obtain ⟨n, hn, rfl⟩ := List.mem_map.1 hel
                exact List.mem_map.2 ⟨n, (mem_flat i.unique).2 ⟨k, l, hl, hn⟩, rfl⟩
              · have hin' : s.clusterId.find? e = some k' := (i.ids e k').2 ⟨c, hc, h⟩
                rw [hin] at hin'; cases hin'
                exact hk hk'
      · rw [if_neg he, i.ids]
        constructor
        · rintro ⟨l, hl, hel⟩
          have hk : k ∉ w.connected := fun hk => he ((hev e).2 (.inr ⟨k, hk, l, hl, hel⟩))
          have hne1 : newId cl ≠ k := by
            rintro rfl
            apply hfresh
            apply AMap.mem_keys_of_find? (v := l)
            rw [m3, if_neg hk, hl]
          exact ⟨l, by rw [if_neg hne1, if_neg hk, hl], hel⟩
        · rintro ⟨l, hl, hel⟩
          by_cases e1 : newId cl = k
          · rw [if_pos e1] at hl; cases hl; exact absurd hel he
          · rw [if_neg e1] at hl
            split at hl
            · cases hl
            · exact ⟨l, hl, hel⟩
    · intro k l hl a ha b hb
      simp only at hl
      rw [hfind] at hl
      split at hl
      · cases hl
        exact ((hlinkS a ha).symm _ _).trans _ _ _ (hlinkS b hb)
      · split at hl
        · cases hl
        · exact i.linked k l hl a ha b hb
    · intro k l hl a ha b hab
      simp only at hl
      rw [hfind] at hl
      split at hl
      · cases hl
        rcases (hev a).1 ha with h | ⟨k', hk', c, hc, h⟩
        · rcases wi.edges a h b hab with h | h | ⟨k', hk', h⟩
          · rw [hfr] at h; simp at h
          · exact (hev b).2 (.inl h)
          · obtain ⟨c, hc, hbc⟩ := (i.ids b k').1 h
            exact (hev b).2 (.inr ⟨k', hk', c, hc, hbc⟩)
        · exact (hev b).2 (.inr ⟨k', hk', c, hc, i.closed k' c hc a h b hab⟩)
      · split at hl
        · cases hl
        · exact i.closed k l hl a ha b hab
    · intro k l hl
      simp only at hl
      rw [hfind] at hl
      split at hl
      · cases hl
        rintro rfl
        have := (hev start).2 (.inl hstartC)
        simp at this
      · split at hl
        · cases hl
        · exact i.nonempty k l hl
    · exact Pairs.perm hperm.symm wi.pairs
  · simp only
    have l1 := wi.split.length_eq
    have l2 := i.split.length_eq
    have l3 : 0 < (evs w.cluster).length := List.length_pos_of_mem hstartC
    simp only [List.length_append, AMap.keys, List.length_map] at l1 l2 l3
    omega

theorem outer_spec (hG : WF G) (pick : Pick) : ∀ (fuel : Nat) (s : State), s.todo.length ≤ fuel → Inv G s →
    ∃ s', outer pick fuel s = .ok s' ∧ Inv G s' ∧ s'.todo = [] := by
  intro fuel
  induction fuel with
  | zero =>
    intro s h i
    have : s.todo = [] := List.length_eq_zero_iff.1 (by omega)
    exact ⟨s, by simp [outer, this], i, this⟩
  | succ fuel ih =>
    intro s h i
    unfold outer
    split
    · rename_i h; exact ⟨s, rfl, i, h⟩
    · rename_i hne
      obtain ⟨s', h1, h2, h3⟩ := traverse_spec hG pick i hne
      rw [h1]
      exact ih s' (by omega) h2

theorem foldl_insertNew (l : List Neighbours) : ∀ (m : AMap Nat Neighbours), (evs l ++ m.keys).Nodup →
    (l.foldl (fun m n => m.insertNew n.refId n) m : AMap Nat Neighbours) = (l.reverse.map (fun n => (n.refId, n))) ++ m := by
  induction l with
  | nil => simp
  | cons n l ih =>
    intro m h
    simp only [evs, List.map_cons, List.cons_append, List.nodup_cons, List.mem_append, not_or] at h
    have hins : m.insertNew n.refId n = (n.refId, n) :: m := by
      unfold AMap.insertNew
      rw [AMap.find?_eq_none.2 h.1.2]
    rw [List.foldl_cons, hins, ih]
    · simp
    · rw [AMap.keys_cons]
      refine List.perm_middle.nodup_iff.2 (List.nodup_cons.2 ⟨?_, h.2⟩)
      simp only [List.mem_append, not_or]
      exact h.1

theorem toMap_spec (l : List Neighbours) (h : (evs l).Nodup) :
    (toMap l : List (Nat × Neighbours)).Perm (l.map (fun n => (n.refId, n))) := by
  unfold toMap
  rw [foldl_insertNew l [] (by simpa [AMap.keys] using h)]
  rw [List.append_nil]
  exact (List.reverse_perm l).map _

end Verif.Clusters
