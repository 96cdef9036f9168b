import Verif.Model.ClusterFiles
import Verif.Spec.ClusterFiles
import Verif.Props.Clusters
import Verif.Props.PairFile
import Verif.Props.CatalogSelection
import Verif.Props.CommandLine
import Verif.Proofs.RelocateTop

/-!
# Lemmas about dumped clusters (C99)
-/

set_option linter.unusedSimpArgs false
set_option linter.unusedSectionVars false

namespace Verif.ClusterFiles
open Verif.Catalog Verif.Relocate Verif.PairFile
open Verif.Csv (Str)

variable {K : Type} [Field K] [LinearOrder K] [IsStrictOrderedRing K]

/-! ## what removing neighbours keeps -/

section Keeps
open Verif.Clusters
variable {P : Neighbours → Prop}

theorem dropSeen_keeps (hP : ∀ n b, P n → P (n.remove b)) (pairs : List (Nat × Nat)) (n : Neighbours) (h : P n) :
    P (dropSeen pairs n) := by
  unfold dropSeen
  generalize pairs.filter (fun p => p.1 = n.refId) = l
  induction l generalizing n with
  | nil => exact h
  | cons x l ih => exact ih _ (hP _ _ h)

theorem walk_keeps (hP : ∀ n b, P n → P (n.remove b)) (pick : Pick) (cid : AMap Nat Nat) : ∀ (fuel : Nat) (w w' : Walk),
    walk pick cid fuel w = .ok w' → (∀ kv ∈ w.todo, P kv.2) → (∀ n ∈ w.cluster, P n) →
      (∀ kv ∈ w'.todo, P kv.2) ∧ ∀ n ∈ w'.cluster, P n
  | 0, w, w', h, h1, h2 => by
    unfold walk at h
    split at h
    · cases h; exact ⟨h1, h2⟩
    · cases h
  | fuel + 1, w, w', h, h1, h2 => by
    unfold walk at h
    split at h
    · cases h; exact ⟨h1, h2⟩
    · refine walk_keeps hP pick cid fuel _ _ h ?_ ?_
      · unfold walkStep
        simp only
        split
        · exact h1
        · intro kv hkv
          exact h1 kv (List.mem_of_mem_filter hkv)
      · unfold walkStep
        simp only
        split
        · exact h2
        · rename_i n hn
          intro m hm
          rcases List.mem_append.1 hm with hm | hm
          · exact h2 m hm
          · rw [List.mem_singleton.1 hm]
            exact dropSeen_keeps hP _ _ (h1 _ (AMap.mem_of_find? hn))

theorem merge_keeps : ∀ (ks : List Nat) (cur : List Neighbours) (cl : AMap Nat (List Neighbours)) (cur' : List Neighbours)
    (cl' : AMap Nat (List Neighbours)), merge ks cur cl = .ok (cur', cl') → (∀ n ∈ cur, P n) → (∀ kv ∈ cl, ∀ n ∈ kv.2, P n) →
      (∀ n ∈ cur', P n) ∧ ∀ kv ∈ cl', ∀ n ∈ kv.2, P n
  | [], cur, cl, cur', cl', h, h1, h2 => by
    unfold merge at h
    cases h
    exact ⟨h1, h2⟩
  | k :: ks, cur, cl, cur', cl', h, h1, h2 => by
    unfold merge at h
    split at h
    · cases h
    · rename_i c hc
      refine merge_keeps ks _ _ _ _ h ?_ ?_
      · intro n hn
        rcases List.mem_append.1 hn with hn | hn
        · exact h1 n hn
        · exact h2 _ (AMap.mem_of_find? hc) n hn
      · intro kv hkv
        exact h2 kv (List.mem_of_mem_filter hkv)

theorem outer_keeps (hP : ∀ n b, P n → P (n.remove b)) (pick : Pick) : ∀ (fuel : Nat) (s s' : State),
    outer pick fuel s = .ok s' → (∀ kv ∈ s.todo, P kv.2) → (∀ kv ∈ s.clusters, ∀ n ∈ kv.2, P n) →
      ∀ kv ∈ s'.clusters, ∀ n ∈ kv.2, P n
  | 0, s, s', h, _, h2 => by
    unfold outer at h
    split at h
    · cases h; exact h2
    · cases h
  | fuel + 1, s, s', h, h1, h2 => by
    unfold outer at h
    split at h
    · cases h; exact h2
    · split at h
      · rename_i s1 hs1
        unfold Clusters.traverse at hs1
        simp only at hs1
        split at hs1
        · cases hs1
        · cases hs1
        · rename_i w hw
          obtain ⟨w1, w2⟩ := walk_keeps hP pick _ _ _ _ hw h1 (by simp)
          split at hs1
          · cases hs1
          · cases hs1
          · rename_i cur cl hm
            obtain ⟨m1, m2⟩ := merge_keeps _ _ _ _ _ hm w2 h2
            cases hs1
            refine outer_keeps hP pick fuel _ _ h w1 ?_
            intro kv hkv
            unfold AMap.insertNew at hkv
            split at hkv
            · exact m2 kv hkv
            · simp only [List.mem_append, List.mem_cons, List.not_mem_nil, or_false] at hkv
              rcases hkv with hkv | hkv
              · first | exact m2 kv hkv | (rw [hkv]; exact m1)
              · first | exact m2 kv hkv | (rw [hkv]; exact m1)
      · cases h
      · cases h

theorem toMap_keeps (l : List Neighbours) (h : ∀ n ∈ l, P n) : ∀ kv ∈ toMap l, P kv.2 := by
  unfold toMap
  suffices H : ∀ (m : AMap Nat Neighbours), (∀ kv ∈ m, P kv.2) → ∀ kv ∈ l.foldl (fun m n => AMap.insertNew m n.refId n) m, P kv.2 from
    H [] (by simp)
  induction l with
  | nil => exact fun m hm => hm
  | cons n l ih =>
    intro m hm
    refine ih (fun n hn => h n (by simp [hn])) _ ?_
    intro kv hkv
    unfold AMap.insertNew at hkv
    simp only at hkv
    split at hkv
    · exact hm kv hkv
    · simp only [List.mem_append, List.mem_cons, List.not_mem_nil, or_false] at hkv
      rcases hkv with hkv | hkv
      · first | exact hm kv hkv | (rw [hkv]; exact h n (by simp))
      · first | exact hm kv hkv | (rw [hkv]; exact h n (by simp))

theorem clusterize_keeps (hP : ∀ n b, P n → P (n.remove b)) (pick : Pick) {G : AMap Nat Neighbours}
    (hG : ∀ kv ∈ G, P kv.2) {res : List (AMap Nat Neighbours)} (h : clusterize pick G = .ok res) :
    ∀ c ∈ res, ∀ kv ∈ c, P kv.2 := by
  unfold clusterize at h
  cases hs : outer pick G.length ⟨G, [], []⟩ with
  | ok s =>
    rw [hs] at h
    cases h
    intro c hc
    obtain ⟨kv, hkv, rfl⟩ := List.mem_map.1 hc
    exact toMap_keeps _ (outer_keeps hP pick _ _ _ hs hG (by simp) kv ((List.mem_insertionSort _).1 hkv))
  | throws => rw [hs] at h; cases h
  | ub => rw [hs] at h; cases h

end Keeps

theorem eq_of_shared {A B : Type} {f : A → List B} : ∀ {l : List A}, (l.flatMap f).Nodup → ∀ {c d : A}, c ∈ l → d ∈ l →
    ∀ {x : B}, x ∈ f c → x ∈ f d → c = d
  | [], _, c, d, hc, _, _, _, _ => by cases hc
  | a :: l, h, c, d, hc, hd, x, hx, hx' => by
    rw [List.flatMap_cons] at h
    obtain ⟨h1, h2, h3⟩ := List.nodup_append.1 h
    rcases List.mem_cons.1 hc with rfl | hcl
    · rcases List.mem_cons.1 hd with rfl | hd
      · rfl
      · exact absurd rfl (h3 x hx x (List.mem_flatMap.2 ⟨d, hd, hx'⟩))
    · rcases List.mem_cons.1 hd with rfl | hd
      · exact absurd rfl (h3 x hx' x (List.mem_flatMap.2 ⟨_, hcl, hx⟩))
      · exact eq_of_shared h2 hcl hd hx hx'

/-! ## the clusters that are found -/

/-- what is known of a cluster that was found -/
structure Found (bg : Catalog K) (c : AMap Nat Neighbours) : Prop where
  proper : Proper c
  nonempty : c ≠ []
  known : ∀ id ∈ c.keys, (bg.events.find? id).isSome = true
  inside : ∀ a b, Clusters.Lists c a b → b ∈ c.keys ∧ a ≠ b
  phased : ∀ a n, c.find? a = some n → ∀ b ∈ n.ids, n.phasesOf b ≠ []
  used : ∀ a n b sp, c.find? a = some n → sp ∈ n.phasesOf b →
    (∃ st, bg.stations.find? sp.1 = some st) ∧ ∃ kp ∈ bg.phases, kp.2.type = sp.2

theorem found_spec {g : Selection.Geometry K} {cfg : Selection.Config K} {bg : Catalog K} (pop : KdTree.Pop K)
    (t : Selection.EventTree K) (ht : t.WF) (minNumNeigh : Nat) (hc : bg.Sound)
    (hg : ∀ id e, bg.events.find? id = some e → g.Nonneg bg e t) (order : Order) (ho : ∀ m, (order m).Perm m)
    (pick : Clusters.Pick) :
    ∃ res, findClusters g cfg minNumNeigh pop t order pick bg = .ok res ∧ (∀ c ∈ res, Found bg c) ∧
      (res.flatMap (fun c => c.keys)).Nodup ∧
      (1 ≤ minNumNeigh → ∀ c ∈ res, ∀ id ∈ c.keys, ∃ b, Clusters.Lists c id b ∨ Clusters.Lists c b id) := by
  obtain ⟨G, h1, h2, h3⟩ := Selection.catalog_selection_closed (g := g) (cfg := cfg) pop t ht minNumNeigh hc hg order ho
  have hG : Clusters.WF G := ⟨h2, fun id n h => (h3 id n h).1⟩
  obtain ⟨res, k1, k2, k3, k4⟩ := Clusters.clusters_are_components G hG pick
  obtain ⟨res', l1, l2, l3, l4⟩ := Clusters.pairs_used_once G hG pick
  rw [k1] at l1
  cases l1
  have hnd : (res.flatMap (fun c => c.keys)).Nodup := k2.nodup_iff.2 h2
  have hkeys : ∀ c ∈ res, ∀ id ∈ c.keys, id ∈ G.keys := fun c hc id hid => k2.subset (List.mem_flatMap.2 ⟨c, hc, hid⟩)
  have hone : ∀ c ∈ res, ∀ d ∈ res, ∀ id, id ∈ c.keys → id ∈ d.keys → c = d :=
    fun c hc d hd id h h' => eq_of_shared hnd hc hd h h'
  have huniq : ∀ c ∈ res, c.NodupKeys := fun c hc => (List.nodup_flatMap.1 hnd).1 c hc
  -- what an entry of a cluster has was selected
  have hsel : ∀ c ∈ res, ∀ a n, c.find? a = some n → ∃ m ev, G.find? a = some m ∧ bg.events.find? a = some ev ∧ ∀ b phs,
      n.nbs.find? b = some phs → b ∈ G.keys ∧ b ≠ a ∧ m.nbs.find? b = some phs ∧ phs ≠ [] ∧ phs.Nodup ∧ ∀ sp ∈ phs,
        (∃ st, bg.stations.find? sp.1 = some st) ∧ ∃ kp ∈ bg.phases, kp.2.type = sp.2 := by
    intro c hcr a n hn
    obtain ⟨nb, hnb⟩ := Option.isSome_iff_exists.1 (AMap.find?_isSome.2 (hkeys c hcr a (AMap.mem_keys_of_find? hn)))
    obtain ⟨-, ev, he, e2, -, -, e5⟩ := h3 a nb hnb
    refine ⟨nb, ev, hnb, he, ?_⟩
    intro b phs hb
    obtain ⟨m, hm, hmb⟩ := (l4 c hcr a n hn).2 b phs hb
    rw [hnb] at hm; cases hm
    obtain ⟨f1, phs', p, ev', f2, -, -, f5⟩ := e5 b (AMap.mem_keys_of_find? hmb)
    rw [hmb] at f2; cases f2
    refine ⟨AMap.find?_isSome.1 f1, ?_, hmb, f5.nonempty, f5.nodup, ?_⟩
    · have := f5.other
      rwa [(hc.eventKey _ _ he).1] at this
    · intro sp hsp
      obtain ⟨st, g1, ⟨q, g2, -, -, g3⟩, -⟩ := f5.usable sp hsp
      exact ⟨⟨st, g1⟩, _, Catalog.mem_phasesOf.1 g2, g3⟩
  have hlists : ∀ c ∈ res, ∀ a b, Clusters.Lists c a b → Clusters.Lists G a b ∧ b ∈ G.keys ∧ b ≠ a := by
    rintro c hcr a b ⟨n, hn, hb⟩
    obtain ⟨phs, hphs⟩ := Option.isSome_iff_exists.1 (AMap.find?_isSome.2 hb)
    obtain ⟨m, ev, e1, -, e3⟩ := hsel c hcr a n hn
    obtain ⟨f1, f2, f3, -⟩ := e3 b phs hphs
    exact ⟨⟨m, e1, AMap.mem_keys_of_find? f3⟩, f1, f2⟩
  have hsame : ∀ a b, Clusters.Lists G a b → b ∈ G.keys → ∀ c ∈ res, (a ∈ c.keys → b ∈ c.keys) := by
    intro a b hl hb c hcr ha
    have hag : a ∈ G.keys := hkeys c hcr a ha
    obtain ⟨d, hd, d1, d2⟩ := (k4 a hag b hb).2 (.rel _ _ ⟨hb, hl⟩)
    rw [hone c hcr d hd a ha d1]
    exact d2
  have hids : ∀ c ∈ res, ∀ kv ∈ c, kv.2.ids.Nodup := by
    refine clusterize_keeps (P := fun n => n.ids.Nodup) ?_ pick ?_ k1
    · intro n b h
      exact AMap.nodupKeys_erase (m := n.nbs) h b
    · intro kv hkv
      obtain ⟨-, -, -, h, -⟩ := h3 kv.1 kv.2 (AMap.find?_of_mem h2 hkv)
      exact h
  refine ⟨res, ?_, ?_, hnd, ?_⟩
  · unfold findClusters
    rw [h1]
    exact k1
  · intro c hcr
    refine ⟨⟨huniq c hcr, fun id n h => (l4 c hcr id n h).1, fun id n h => hids c hcr _ (AMap.mem_of_find? h), ?_⟩, k3 c hcr, ?_, ?_, ?_, ?_⟩
    · intro id n hn b
      unfold Neighbours.phasesOf
      cases hb : n.nbs.find? b with
      | none => simp
      | some phs =>
        obtain ⟨m, ev, -, -, e3⟩ := hsel c hcr id n hn
        exact (e3 b phs hb).2.2.2.2.1
    · intro id hid
      obtain ⟨n, hn⟩ := Option.isSome_iff_exists.1 (AMap.find?_isSome.2 hid)
      obtain ⟨m, ev, -, e2, -⟩ := hsel c hcr id n hn
      rw [e2]; rfl
    · intro a b hl
      obtain ⟨x1, x2, x3⟩ := hlists c hcr a b hl
      refine ⟨hsame a b x1 x2 c hcr ?_, x3.symm⟩
      obtain ⟨n, hn, -⟩ := hl
      exact AMap.mem_keys_of_find? hn
    · intro a n hn b hb
      obtain ⟨phs, hphs⟩ := Option.isSome_iff_exists.1 (AMap.find?_isSome.2 hb)
      obtain ⟨m, ev, -, -, e3⟩ := hsel c hcr a n hn
      unfold Neighbours.phasesOf
      rw [hphs]
      exact (e3 b phs hphs).2.2.2.1
    · intro a n b sp hn hsp
      unfold Neighbours.phasesOf at hsp
      cases hb : n.nbs.find? b with
      | none => rw [hb] at hsp; cases hsp
      | some phs =>
        rw [hb] at hsp
        obtain ⟨m, ev, -, -, e3⟩ := hsel c hcr a n hn
        exact (e3 b phs hb).2.2.2.2.2 sp hsp
  · intro hmin c hcr id hid
    obtain ⟨nb, hnb⟩ := Option.isSome_iff_exists.1 (AMap.find?_isSome.2 (hkeys c hcr id hid))
    obtain ⟨-, ev, he, e2, e3, -, e5⟩ := h3 id nb hnb
    cases hl : nb.ids with
    | nil => rw [hl] at e3; simp at e3; omega
    | cons b bs =>
      have hb : b ∈ nb.ids := by rw [hl]; simp
      have hbG := AMap.find?_isSome.1 (e5 b hb).1
      have hL : Clusters.Lists G id b := ⟨nb, hnb, hb⟩
      have hbc := hsame id b hL hbG c hcr hid
      refine ⟨b, ?_⟩
      rcases (l2 id b).2 (.inl hL) with ⟨d, hd, hk⟩ | ⟨d, hd, hk⟩
      · left
        obtain ⟨n, hn, hnb'⟩ := hk
        rw [hone c hcr d hd id hid (AMap.mem_keys_of_find? hn)]
        exact ⟨n, hn, hnb'⟩
      · right
        obtain ⟨n, hn, hnb'⟩ := hk
        rw [hone c hcr d hd b hbc (AMap.mem_keys_of_find? hn)]
        exact ⟨n, hn, hnb'⟩

/-! ## file names -/

theorem fileName_number {i j : Nat} {k k' : String} (h : fileName i k = fileName j k') : i = j ∧ k = k' := by
  unfold fileName at h
  rw [List.append_assoc, List.append_assoc, List.append_assoc, List.append_assoc] at h
  have h := List.append_cancel_left h
  have htw : ∀ (n : Nat) (r : Str), ((decimal n) ++ '-' :: r).takeWhile Char.isDigit = decimal n ∧
      ((decimal n) ++ '-' :: r).dropWhile Char.isDigit = '-' :: r := by
    intro n r
    have hd : ∀ c ∈ decimal n, Char.isDigit c = true := fun c hc => decimal_isDigit hc
    generalize decimal n = l at hd
    induction l with
    | nil => exact ⟨by rw [List.nil_append, List.takeWhile_cons_of_neg (by decide)], by rw [List.nil_append, List.dropWhile_cons_of_neg (by decide)]⟩
    | cons c l ih =>
      have hc := hd c (by simp)
      obtain ⟨i1, i2⟩ := ih (fun c hc => hd c (by simp [hc]))
      rw [List.cons_append, List.takeWhile_cons_of_pos hc, List.dropWhile_cons_of_pos hc, i1, i2]
      exact ⟨rfl, rfl⟩
  have h1 := congrArg (List.takeWhile Char.isDigit) h
  have h2 := congrArg (List.dropWhile Char.isDigit) h
  simp only [List.cons_append] at h1 h2
  rw [(htw _ _).1, (htw _ _).1] at h1
  rw [(htw _ _).2, (htw _ _).2] at h2
  refine ⟨?_, ?_⟩
  · have : Nat.ofDigitChars 10 (decimal i) 0 = Nat.ofDigitChars 10 (decimal j) 0 := by rw [h1]
    unfold decimal at this
    rwa [Nat.ofDigitChars_toDigits (by omega) (by omega), Nat.ofDigitChars_toDigits (by omega) (by omega)] at this
  · have h3 : k.toList ++ ".csv".toList = k'.toList ++ ".csv".toList := (List.cons.inj h2).2
    exact String.toList_injective (List.append_cancel_right h3)

theorem fileName_item (i : Nat) (k : String) (hk : Plain k) : CommandLine.Spec.Item (fileName i k) := by
  refine ⟨fun e => by have := (List.append_eq_nil_iff.1 e).2; revert this; decide +kernel, ?_⟩
  unfold fileName
  simp only [List.mem_append, List.mem_cons]
  rintro (((h | h) | h) | h)
  · revert h; decide +kernel
  · exact (clean_decimal i _ h).1 rfl
  · rcases h with h | h
    · cases h
    · exact (hk _ h).1 rfl
  · revert h; decide +kernel

/-! ## writing -/

theorem Found.writable {bg : Catalog K} (hs : bg.Sound) (hp : Printable bg) {c : AMap Nat Neighbours} (h : Found bg c)
    {a : Nat} {n : Neighbours} (hn : c.find? a = some n) : ∀ x ∈ pairsOf n, Writable bg.stations x := by
  rintro ⟨a', b, sp⟩ hx
  have hr := h.proper.key a n hn
  have hid : ∀ k ∈ c.keys, k < PairFile.uintMod := by
    intro k hk
    obtain ⟨e, he⟩ := Option.isSome_iff_exists.1 (h.known k hk)
    exact (hs.eventKey _ _ he).2
  obtain ⟨h1, h2⟩ := (mem_pairsOf (h.proper.ids a n hn) a' b sp).1 hx
  obtain ⟨⟨st, u1⟩, kp, u2, u3⟩ := h.used a n b sp hn h2
  have hb : b ∈ n.ids := by
    by_contra hnot
    have := AMap.find?_eq_none.2 hnot
    unfold Neighbours.phasesOf at h2
    rw [this] at h2
    cases h2
  refine ⟨⟨st, u1, (hs.stationKey _ _ u1).1, (hs.stationKey _ _ u1).2, hp.stations _ _ u1⟩, ?_, ?_, ?_⟩
  · show Clean sp.2.toList
    rw [← u3]
    exact hp.phases kp u2
  · show a' < _
    rw [h1, hr]
    exact hid a (AMap.mem_keys_of_find? hn)
  · exact hid b (h.inside a b ⟨n, hn, hb⟩).1

/-- what the files of a cluster hold -/
structure Dumped (text : Catalog K → Str × Str × Str) (bg : Catalog K) (i : Nat) (c : AMap Nat Neighbours) (fs : Files) : Prop where
  pairs : ∃ s d, fs.find? (fileName i "pair") = some s ∧ readPairs bg.stations s = .ok d ∧ Proper d ∧
    (∀ id, id ∈ d.keys ↔ ∃ b, Clusters.Lists c id b ∨ Clusters.Lists c b id) ∧
    ∀ id m, d.find? id = some m → ∀ b, (b ∈ m.ids ↔ Clusters.Lists c id b) ∧
      ∀ sp, sp ∈ m.phasesOf b ↔ ∃ n, c.find? id = some n ∧ sp ∈ n.phasesOf b
  catalog : ∃ cat, CatalogOf bg c cat ∧ fs.find? (fileName i "station") = some (text cat).1 ∧
    fs.find? (fileName i "event") = some (text cat).2.1 ∧ fs.find? (fileName i "phase") = some (text cat).2.2

def kinds : List String := ["pair", "station", "event", "phase"]

theorem dumpOne_spec (text : Catalog K → Str × Str × Str) {order : Order} (ho : ∀ m, (order m).Perm m) {bg : Catalog K} (hs : bg.Sound)
    (hp : Printable bg) (i : Nat) {c : AMap Nat Neighbours} (h : Found bg c) (fs : Files) :
    ∃ fs', dumpOne text order bg i c fs = .ok fs' ∧ Dumped text bg i c fs' ∧
      ∀ name, (∀ k ∈ kinds, name ≠ fileName i k) → fs'.find? name = fs.find? name := by
  obtain ⟨s, d, w1, w2, w3, w4, w5⟩ := pair_file_round_trip_partial bg.stations c ⟨h.proper.unique, h.proper.key⟩ h.nonempty
    h.proper.ids h.phased (fun id n hn => h.writable hs hp hn) (order c) (ho c)
  have hnd : ((order c).map (·.1)).Nodup := ((ho c).map _).nodup_iff.2 h.proper.unique
  have hmem : ∀ k, k ∈ (order c).map (·.1) ↔ k ∈ c.keys := fun k => ((ho c).map _).mem_iff
  obtain ⟨cat, q1, q2⟩ := copy_spec (r := Catalog.init) hs init_sound ((order c).map (·.1)) hnd
    (fun k hk => h.known k ((hmem k).1 hk)) (fun _ _ => rfl)
  have hne : ∀ k k' : String, k ≠ k' → fileName i k ≠ fileName i k' := fun k k' hk e => hk (fileName_number e).2
  refine ⟨(((fs.set (fileName i "pair") s).set (fileName i "station") (text cat).1).set (fileName i "event") (text cat).2.1).set
    (fileName i "phase") (text cat).2.2, ?_, ⟨?_, ?_⟩, ?_⟩
  · unfold dumpOne clusterCatalog
    rw [w1, q1]
    rfl
  · refine ⟨s, d, ?_, w2, ⟨w3, fun id n hn => (w5 id n hn).1, fun id n hn => (w5 id n hn).2.1,
      fun id n hn b => ((w5 id n hn).2.2 b).2.1⟩, w4, fun id m hm b => ⟨((w5 id m hm).2.2 b).1, ((w5 id m hm).2.2 b).2.2⟩⟩
    rw [AMap.find?_set_ne _ _ (hne _ _ (by decide)), AMap.find?_set_ne _ _ (hne _ _ (by decide)),
      AMap.find?_set_ne _ _ (hne _ _ (by decide)), AMap.find?_set_self]
  · refine ⟨cat, ⟨q2.sound, ?_, ?_, ?_⟩, ?_, ?_, ?_⟩
    · intro k
      rw [q2.events]
      simp only [hmem]
      split <;> rfl
    · intro k hk
      rw [q2.phases, if_pos ((hmem k).2 hk)]
    · intro x st hx
      rcases q2.new x st hx with h' | h'
      · cases h'
      · exact h'
    · rw [AMap.find?_set_ne _ _ (hne _ _ (by decide)), AMap.find?_set_ne _ _ (hne _ _ (by decide)), AMap.find?_set_self]
    · rw [AMap.find?_set_ne _ _ (hne _ _ (by decide)), AMap.find?_set_self]
    · rw [AMap.find?_set_self]
  · intro name hname
    rw [AMap.find?_set_ne _ _ (hname _ (by simp [kinds])), AMap.find?_set_ne _ _ (hname _ (by simp [kinds])),
      AMap.find?_set_ne _ _ (hname _ (by simp [kinds])), AMap.find?_set_ne _ _ (hname _ (by simp [kinds]))]

theorem Dumped.congr {text : Catalog K → Str × Str × Str} {bg : Catalog K} {i : Nat} {c : AMap Nat Neighbours} {fs fs' : Files}
    (h : Dumped text bg i c fs) (he : ∀ k ∈ kinds, fs'.find? (fileName i k) = fs.find? (fileName i k)) : Dumped text bg i c fs' := by
  obtain ⟨⟨s, d, h1, h2⟩, ⟨cat, h3, h4, h5, h6⟩⟩ := h
  exact ⟨⟨s, d, (he _ (by simp [kinds])).trans h1, h2⟩, ⟨cat, h3, (he _ (by simp [kinds])).trans h4,
    (he _ (by simp [kinds])).trans h5, (he _ (by simp [kinds])).trans h6⟩⟩

theorem dumpLoop_spec (text : Catalog K → Str × Str × Str) {order : Order} (ho : ∀ m, (order m).Perm m) {bg : Catalog K} (hs : bg.Sound)
    (hp : Printable bg) : ∀ (cs : List (AMap Nat Neighbours)) (i : Nat) (fs : Files), (∀ c ∈ cs, Found bg c) →
    ∃ fs', dumpLoop text order bg i cs fs = .ok fs' ∧ (∀ (j : Nat) c, cs[j]? = some c → Dumped text bg (i + j) c fs') ∧
      ∀ name, (∀ j < cs.length, ∀ k ∈ kinds, name ≠ fileName (i + j) k) → fs'.find? name = fs.find? name
  | [], i, fs, _ => ⟨fs, rfl, by simp, fun _ _ => rfl⟩
  | c :: cs, i, fs, h => by
    obtain ⟨fs1, a1, a2, a3⟩ := dumpOne_spec text ho hs hp i (h c (by simp)) fs
    obtain ⟨fs2, b1, b2, b3⟩ := dumpLoop_spec text ho hs hp cs (i + 1) fs1 (fun c hc => h c (by simp [hc]))
    refine ⟨fs2, ?_, ?_, ?_⟩
    · unfold dumpLoop
      rw [a1]
      exact b1
    · intro j c' hj
      cases j with
      | zero =>
        cases hj
        refine a2.congr ?_
        intro k hk
        apply b3
        intro j _ k' _ e
        have := (fileName_number e).1
        omega
      | succ j =>
        have := b2 j c' hj
        rwa [show i + 1 + j = i + (j + 1) by omega] at this
    · intro name hname
      rw [b3 name, a3 name]
      · intro k hk
        exact hname 0 (by simp) k hk
      · intro j hj k hk
        have := hname (j + 1) (by simp; omega) k hk
        rwa [show i + (j + 1) = i + 1 + j by omega] at this

/-! ## reading -/

theorem readFiles_spec {bg : Catalog K} {fs : Files} {P : Nat → AMap Nat Neighbours → Prop} : ∀ (is : List Nat),
    (∀ i ∈ is, ∃ d, readPairs bg.stations (content fs (fileName i "pair")) = .ok d ∧ P i d) →
    ∃ ds, readFiles bg fs (is.map (fun i => fileName i "pair")) = .ok ds ∧ List.Forall₂ P is ds
  | [], _ => ⟨[], rfl, .nil⟩
  | i :: is, h => by
    obtain ⟨d, h1, h2⟩ := h i (by simp)
    obtain ⟨ds, h3, h4⟩ := readFiles_spec is (fun i hi => h i (by simp [hi]))
    refine ⟨d :: ds, ?_, .cons h2 h4⟩
    simp only [List.map_cons, readFiles]
    rw [h1, h3]
    rfl

theorem Dumped.same {text : Catalog K → Str × Str × Str} {bg : Catalog K} {i : Nat} {c : AMap Nat Neighbours} {fs : Files}
    (h : Dumped text bg i c fs) (hc : Found bg c) (hall : ∀ id ∈ c.keys, ∃ b, Clusters.Lists c id b ∨ Clusters.Lists c b id) :
    ∃ d, readPairs bg.stations (content fs (fileName i "pair")) = .ok d ∧ Proper d ∧ Same c d := by
  obtain ⟨s, d, h1, h2, h3, h4, h5⟩ := h.pairs
  refine ⟨d, ?_, h3, ?_, ?_⟩
  · unfold content
    rw [h1]
    exact h2
  · intro id
    rw [h4]
    refine ⟨hall id, ?_⟩
    rintro ⟨b, ⟨n, hn, -⟩ | hl⟩
    · exact AMap.mem_keys_of_find? hn
    · exact (hc.inside _ _ hl).1
  · intro id n m hn hm
    refine ⟨by rw [hc.proper.key id n hn, h3.key id m hm], ?_⟩
    intro b
    obtain ⟨k1, k2⟩ := h5 id m hm b
    refine ⟨?_, ?_⟩
    · rw [k1]
      constructor
      · intro hb; exact ⟨n, hn, hb⟩
      · rintro ⟨n', hn', hb⟩
        rw [hn] at hn'; cases hn'; exact hb
    · intro sp
      rw [k2]
      constructor
      · intro hb; exact ⟨n, hn, hb⟩
      · rintro ⟨n', hn', hb⟩
        rw [hn] at hn'; cases hn'; exact hb

end Verif.ClusterFiles
