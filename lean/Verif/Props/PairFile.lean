import Verif.Model.PairFile
import Verif.Spec.Clusters
import Verif.Props.Csv

/-!
# C59: neighbour pair files
-/

set_option linter.unusedSimpArgs false

namespace Verif.PairFile
open Verif.Csv Verif.Csv.Spec Verif.Catalog
variable {D : Type}

/-- text that can be a field of the file -/
def Clean (s : Str) : Prop := ∀ c ∈ s, c ≠ ',' ∧ c ≠ '"' ∧ c ≠ '\n' ∧ c ≠ '\r'

theorem rowText_joinComma : ∀ (fs : List Str), fs ≠ [] → (∀ f ∈ fs, Clean f) → RowText fs (joinComma fs)
  | [f], _, h => .last (.bare (fun c hc => ⟨(h f (by simp) c hc).1, (h f (by simp) c hc).2.1⟩))
  | f :: g :: fs, _, h => .cons (.bare (fun c hc => ⟨(h f (by simp) c hc).1, (h f (by simp) c hc).2.1⟩))
      (rowText_joinComma (g :: fs) (by simp) (fun f hf => h f (List.mem_cons_of_mem _ hf)))

theorem tableText_fileText (table : List (List Str)) (h : ∀ row ∈ table, row ≠ [] ∧ ∀ f ∈ row, Clean f) :
    TableText table (fileText table) := by
  induction table with
  | nil => exact .nil
  | cons row table ih =>
    have e : fileText (row :: table) = joinComma row ++ '\n' :: fileText table := by
      simp [fileText, List.flatMap_cons]
    rw [e]
    exact .lf (rowText_joinComma row (h row (by simp)).1 (h row (by simp)).2) (ih (fun r hr => h r (by simp [hr])))

theorem clean_decimal (n : Nat) : Clean (decimal n) := by
  intro c hc
  have hd := decimal_isDigit hc
  refine ⟨?_, ?_, ?_, ?_⟩ <;> (rintro rfl; revert hd; decide)

theorem stoul_decimal (n : Nat) (h : n < uintMod) : stoul (decimal n) = .ok n := by
  have hne : decimal n ≠ [] := by
    intro e
    have := congrArg (fun l => Nat.ofDigitChars 10 l 0) e
    unfold decimal at this e
    have h2 := @Nat.length_toDigits_pos 10 n
    rw [e] at h2
    simp at h2
  have hdig : ∀ c ∈ decimal n, c.isDigit = true := fun c hc => decimal_isDigit hc
  have hsp : (decimal n).dropWhile isSpace = decimal n := by
    cases hl : decimal n with
    | nil => rfl
    | cons c cs =>
      rw [List.dropWhile_cons_of_neg]
      have hd := hdig c (by rw [hl]; simp)
      intro hs
      unfold isSpace at hs
      simp only [Bool.or_eq_true, decide_eq_true_eq] at hs
      rcases hs with ((((rfl | rfl) | rfl) | rfl) | rfl) | rfl <;> revert hd <;> decide
  have hh : ∀ c, c.isDigit = false → (decimal n).head? ≠ some c := by
    intro c hc e
    have := hdig c (List.mem_of_head? e)
    rw [hc] at this; cases this
  have htw : (decimal n).takeWhile Char.isDigit = decimal n := by
    generalize decimal n = l at hdig
    induction l with
    | nil => rfl
    | cons c l ih =>
      rw [List.takeWhile_cons_of_pos (hdig c (by simp)), ih (fun c hc => hdig c (by simp [hc]))]
  have hv : Nat.ofDigitChars 10 (decimal n) 0 = n := by
    unfold decimal
    exact Nat.ofDigitChars_toDigits (by omega) (by omega)
  unfold stoul
  have hm := hh '-' (by decide)
  have hp := hh '+' (by decide)
  simp only [hsp, hm, hp, or_self, if_false, htw, hne, hv, decide_false, Bool.false_eq_true]
  have h1 : ¬ ulongMod ≤ n := by unfold ulongMod; unfold uintMod at h; omega
  rw [if_neg h1, Nat.mod_eq_of_lt h]

/-- one pair of the file: the event, its neighbour, and the station and phase type -/
abbrev Pair := Nat × Nat × StaPhase

/-- what reading one row does -/
def applyPair (m : AMap Nat Neighbours) (x : Pair) : AMap Nat Neighbours :=
  let m := ensure (ensure m x.1) x.2.1
  m.set x.1 (((m.find? x.1).getD (Neighbours.empty x.1)).add x.2.1 x.2.2)

theorem ensure_find? (m : AMap Nat Neighbours) (id k : Nat) :
    (ensure m id).find? k = if k = id ∧ m.find? id = none then some (Neighbours.empty id) else m.find? k := by
  unfold ensure
  cases h : m.find? id with
  | some n => simp
  | none =>
    simp only [and_true]
    rw [AMap.find?_set]

/-- `m` holds exactly the pairs of the list -/
structure Rep (m : AMap Nat Neighbours) (R : Pair → Prop) : Prop where
  unique : m.NodupKeys
  keys : ∀ id, id ∈ m.keys ↔ ∃ x, R x ∧ (id = x.1 ∨ id = x.2.1)
  entry : ∀ id n, m.find? id = some n → n.refId = id ∧ n.ids.Nodup ∧ ∀ b, (b ∈ n.ids ↔ ∃ sp, R (id, b, sp)) ∧
    (n.phasesOf b).Nodup ∧ ∀ sp, sp ∈ n.phasesOf b ↔ R (id, b, sp)

theorem mem_insertSet {l : List StaPhase} {sp x : StaPhase} : x ∈ Neighbours.insertSet l sp ↔ x ∈ l ∨ x = sp := by
  unfold Neighbours.insertSet
  split
  · constructor
    · exact .inl
    · rintro (h | rfl) <;> assumption
  · simp

theorem nodup_insertSet {l : List StaPhase} {sp : StaPhase} (h : l.Nodup) : (Neighbours.insertSet l sp).Nodup := by
  unfold Neighbours.insertSet
  split
  · exact h
  · rename_i hi
    exact (List.perm_append_singleton sp l).nodup_iff.2 (List.nodup_cons.2 ⟨hi, h⟩)

theorem rep_apply {m : AMap Nat Neighbours} {R : Pair → Prop} (h : Rep m R) (x : Pair) :
    Rep (applyPair m x) (fun y => R y ∨ y = x) := by
  obtain ⟨a, b, sp⟩ := x
  unfold applyPair
  simp only
  -- after the two insertions
  have h0 : ∀ (m : AMap Nat Neighbours) id, m.NodupKeys → (ensure m id).NodupKeys := by
    intro m id hm
    unfold ensure
    split
    · exact AMap.nodupKeys_set hm _ _
    · exact hm
  have hk : ∀ (m : AMap Nat Neighbours) id k, k ∈ (ensure m id).keys ↔ k = id ∨ k ∈ m.keys := by
    intro m id k
    rw [← AMap.find?_isSome, ensure_find?, ← AMap.find?_isSome]
    by_cases e : k = id
    · subst e
      cases m.find? k <;> simp
    · simp [e]
  have hent : ∀ id n, (ensure (ensure m a) b).find? id = some n → n.refId = id ∧ n.ids.Nodup ∧
      ∀ c, (c ∈ n.ids ↔ ∃ sp, R (id, c, sp)) ∧ (n.phasesOf c).Nodup ∧ ∀ sp, sp ∈ n.phasesOf c ↔ R (id, c, sp) := by
    intro id n hf
    have hcase : m.find? id = some n ∨ (n = Neighbours.empty id ∧ m.find? id = none) := by
      have hone : ∀ (m : AMap Nat Neighbours) c, (ensure m c).find? id = some n →
          m.find? id = some n ∨ (n = Neighbours.empty id ∧ m.find? id = none) := by
        intro m c hf
        rw [ensure_find?] at hf
        by_cases h1 : id = c ∧ m.find? c = none
        · rw [if_pos h1] at hf
          cases hf
          exact .inr ⟨by rw [h1.1], by rw [h1.1]; exact h1.2⟩
        · rw [if_neg h1] at hf
          exact .inl hf
      have hnone : ∀ (m : AMap Nat Neighbours) c, (ensure m c).find? id = none → m.find? id = none := by
        intro m c hf
        rw [ensure_find?] at hf
        by_cases h1 : id = c ∧ m.find? c = none
        · rw [if_pos h1] at hf; cases hf
        · rw [if_neg h1] at hf; exact hf
      rcases hone _ _ hf with h1 | ⟨h1, h2⟩
      · exact hone _ _ h1
      · exact .inr ⟨h1, hnone _ _ h2⟩
    clear hf
    rcases hcase with hf | ⟨rfl, hf⟩
    · exact h.entry id n hf
    · have hno : ∀ c sp, ¬ R (id, c, sp) := by
        intro c sp hR
        exact AMap.find?_eq_none.1 hf ((h.keys id).2 ⟨_, hR, .inl rfl⟩)
      refine ⟨rfl, by simp [Neighbours.empty, Neighbours.ids, AMap.keys], ?_⟩
      intro c
      refine ⟨?_, by simp [Neighbours.empty, Neighbours.phasesOf], ?_⟩
      · simp only [Neighbours.empty, Neighbours.ids, AMap.keys, List.map_nil, List.not_mem_nil, false_iff]
        rintro ⟨sp, hR⟩; exact hno c sp hR
      · intro sp
        simp only [Neighbours.empty, Neighbours.phasesOf, AMap.find?_nil, Option.getD_none, List.not_mem_nil, false_iff]
        exact hno c sp
  obtain ⟨na, hna⟩ : ∃ na, (ensure (ensure m a) b).find? a = some na := by
    apply Option.isSome_iff_exists.1
    rw [AMap.find?_isSome, hk, hk]
    simp
  rw [hna, Option.getD_some]
  refine ⟨AMap.nodupKeys_set (h0 _ _ (h0 _ _ h.unique)) _ _, ?_, ?_⟩
  · intro id
    rw [AMap.mem_keys_set, hk, hk, h.keys]
    constructor
    · rintro (rfl | rfl | rfl | ⟨x, hx, h'⟩)
      · exact ⟨_, .inr rfl, .inl rfl⟩
      · exact ⟨_, .inr rfl, .inr rfl⟩
      · exact ⟨_, .inr rfl, .inl rfl⟩
      · exact ⟨x, .inl hx, h'⟩
    · rintro ⟨x, hx | rfl, h'⟩
      · exact .inr (.inr (.inr ⟨x, hx, h'⟩))
      · rcases h' with rfl | rfl
        · exact .inl rfl
        · exact .inr (.inl rfl)
  · intro id n hf
    rw [AMap.find?_set] at hf
    split at hf
    · rename_i e
      subst e
      cases hf
      obtain ⟨e1, e2, e3⟩ := hent id na hna
      refine ⟨e1, AMap.nodupKeys_set e2 _ _, ?_⟩
      intro c
      have hph : (na.add b sp).phasesOf c = if c = b then Neighbours.insertSet (na.phasesOf b) sp else na.phasesOf c := by
        unfold Neighbours.phasesOf Neighbours.add
        simp only [AMap.find?_set]
        by_cases e : c = b
        · simp only [e, if_true, Option.getD_some, Neighbours.phasesOf]
        · simp only [e, if_false]
      have hids : c ∈ (na.add b sp).ids ↔ c = b ∨ c ∈ na.ids := by
        unfold Neighbours.add Neighbours.ids
        exact AMap.mem_keys_set
      refine ⟨?_, ?_, ?_⟩
      · rw [hids, (e3 c).1]
        constructor
        · rintro (rfl | ⟨sp', h'⟩)
          · exact ⟨sp, .inr rfl⟩
          · exact ⟨sp', .inl h'⟩
        · rintro ⟨sp', h' | h'⟩
          · exact .inr ⟨sp', h'⟩
          · cases h'; exact .inl rfl
      · rw [hph]
        split
        · exact nodup_insertSet (e3 b).2.1
        · exact (e3 c).2.1
      · intro sp'
        rw [hph]
        by_cases e : c = b
        · subst e
          rw [if_pos rfl, mem_insertSet, (e3 c).2.2]
          simp
        · rw [if_neg e, (e3 c).2.2]
          simp [e]
    · rename_i e
      obtain ⟨e1, e2, e3⟩ := hent id n hf
      refine ⟨e1, e2, ?_⟩
      intro c
      have hx : ∀ sp', (R (id, c, sp') ∨ (id, c, sp') = (a, b, sp)) ↔ R (id, c, sp') := by
        intro sp'
        simp [e]
      simp only [hx]
      exact e3 c

theorem rep_foldl (l : List Pair) : ∀ (m : AMap Nat Neighbours) (R : Pair → Prop), Rep m R →
    Rep (l.foldl applyPair m) (fun y => R y ∨ y ∈ l) := by
  induction l with
  | nil => intro m R h; simpa using h
  | cons x l ih =>
    intro m R h
    have := ih _ _ (rep_apply h x)
    simp only [List.foldl_cons, List.mem_cons]
    have e : (fun y => (R y ∨ y = x) ∨ y ∈ l) = (fun y => R y ∨ y = x ∨ y ∈ l) := by
      funext y; rw [or_assoc]
    rw [← e]
    exact this

/-- the fields of the row of a pair -/
def fieldsOf (stations : AMap String (Station D)) (x : Pair) : List Str :=
  match stations.find? x.2.2.1 with
  | none => []
  | some sta => [decimal x.1, decimal x.2.1, sta.networkCode.toList, sta.stationCode.toList, sta.locationCode.toList,
      x.2.2.2.toList]

/-- the pair can be written: its station is known, under the id made of its codes, the texts can be fields
of the file, and the events have 32-bit ids -/
structure Writable (stations : AMap String (Station D)) (x : Pair) : Prop where
  station : ∃ sta, stations.find? x.2.2.1 = some sta ∧ sta.id = x.2.2.1 ∧
    Catalog.stationIdOf sta.networkCode sta.stationCode sta.locationCode = x.2.2.1 ∧
    Clean sta.networkCode.toList ∧ Clean sta.stationCode.toList ∧ Clean sta.locationCode.toList
  phase : Clean x.2.2.2.toList
  event : x.1 < uintMod
  neighbour : x.2.1 < uintMod

theorem Writable.clean {stations : AMap String (Station D)} {x : Pair} (h : Writable stations x) :
    fieldsOf stations x ≠ [] ∧ ∀ f ∈ fieldsOf stations x, Clean f := by
  obtain ⟨sta, h1, -, -, h4, h5, h6⟩ := h.station
  unfold fieldsOf
  rw [h1]
  refine ⟨by simp, ?_⟩
  intro f hf
  simp only [List.mem_cons, List.not_mem_nil, or_false] at hf
  rcases hf with rfl | rfl | rfl | rfl | rfl | rfl
  · exact clean_decimal _
  · exact clean_decimal _
  · exact h4
  · exact h5
  · exact h6
  · exact h.phase

theorem readPair_row {stations : AMap String (Station D)} {x : Pair} (h : Writable stations x) (m : AMap Nat Neighbours)
    (row : AMap Str Str) (hrow : ∀ (i : Nat) name, header[i]? = some name → row.find? name = some ((fieldsOf stations x).getD i [])) :
    readPair stations m row = .ok (applyPair m x) := by
  obtain ⟨sta, h1, h2, h3, -⟩ := h.station
  have hc : ∀ (i : Nat) (name : String), header[i]? = some name.toList →
      column row name = .ok ((fieldsOf stations x).getD i []) := by
    intro i name hn
    unfold column
    rw [hrow i _ hn]; rfl
  have hf : fieldsOf stations x = [decimal x.1, decimal x.2.1, sta.networkCode.toList, sta.stationCode.toList,
      sta.locationCode.toList, x.2.2.2.toList] := by unfold fieldsOf; rw [h1]
  rw [hf] at hc
  unfold readPair
  rw [hc 0 "eventId1" rfl, hc 1 "eventId2" rfl, hc 2 "networkCode" rfl, hc 3 "stationCode" rfl,
    hc 4 "locationCode" rfl, hc 5 "phaseType" rfl]
  simp only [List.getD_cons_zero, List.getD_cons_succ, Outcome.bind]
  rw [stoul_decimal _ h.event, stoul_decimal _ h.neighbour]
  show (match stations.find? (Catalog.stationIdOf (String.ofList sta.networkCode.toList) (String.ofList sta.stationCode.toList)
      (String.ofList sta.locationCode.toList)) with
    | none => Outcome.ub
    | some station => _) = _
  simp only [String.ofList_toList]
  rw [h3, h1]
  simp only
  unfold applyPair
  simp only
  have : ((ensure (ensure m x.1) x.2.1).find? x.1).isSome := by
    have hk : ∀ (m : AMap Nat Neighbours) id k, k ∈ (ensure m id).keys ↔ k = id ∨ k ∈ m.keys := by
      intro m id k
      rw [← AMap.find?_isSome, ensure_find?, ← AMap.find?_isSome]
      by_cases e : k = id
      · subst e
        cases m.find? k <;> simp
      · simp [e]
    rw [AMap.find?_isSome, hk, hk]
    simp
  obtain ⟨n, hn⟩ := Option.isSome_iff_exists.1 this
  rw [hn, h2]
  rfl

theorem readRows_spec {stations : AMap String (Station D)} : ∀ (l : List Pair) (m : AMap Nat Neighbours),
    (∀ x ∈ l, Writable stations x) →
    readRows stations (format header (l.map (fieldsOf stations))) m = .ok (l.foldl applyPair m) := by
  intro l
  induction l with
  | nil => intro m _; rfl
  | cons x l ih =>
    intro m h
    obtain ⟨-, hmap⟩ := csv_header_mapping header (by decide) [fieldsOf stations x]
    obtain ⟨row, hr1, hr2, -⟩ := hmap 0 _ rfl
    have e : format header [fieldsOf stations x] = [row] := by
      have hl : (format header [fieldsOf stations x]).length = 1 := by simp [format]
      match hfm : format header [fieldsOf stations x] with
      | [] => rw [hfm] at hl; simp at hl
      | [r] => rw [hfm] at hr1; simp at hr1; rw [hr1]
      | _ :: _ :: _ => rw [hfm] at hl; simp at hl
    have e2 : format header ((x :: l).map (fieldsOf stations)) = row :: format header (l.map (fieldsOf stations)) := by
      have : format header ((x :: l).map (fieldsOf stations)) =
          format header [fieldsOf stations x] ++ format header (l.map (fieldsOf stations)) := by simp [format]
      rw [this, e]; rfl
    rw [e2]
    unfold readRows
    rw [readPair_row (h x (by simp)) m row hr2]
    exact ih _ (fun y hy => h y (by simp [hy]))

/-- the pairs recorded for an event -/
def pairsOf (n : Neighbours) : List Pair := n.phases.map (fun x => (n.refId, x.2, x.1))

theorem pairRows_spec {stations : AMap String (Station D)} (n : Neighbours) (h : ∀ x ∈ pairsOf n, Writable stations x) :
    pairRows stations n = .ok ((pairsOf n).map (fieldsOf stations)) := by
  unfold pairRows pairsOf at *
  generalize n.phases = l at *
  induction l with
  | nil => rfl
  | cons y l ih =>
    obtain ⟨sta, h1, -⟩ := (h (n.refId, y.2, y.1) (by simp)).station
    unfold mapRows
    have : pairRow stations n.refId y = .ok (fieldsOf stations (n.refId, y.2, y.1)) := by
      unfold pairRow fieldsOf
      simp only at h1
      simp only [h1]
    rw [this]
    simp only
    rw [ih (fun x hx => h x (by simp only [List.map_cons, List.mem_cons]; exact .inr hx))]
    rfl

theorem mapRows_spec {stations : AMap String (Station D)} (order : List (Nat × Neighbours))
    (h : ∀ kv ∈ order, ∀ x ∈ pairsOf kv.2, Writable stations x) :
    mapRows (fun kv : Nat × Neighbours => pairRows stations kv.2) order =
      .ok (order.map (fun kv => (pairsOf kv.2).map (fieldsOf stations))) := by
  induction order with
  | nil => rfl
  | cons kv l ih =>
    unfold mapRows
    rw [pairRows_spec kv.2 (h kv (by simp)), ih (fun kv hkv => h kv (by simp [hkv]))]
    rfl

theorem mem_pairsOf {n : Neighbours} (h : n.ids.Nodup) (a b : Nat) (sp : StaPhase) :
    (a, b, sp) ∈ pairsOf n ↔ a = n.refId ∧ sp ∈ n.phasesOf b := by
  unfold pairsOf Neighbours.phases Neighbours.phasesOf
  simp only [List.mem_map, List.mem_flatMap, Prod.mk.injEq]
  constructor
  · rintro ⟨⟨sp', b'⟩, ⟨⟨k, phs⟩, h1, sp'', h2, h3⟩, rfl, rfl, rfl⟩
    simp only [Prod.mk.injEq] at h3
    obtain ⟨rfl, rfl⟩ := h3
    refine ⟨rfl, ?_⟩
    have : n.nbs.find? k = some phs := AMap.find?_of_mem h h1
    simp only [this, Option.getD_some]
    exact h2
  · rintro ⟨rfl, h'⟩
    cases hf : n.nbs.find? b with
    | none => rw [hf] at h'; simp at h'
    | some phs =>
      rw [hf] at h'
      exact ⟨(sp, b), ⟨(b, phs), AMap.mem_of_find? hf, sp, h', rfl⟩, rfl, rfl, rfl⟩

/-- **C59** The file written for a set of neighbours is read back, whatever the order in which they are
written, as the events that occur in some pair, each with the same neighbours and, for each of them, the
same stations and phases. -/
theorem pair_file_round_trip_partial (stations : AMap String (Station D)) (G : AMap Nat Neighbours) (hG : Clusters.WF G)
    (hne : G ≠ []) (hids : ∀ id n, G.find? id = some n → n.ids.Nodup)
    (hphs : ∀ id n, G.find? id = some n → ∀ b ∈ n.ids, n.phasesOf b ≠ [])
    (hw : ∀ id n, G.find? id = some n → ∀ x ∈ pairsOf n, Writable stations x)
    (order : List (Nat × Neighbours)) (ho : order.Perm G) :
    ∃ text H, writePairs stations order = .ok (some text) ∧ readPairs stations text = .ok H ∧ H.NodupKeys ∧
      (∀ id, id ∈ H.keys ↔ ∃ other, Clusters.Lists G id other ∨ Clusters.Lists G other id) ∧
      ∀ id n, H.find? id = some n → n.refId = id ∧ n.ids.Nodup ∧ ∀ b, (b ∈ n.ids ↔ Clusters.Lists G id b) ∧
        (n.phasesOf b).Nodup ∧ ∀ sp, sp ∈ n.phasesOf b ↔ ∃ m, G.find? id = some m ∧ sp ∈ m.phasesOf b := by
  have hmemG : ∀ kv ∈ order, G.find? kv.1 = some kv.2 := fun kv hkv => AMap.find?_of_mem hG.unique (ho.subset hkv)
  have hw' : ∀ kv ∈ order, ∀ x ∈ pairsOf kv.2, Writable stations x := fun kv hkv => hw _ _ (hmemG kv hkv)
  let l : List Pair := order.flatMap (fun kv => pairsOf kv.2)
  have hl : ∀ x ∈ l, Writable stations x := by
    intro x hx
    obtain ⟨kv, hkv, h⟩ := List.mem_flatMap.1 hx
    exact hw' kv hkv x h
  have hflat : (order.map (fun kv => (pairsOf kv.2).map (fieldsOf stations))).flatten = l.map (fieldsOf stations) := by
    simp only [l]
    rw [List.map_flatMap, List.flatMap_def]
  have htab : TableText (header :: l.map (fieldsOf stations)) (fileText (header :: l.map (fieldsOf stations))) := by
    apply tableText_fileText
    intro row hrow
    rcases List.mem_cons.1 hrow with rfl | hrow
    · refine ⟨by decide, ?_⟩
      unfold Clean
      decide
    · obtain ⟨x, hx, rfl⟩ := List.mem_map.1 hrow
      exact (hl x hx).clean
  have hread : readWithHeader (fileText (header :: l.map (fieldsOf stations))) = .ok (format header (l.map (fieldsOf stations))) := by
    apply csv_read_with_header_partial htab
    intro row hrow f hf
    have hcl : Clean f := by
      rcases List.mem_cons.1 hrow with rfl | hrow
      · revert f; unfold Clean; decide
      · obtain ⟨x, hx, rfl⟩ := List.mem_map.1 hrow
        exact (hl x hx).clean.2 f hf
    exact ⟨fun h => (hcl _ h).2.2.1 rfl, fun h => (hcl _ h).2.2.2 rfl⟩
  have hrep : Rep (l.foldl applyPair []) (fun y => False ∨ y ∈ l) := by
    apply rep_foldl
    exact ⟨by simp [AMap.NodupKeys, AMap.keys], by simp [AMap.keys], by simp⟩
  have hml : ∀ a b sp, (a, b, sp) ∈ l ↔ ∃ m, G.find? a = some m ∧ sp ∈ m.phasesOf b := by
    intro a b sp
    simp only [l, List.mem_flatMap]
    constructor
    · rintro ⟨kv, hkv, h⟩
      have hf := hmemG kv hkv
      obtain ⟨h1, h2⟩ := (mem_pairsOf (hids _ _ hf) a b sp).1 h
      rw [hG.key _ _ hf] at h1
      exact ⟨kv.2, by rw [h1]; exact hf, h2⟩
    · rintro ⟨m, hm, h⟩
      refine ⟨(a, m), ho.symm.subset (AMap.mem_of_find? hm), ?_⟩
      exact (mem_pairsOf (hids _ _ hm) a b sp).2 ⟨(hG.key _ _ hm).symm, h⟩
  have hlists : ∀ a b, (∃ sp, (a, b, sp) ∈ l) ↔ Clusters.Lists G a b := by
    intro a b
    constructor
    · rintro ⟨sp, h⟩
      obtain ⟨m, hm, h'⟩ := (hml a b sp).1 h
      refine ⟨m, hm, ?_⟩
      unfold Neighbours.ids
      rw [← AMap.find?_isSome]
      unfold Neighbours.phasesOf at h'
      cases hf : m.nbs.find? b with
      | none => rw [hf] at h'; simp at h'
      | some _ => rfl
    · rintro ⟨m, hm, hb⟩
      obtain ⟨sp, hsp⟩ := List.exists_mem_of_ne_nil _ (hphs _ _ hm b hb)
      exact ⟨sp, (hml a b sp).2 ⟨m, hm, hsp⟩⟩
  refine ⟨fileText (header :: l.map (fieldsOf stations)), l.foldl applyPair [], ?_, ?_, hrep.unique, ?_, ?_⟩
  · unfold writePairs
    cases order with
    | nil => exact absurd (List.nil_perm.1 ho) hne
    | cons kv rest =>
      simp only
      rw [mapRows_spec _ hw', Outcome.map, hflat]
  · unfold readPairs
    rw [hread]
    exact readRows_spec l [] hl
  · intro id
    rw [hrep.keys]
    constructor
    · rintro ⟨⟨a, b, sp⟩, h | h, rfl | rfl⟩
      · exact h.elim
      · exact h.elim
      · exact ⟨b, .inl ((hlists _ _).1 ⟨sp, h⟩)⟩
      · exact ⟨a, .inr ((hlists _ _).1 ⟨sp, h⟩)⟩
    · rintro ⟨other, h | h⟩
      · obtain ⟨sp, h⟩ := (hlists _ _).2 h
        exact ⟨_, .inr h, .inl rfl⟩
      · obtain ⟨sp, h⟩ := (hlists _ _).2 h
        exact ⟨_, .inr h, .inr rfl⟩
  · intro id n hf
    obtain ⟨e1, e2, e3⟩ := hrep.entry id n hf
    refine ⟨e1, e2, ?_⟩
    intro b
    obtain ⟨f1, f2, f3⟩ := e3 b
    simp only [false_or] at f1 f3
    exact ⟨by rw [f1, hlists], f2, fun sp => by rw [f3, hml]⟩

/-- (negation) An event without neighbours that is nobody's neighbour is not read back. -/
theorem lonely_event_lost (stations : AMap String (Station D)) (id : Nat) :
    ∃ text, writePairs stations [(id, Neighbours.empty id)] = .ok (some text) ∧ readPairs stations text = .ok [] := by
  refine ⟨fileText [header], rfl, ?_⟩
  have : readWithHeader (fileText [header]) = .ok [] := by decide +kernel
  unfold readPairs
  rw [this]
  rfl

/-- (negation) Without any event no file is written, and what is there before the call is read. -/
theorem no_events_no_file (stations : AMap String (Station D)) : writePairs stations [] = .ok none := rfl

namespace Example

def stations : AMap String (Station Nat) := [("N.A.00", ⟨"N.A.00", 0, 0, 0, "N", "A", "00"⟩), ("N.B.", ⟨"N.B.", 0, 0, 0, "N", "B", ""⟩)]

/-- the two directions with different phases, and an event with no neighbour of its own -/
def graph : AMap Nat Neighbours :=
  [(1, ⟨1, [(2, [("N.A.00", "P"), ("N.B.", "Sg")]), (7, [("N.B.", "Pn")])]⟩), (2, ⟨2, [(1, [("N.B.", "Sg")])]⟩), (7, ⟨7, []⟩)]

theorem wf : Clusters.WF graph := by
  refine ⟨by unfold AMap.NodupKeys; decide, ?_⟩
  intro id n h
  have := AMap.mem_of_find? h
  simp only [graph, List.mem_cons, Prod.mk.injEq, List.not_mem_nil, or_false] at this
  rcases this with ⟨rfl, rfl⟩ | ⟨rfl, rfl⟩ | ⟨rfl, rfl⟩ <;> rfl

theorem writable : ∀ x : Pair, x.2.2.1 ∈ ["N.A.00", "N.B."] → x.2.2.2 ∈ ["P", "Sg", "Pn"] → x.1 < 10 → x.2.1 < 10 → Writable stations x := by
  intro x h1 h2 h3 h4
  refine ⟨?_, ?_, by unfold uintMod; omega, by unfold uintMod; omega⟩
  · have : ∀ s ∈ ["N.A.00", "N.B."], ∃ y ∈ stations, y.1 = s ∧ y.2.id = s ∧
        Catalog.stationIdOf y.2.networkCode y.2.stationCode y.2.locationCode = s ∧
        Clean y.2.networkCode.toList ∧ Clean y.2.stationCode.toList ∧ Clean y.2.locationCode.toList := by
      unfold Clean; decide +kernel
    obtain ⟨y, hy, hy1, hy2⟩ := this _ h1
    refine ⟨y.2, ?_, hy2⟩
    rw [← hy1]
    exact AMap.find?_of_mem (by unfold AMap.NodupKeys; decide +kernel) hy
  · have : ∀ s ∈ ["P", "Sg", "Pn"], Clean s.toList := by unfold Clean; decide +kernel
    exact this _ h2

theorem check : ∀ kv ∈ graph, kv.2.ids.Nodup ∧ (∀ b ∈ kv.2.ids, kv.2.phasesOf b ≠ []) ∧
    ∀ x ∈ pairsOf kv.2, x.2.2.1 ∈ ["N.A.00", "N.B."] ∧ x.2.2.2 ∈ ["P", "Sg", "Pn"] ∧ x.1 < 10 ∧ x.2.1 < 10 := by
  decide +kernel

example := pair_file_round_trip_partial stations graph wf (by decide)
  (fun id n h => (check (id, n) (AMap.mem_of_find? h)).1) (fun id n h => (check (id, n) (AMap.mem_of_find? h)).2.1)
  (fun id n h x hx => let c := (check (id, n) (AMap.mem_of_find? h)).2.2 x hx; writable x c.1 c.2.1 c.2.2.1 c.2.2.2)
  graph (List.Perm.refl _)

example : writePairs stations graph = .ok (some ("eventId1,eventId2,networkCode,stationCode,locationCode,phaseType\n" ++
    "1,2,N,A,00,P\n1,2,N,B,,Sg\n1,7,N,B,,Pn\n2,1,N,B,,Sg\n").toList) := by decide +kernel

/-- (negation) A station that is not in the catalog: undefined behaviour. -/
theorem unknown_station_ub : readPairs stations
    "eventId1,eventId2,networkCode,stationCode,locationCode,phaseType\n1,2,X,Y,,P\n".toList = .ub := by decide +kernel

/-- (negation) A phase name with a comma is cut. -/
theorem comma_cut :
    (writePairs stations [(1, ⟨1, [(2, [("N.B.", "P,1")])]⟩)]).bind (fun t => readPairs stations (t.getD [])) =
      .ok [(1, ⟨1, [(2, [("N.B.", "P")])]⟩), (2, ⟨2, []⟩)] := by decide +kernel

end Example
end Verif.PairFile
