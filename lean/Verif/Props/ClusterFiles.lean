import Verif.Proofs.ClusterRelocation
import Verif.Proofs.ClusterAlone
import Verif.Props.CatalogSelection

/-!
# C99: dumping the clusters and relocating from the files
-/

set_option linter.unusedSimpArgs false

namespace Verif.ClusterFiles
open Verif.Catalog Verif.Relocate Verif.PairFile
open Verif.Csv (Str)

variable {K : Type} [Field K] [LinearOrder K] [IsStrictOrderedRing K]

theorem fileName_named (i : Nat) (kind : String) : fileName i kind = named i kind := by
  unfold fileName named decimal
  simp [String.toList_append]

/-- the kinds of files written for a cluster -/
theorem kinds_eq : kinds = ["pair", "station", "event", "phase"] := rfl

/-- **C99a.** The clusters found are written without error.  Whatever files there were, the pair files of any of the
clusters, given in any order, are then read as clusters with the same events, each with the same neighbours, stations and
phases; the catalog files of a cluster hold its events, their picks and the stations; and no other file is changed. -/
theorem dumped_clusters_read_back_partial {g : Selection.Geometry K} {cfg : Selection.Config K} {bg : Catalog K} (pop : KdTree.Pop K)
    (t : Selection.EventTree K) (ht : t.WF) (minNumNeigh : Nat) (hm : 1 ≤ minNumNeigh) (hc : bg.Sound)
    (hg : ∀ id e, bg.events.find? id = some e → g.Nonneg bg e t) (order : Order) (ho : ∀ m, (order m).Perm m)
    (pick : Clusters.Pick) (text : Catalog K → Str × Str × Str) (hp : Printable bg) (fs0 : Files) :
    ∃ res fs, findClusters g cfg minNumNeigh pop t order pick bg = .ok res ∧
      dumpClusters text order bg (findClusters g cfg minNumNeigh pop t order pick bg) fs0 = .ok fs ∧
      (∀ is : List Nat, is ≠ [] → (∀ i ∈ is, 1 ≤ i ∧ i ≤ res.length) →
        ∃ ds, readClusters bg fs (CommandLine.Spec.commaSeparated (is.map (fun i => named i "pair"))) = .ok ds ∧
          List.Forall₂ (fun i d => ∃ c, res[i - 1]? = some c ∧ Proper d ∧ Same c d) is ds) ∧
      (∀ i c, 1 ≤ i → res[i - 1]? = some c → ∃ cat, CatalogOf bg c cat ∧ fs.find? (named i "station") = some (text cat).1 ∧
        fs.find? (named i "event") = some (text cat).2.1 ∧ fs.find? (named i "phase") = some (text cat).2.2) ∧
      ∀ name, (∀ i, 1 ≤ i → i ≤ res.length → ∀ kind ∈ ["pair", "station", "event", "phase"], name ≠ named i kind) →
        fs.find? name = fs0.find? name := by
  obtain ⟨res, h1, h2, h3, h4⟩ := found_spec (g := g) (cfg := cfg) pop t ht minNumNeigh hc hg order ho pick
  obtain ⟨fs, k1, k2, k3⟩ := dumpLoop_spec text ho hc hp res 1 fs0 h2
  have hd : ∀ i c, 1 ≤ i → res[i - 1]? = some c → Dumped text bg i c fs := by
    intro i c hi hcr
    have := k2 (i - 1) c hcr
    rwa [show 1 + (i - 1) = i by omega] at this
  refine ⟨res, fs, h1, ?_, ?_, ?_, ?_⟩
  · rw [h1]; exact k1
  · intro is hne hin
    have hP : ∀ i ∈ is, ∃ d, readPairs bg.stations (content fs (fileName i "pair")) = .ok d ∧
        ∃ c, res[i - 1]? = some c ∧ Proper d ∧ Same c d := by
      intro i hi
      obtain ⟨h5, h6⟩ := hin i hi
      have hcr : res[i - 1]? = some (res[i - 1]'(by omega)) := List.getElem?_eq_getElem (by omega)
      have hmem := List.mem_of_getElem? hcr
      obtain ⟨d, e1, e2, e3⟩ := (hd i _ h5 hcr).same (h2 _ hmem) (h4 hm _ hmem)
      exact ⟨d, e1, _, hcr, e2, e3⟩
    obtain ⟨ds, e1, e2⟩ := readFiles_spec is hP
    refine ⟨ds, ?_, e2⟩
    simp only [← fileName_named]
    have hit : ∀ x ∈ is.map (fun i => fileName i "pair"), CommandLine.Spec.Item x := by
      intro x hx
      obtain ⟨i, -, rfl⟩ := List.mem_map.1 hx
      exact fileName_item i "pair" (by unfold Plain; decide +kernel)
    unfold readClusters
    rw [CommandLine.tokens_commaSeparated (by simpa using hne) hit, if_pos, e1]
    cases is with
    | nil => exact absurd rfl hne
    | cons i is =>
      have hi := (hit (fileName i "pair") (by simp)).1
      cases is with
      | nil => exact hi
      | cons j is => simp [CommandLine.Spec.commaSeparated]
  · intro i c hi hcr
    obtain ⟨cat, e1, e2⟩ := (hd i c hi hcr).catalog
    refine ⟨cat, e1, ?_⟩
    simpa only [← fileName_named] using e2
  · intro name hname
    apply k3
    intro j hj k hk
    rw [fileName_named]
    exact hname (1 + j) (by omega) (by omega) k hk

/-- what is known about the clusters and the files -/
theorem found_dumped {g : Selection.Geometry K} {cfg : Selection.Config K} {bg : Catalog K} {pop : KdTree.Pop K}
    {t : Selection.EventTree K} (ht : t.WF) {minNumNeigh : Nat} (hm : 1 ≤ minNumNeigh) (hc : bg.Sound)
    (hg : ∀ id e, bg.events.find? id = some e → g.Nonneg bg e t) {order : Order} (ho : ∀ m, (order m).Perm m)
    {pick : Clusters.Pick} {text : Catalog K → Str × Str × Str} (hp : Printable bg) {fs0 fs : Files} {res : List (AMap Nat Neighbours)}
    (hf : findClusters g cfg minNumNeigh pop t order pick bg = .ok res) (hd : dumpClusters text order bg (.ok res) fs0 = .ok fs) :
    (∀ c ∈ res, Found bg c) ∧ (res.flatMap (fun c => c.keys)).Nodup ∧
      (∀ is : List Nat, is ≠ [] → (∀ i ∈ is, 1 ≤ i ∧ i ≤ res.length) →
        ∃ ds, readClusters bg fs (CommandLine.Spec.commaSeparated (is.map (fun i => named i "pair"))) = .ok ds ∧
          List.Forall₂ (fun i d => ∃ c, res[i - 1]? = some c ∧ Proper d ∧ Same c d) is ds) ∧
      ∀ name, (∀ i, 1 ≤ i → i ≤ res.length → ∀ kind ∈ ["pair", "station", "event", "phase"], name ≠ named i kind) →
        fs.find? name = fs0.find? name := by
  obtain ⟨res', h1, h2, h3, -⟩ := found_spec (g := g) (cfg := cfg) pop t ht minNumNeigh hc hg order ho pick
  obtain ⟨res'', fs', k1, k2, k3, -, k5⟩ := dumped_clusters_read_back_partial (g := g) (cfg := cfg) pop t ht minNumNeigh hm hc hg order ho pick
    text hp fs0
  rw [hf] at h1 k1 k2
  cases h1
  cases k1
  rw [hd] at k2
  cases k2
  exact ⟨h2, h3, k3, k5⟩

theorem forall₂_mem {A B : Type} {R : A → B → Prop} : ∀ {l : List A} {l' : List B}, List.Forall₂ R l l' → ∀ b ∈ l', ∃ a ∈ l, R a b
  | _, _, .nil, b, hb => by cases hb
  | a :: _, _, .cons h1 h2, b, hb => by
    rcases List.mem_cons.1 hb with rfl | hb
    · exact ⟨a, by simp, h1⟩
    · obtain ⟨a', h3, h4⟩ := forall₂_mem h2 b hb
      exact ⟨a', by simp [h3], h4⟩

/-- the clusters of the positions given -/
theorem forall₂_select {A : Type} {P : A → A → Prop} {res : List A} : ∀ {is : List Nat} {ds : List A},
    List.Forall₂ (fun i d => ∃ c, res[i - 1]? = some c ∧ P c d) is ds → ∃ cs, List.Forall₂ (fun i c => res[i - 1]? = some c) is cs ∧
      List.Forall₂ P cs ds
  | _, _, .nil => ⟨[], .nil, .nil⟩
  | _ :: _, _, .cons ⟨c, h1, h2⟩ h3 => by
    obtain ⟨cs, k1, k2⟩ := forall₂_select h3
    exact ⟨c :: cs, .cons h1 k1, .cons h2 k2⟩

theorem select_all {A : Type} {res cs : List A} (h : List.Forall₂ (fun i c => res[i - 1]? = some c) (List.range' 1 res.length) cs) :
    cs = res := by
  apply List.ext_getElem?
  intro k
  rcases Nat.lt_or_ge k res.length with hk | hk
  · have h1 : k < (List.range' 1 res.length).length := by simpa using hk
    have h2 : k < cs.length := by rw [← h.length_eq]; exact h1
    have := List.forall₂_iff_get.1 h
    have := this.2 k h1 h2
    simp only [List.get_eq_getElem, List.getElem_range', Nat.one_mul, Nat.add_sub_cancel_left] at this
    rw [this, List.getElem?_eq_getElem h2]
  · rw [List.getElem?_eq_none hk, List.getElem?_eq_none (by rw [← h.length_eq]; simpa using hk)]

/-- what the relocation gives, as far as it can be seen: the relocated catalog, what was done in each cluster, the results of
the correlations, and the correlations that were done, in any order -/
structure SameOutcome (t t' : MultiState K) : Prop where
  reloc : t'.reloc = t.reloc
  done : t'.done.map (·.2) = t.done.map (·.2)
  results : ∀ a b s p, XCorr.get t'.xcorrData a b s p = XCorr.get t.xcorrData a b s p
  calls : t'.calls.Perm t.calls

omit [IsStrictOrderedRing K] in
theorem sameOutcome {t t' : MultiState K} (h : SameRun t t') : SameOutcome t t' := by
  refine ⟨h.reloc.symm, ?_, fun a b s p => (h.data.get a b s p).symm, h.calls.symm⟩
  have := h.done
  generalize t.done = l at this
  generalize t'.done = l' at this
  induction this with
  | nil => rfl
  | cons h1 _ ih => simp [h1.2, ih]

omit [IsStrictOrderedRing K] in
theorem relocateCatalog_ok {m : MultiArgs K} {order : Order} {rnd : ℚ → ℚ} {bg : Catalog K} {found : Outcome (List (AMap Nat Neighbours))}
    {fs : Files} {clusterFiles xcorrFile : Str} {t : MultiState K} :
    relocateCatalog m order rnd bg found fs clusterFiles xcorrFile = .ok t ↔
      ∃ read xc cls, readClusters bg fs clusterFiles = .ok read ∧
        (if xcorrFile ≠ [] then XCorrFile.readEntries rnd bg.stations (content fs xcorrFile) else .ok []) = .ok xc ∧
        (if read = [] then found else .ok read) = .ok cls ∧ relocateMultiEvents m bg (cls.map order) xc = .ok t := by
  unfold relocateCatalog
  simp only [Outcome.bind_eq_ok]
  constructor
  · rintro ⟨read, h1, xc, h2, cls, h3, h4⟩
    exact ⟨read, xc, cls, h1, h2, h3, h4⟩
  · rintro ⟨read, xc, cls, h1, h2, h3, h4⟩
    exact ⟨read, h1, xc, h2, cls, h3, h4⟩

omit [IsStrictOrderedRing K] in
theorem alike_all {bg : Catalog K} {order : Order} (ho : ∀ m, (order m).Perm m) (hb : ByEvents order) :
    ∀ {cs ds : List (AMap Nat Neighbours)}, (∀ c ∈ cs, Found bg c) → List.Forall₂ (fun c d => Proper d ∧ Same c d) cs ds →
      List.Forall₂ (fun l l' => List.Forall₂ AlikeEntry l l' ∧ NoSelf l) (cs.map order) (ds.map order)
  | _, _, _, .nil => .nil
  | c :: _, _, h1, .cons e1 e2 => .cons ⟨same_alike ho hb (h1 c (by simp)).proper e1.1 e1.2, (h1 c (by simp)).noSelf ho⟩
      (alike_all ho hb (fun x hx => h1 x (by simp [hx])) e2)

/-- **C99b.** Relocating a catalog from the dumped pair files of all clusters gives what relocating it at once gives: the same
relocated catalog, the same iterations in each cluster, the same correlation results.  The waveforms do not change between the
runs, and a container with the same events is visited in the same order. -/
theorem relocation_from_files_partial {g : Selection.Geometry K} {cfg : Selection.Config K} {bg : Catalog K} {pop : KdTree.Pop K}
    {tr : Selection.EventTree K} (ht : tr.WF) {minNumNeigh : Nat} (hm : 1 ≤ minNumNeigh) (hc : bg.Sound)
    (hg : ∀ id e, bg.events.find? id = some e → g.Nonneg bg e tr) {order : Order} (ho : ∀ m, (order m).Perm m) (hb : ByEvents order)
    {pick : Clusters.Pick} {text : Catalog K → Str × Str × Str} (hp : Printable bg) {fs0 fs : Files} {res : List (AMap Nat Neighbours)}
    (hf : findClusters g cfg minNumNeigh pop tr order pick bg = .ok res) (hd : dumpClusters text order bg (.ok res) fs0 = .ok fs)
    (hne : res ≠ []) {m : MultiArgs K} (hx : ∀ i j, m.x.correlate i = m.x.correlate j) (rnd : ℚ → ℚ) {xcorrFile : Str}
    (hxf : ∀ i, ∀ kind ∈ ["pair", "station", "event", "phase"], xcorrFile ≠ named i kind) (other : Outcome (List (AMap Nat Neighbours)))
    {t : MultiState K} (h : relocateCatalog m order rnd bg (.ok res) fs0 [] xcorrFile = .ok t) :
    ∃ t', relocateCatalog m order rnd bg other fs
        (CommandLine.Spec.commaSeparated ((List.range' 1 res.length).map (fun i => named i "pair"))) xcorrFile = .ok t' ∧
      SameOutcome t t' := by
  obtain ⟨h1, h2, h3, h4⟩ := found_dumped ht hm hc hg ho hp hf hd
  obtain ⟨ds, k1, k2⟩ := h3 (List.range' 1 res.length) (by simpa using hne) (by intro i hi; rw [List.mem_range'_1] at hi; omega)
  obtain ⟨cs, k3, k4⟩ := forall₂_select k2
  obtain rfl := select_all k3
  have hds : ds ≠ [] := by
    intro e
    rw [e] at k4
    cases k4
    exact hne rfl
  have hcont : content fs xcorrFile = content fs0 xcorrFile := by
    unfold content
    rw [h4 xcorrFile (fun i _ _ kind hk => hxf i kind hk)]
  obtain ⟨read, xc, cls, x0, x1, x2, h⟩ := relocateCatalog_ok.1 h
  cases x0
  rw [if_pos rfl] at x2
  cases x2
  have hinv : XCorr.OneDir xc ∧ XCorr.Uniq xc := by
    split at x1
    · obtain ⟨f, hf⟩ := readEntries_inv rnd x1
      exact hf.inv
    · cases x1; exact ⟨XCorr.OneDir.nil, XCorr.Uniq.nil⟩
  have hl : List.Forall₂ (fun l l' => List.Forall₂ AlikeEntry l l' ∧ NoSelf l) (cs.map order) (ds.map order) := alike_all ho hb h1 k4
  obtain ⟨t', e1, e2⟩ := multi_alike hx hc hl hinv.1 hinv.2 h
  refine ⟨t', relocateCatalog_ok.2 ⟨ds, xc, ds, k1, by rw [hcont]; exact x1, by rw [if_neg hds], e1⟩, sameOutcome e2⟩

theorem separate {bg : Catalog K} {order : Order} (ho : ∀ m, (order m).Perm m) : ∀ {cs : List (AMap Nat Neighbours)},
    (∀ c ∈ cs, Found bg c) → (∀ c ∈ cs, 28 * ((order c).map (·.2.phases.length)).sum ≤ IdToIndex.uintMod) →
    (cs.Pairwise (fun c d => ∀ k ∈ c.keys, k ∉ d.keys)) → Separate (cs.map order) := by
  intro cs hf hfit hap
  have hk : ∀ (c : AMap Nat Neighbours) (k : Nat), k ∈ (order c).map (·.1) ↔ k ∈ c.keys := fun c k => ((ho c).map _).mem_iff
  have hmem : ∀ c ∈ cs, ∀ kv ∈ order c, c.find? kv.1 = some kv.2 := fun c hc kv hkv =>
    AMap.find?_of_mem (hf c hc).proper.unique ((ho c).subset hkv)
  refine ⟨?_, ?_, ?_⟩
  · intro cl hcl
    obtain ⟨c, hc, rfl⟩ := List.mem_map.1 hcl
    refine ⟨⟨((ho c).map _).nodup_iff.2 (hf c hc).proper.unique, ?_⟩, (hf c hc).noSelf ho, hfit c hc⟩
    intro kv hkv
    exact (hf c hc).proper.key _ _ (hmem c hc kv hkv)
  · intro cl hcl kv hkv b hb
    obtain ⟨c, hc, rfl⟩ := List.mem_map.1 hcl
    rw [hk]
    exact ((hf c hc).inside kv.1 b ⟨kv.2, hmem c hc kv hkv, hb⟩).1
  · rw [List.pairwise_map]
    refine hap.imp ?_
    intro c d h k h1 h2
    rw [hk] at h1 h2
    exact h k h1 h2

theorem apart_of_nodup {cs : List (AMap Nat Neighbours)} (h : (cs.flatMap (fun c => c.keys)).Nodup) :
    cs.Pairwise (fun c d => ∀ k ∈ c.keys, k ∉ d.keys) := by
  rw [List.nodup_flatMap] at h
  refine h.2.imp ?_
  intro c d h k h1 h2
  exact h h1 h2

theorem select_pairwise {A : Type} {R : A → A → Prop} (hsym : ∀ a b, R a b → R b a) {res : List A} (h : res.Pairwise R) :
    ∀ {is : List Nat} {cs : List A}, is.Nodup → (∀ i ∈ is, 1 ≤ i) → List.Forall₂ (fun i c => res[i - 1]? = some c) is cs → cs.Pairwise R
  | _, _, _, _, .nil => .nil
  | i :: is, c :: cs, hn, hi, .cons h1 h2 => by
    obtain ⟨hn1, hn2⟩ := List.nodup_cons.1 hn
    refine .cons ?_ (select_pairwise hsym h hn2 (fun j hj => hi j (by simp [hj])) h2)
    intro d hd
    obtain ⟨j, hj, h3⟩ := forall₂_mem h2 d hd
    have hij : i - 1 ≠ j - 1 := by
      have := hi i (by simp)
      have := hi j (by simp [hj])
      intro e
      exact hn1 (by rwa [show i = j by omega])
    obtain ⟨l1, e1⟩ := List.getElem?_eq_some_iff.1 h1
    obtain ⟨l2, e2⟩ := List.getElem?_eq_some_iff.1 h3
    rw [List.pairwise_iff_getElem] at h
    rcases Nat.lt_or_ge (i - 1) (j - 1) with hlt | hge
    · rw [← e1, ← e2]; exact h _ _ l1 l2 hlt
    · rw [← e1, ← e2]; exact hsym _ _ (h _ _ l2 l1 (by omega))

/-- **C99c.** Relocating only some of the clusters, from their pair files, gives for each of them the same iterations and the
same relocated events as relocating the whole catalog at once; and in a catalog without marks each event of these clusters
comes out, with its picks, as in the relocation of the whole catalog, and no other event comes out.  The waveforms do not
change between the runs, the solver gives the same answers for the same cluster, a container with the same events is visited
in the same order, and the clusters are not too large for 32 bit indices. -/
theorem relocation_of_some_clusters_partial {g : Selection.Geometry K} {cfg : Selection.Config K} {bg : Catalog K} {pop : KdTree.Pop K}
    {tr : Selection.EventTree K} (ht : tr.WF) {minNumNeigh : Nat} (hm : 1 ≤ minNumNeigh) (hc : bg.Sound) (hn : NoAt bg)
    (hg : ∀ id e, bg.events.find? id = some e → g.Nonneg bg e tr) {order : Order} (ho : ∀ m, (order m).Perm m) (hb : ByEvents order)
    {pick : Clusters.Pick} {text : Catalog K → Str × Str × Str} (hp : Printable bg) {fs0 fs : Files} {res : List (AMap Nat Neighbours)}
    (hf : findClusters g cfg minNumNeigh pop tr order pick bg = .ok res) (hd : dumpClusters text order bg (.ok res) fs0 = .ok fs)
    (hfit : ∀ c ∈ res, 28 * ((order c).map (·.2.phases.length)).sum ≤ IdToIndex.uintMod)
    {m : MultiArgs K} (hx : ∀ i j, m.x.correlate i = m.x.correlate j) (hsol : ∀ i j, m.sol i = m.sol j) (rnd : ℚ → ℚ) {xcorrFile : Str}
    (hxf : ∀ i, ∀ kind ∈ ["pair", "station", "event", "phase"], xcorrFile ≠ named i kind) (other : Outcome (List (AMap Nat Neighbours)))
    {t : MultiState K} (h : relocateCatalog m order rnd bg (.ok res) fs0 [] xcorrFile = .ok t)
    (is : List Nat) (hne : is ≠ []) (hnd : is.Nodup) (hin : ∀ i ∈ is, 1 ≤ i ∧ i ≤ res.length) :
    ∃ t', relocateCatalog m order rnd bg other fs (CommandLine.Spec.commaSeparated (is.map (fun i => named i "pair"))) xcorrFile = .ok t' ∧
      List.Forall₂ (fun i d' => ∃ d, t.done[i - 1]? = some d ∧ d'.2 = d.2) is t'.done ∧
      ((∀ k, ¬ Marked bg k) →
        (∀ k, (t'.reloc.events.find? k).isSome = true → ∃ i ∈ is, ∃ c, res[i - 1]? = some c ∧ k ∈ c.keys) ∧
        ∀ i ∈ is, ∀ c, res[i - 1]? = some c → ∀ k ∈ c.keys,
          t'.reloc.events.find? k = t.reloc.events.find? k ∧ t'.reloc.phasesOf k = t.reloc.phasesOf k) := by
  obtain ⟨h1, h2, h3, h4⟩ := found_dumped ht hm hc hg ho hp hf hd
  obtain ⟨ds, k1, k2⟩ := h3 is hne hin
  obtain ⟨cs, k3, k4⟩ := forall₂_select k2
  have hds : ds ≠ [] := by
    rintro rfl
    cases k2
    exact hne rfl
  have hcont : content fs xcorrFile = content fs0 xcorrFile := by
    unfold content
    rw [h4 xcorrFile (fun i _ _ kind hk => hxf i kind hk)]
  obtain ⟨read, xc, cls, x0, x1, x2, h⟩ := relocateCatalog_ok.1 h
  cases x0
  rw [if_pos rfl] at x2
  cases x2
  obtain ⟨f, hhist⟩ : ∃ f, XCorr.History xc f := by
    split at x1
    · exact readEntries_inv rnd x1
    · cases x1; exact ⟨_, XCorr.History.new⟩
  obtain ⟨hod, huq⟩ := hhist.inv
  have hcs : ∀ c ∈ cs, c ∈ res := by
    intro c hcc
    obtain ⟨i, -, e⟩ := forall₂_mem k3 c hcc
    exact List.mem_of_getElem? e
  have hap := apart_of_nodup h2
  have sep := separate (order := order) ho h1 hfit hap
  have hap' : cs.Pairwise (fun c d => ∀ k ∈ c.keys, k ∉ d.keys) :=
    select_pairwise (fun a b hab k hk hk' => hab k hk' hk) hap hnd (fun i hi => (hin i hi).1) k3
  have sep' := separate (order := order) ho (fun c hcc => h1 c (hcs c hcc)) (fun c hcc => hfit c (hcs c hcc)) hap'
  -- each cluster by itself
  obtain ⟨all, a1, a2⟩ := run_forward hx hsol hc sep (s := ⟨Catalog.init, xc, [], []⟩) (data := xc) hod huq (fun _ _ _ _ _ _ _ _ => rfl) h
  simp only [List.nil_append] at a2
  have hlen : all.length = res.length := by rw [← a1.length_eq, List.length_map]
  obtain ⟨sel, s1, s2⟩ : ∃ sel, List.Forall₂ (fun i d => all[i - 1]? = some d) is sel ∧ List.Forall₂ (Alone m bg xc) (cs.map order) sel := by
    clear hap' sep' hcs k4 k2 k1 hne hnd
    induction k3 with
    | nil => exact ⟨[], .nil, .nil⟩
    | @cons i c is cs e1 _ ih =>
      obtain ⟨sel, e2, e3⟩ := ih (fun j hj => hin j (by simp [hj]))
      obtain ⟨l1, e1⟩ := List.getElem?_eq_some_iff.1 e1
      refine ⟨all[i - 1]'(by omega) :: sel, .cons (List.getElem?_eq_getElem _) e2, .cons ?_ e3⟩
      have := (List.forall₂_iff_get.1 a1).2 (i - 1) (by simpa using l1) (by omega)
      simp only [List.get_eq_getElem, List.getElem_map, e1] at this
      exact this
  obtain ⟨u, u1, u2⟩ := run_back hx hsol hc hn sep' (s := ⟨Catalog.init, xc, [], []⟩) (data := xc) hod huq init_sound
    (fun _ _ _ _ _ _ _ _ => rfl) s2
  simp only [List.nil_append] at u2
  obtain ⟨t', e1, e2⟩ := multi_alike hx hc (alike_all (bg := bg) ho hb (fun c hcc => h1 c (hcs c hcc)) k4) hod huq u1
  have hout := sameOutcome e2
  have hdone : List.Forall₂ (fun i d => all[i - 1]? = some d) is u.done := by rw [u2]; exact s1
  refine ⟨t', relocateCatalog_ok.2 ⟨ds, xc, ds, k1, by rw [hcont]; exact x1, by rw [if_neg hds], e1⟩, ?_, ?_⟩
  · have := hout.done
    rw [a2]
    generalize t'.done = l' at this
    generalize u.done = l at this hdone
    clear * - this hdone
    induction hdone generalizing l' with
    | nil =>
      cases l' with
      | nil => exact .nil
      | cons _ _ => cases this
    | cons q1 _ ih =>
      cases l' with
      | nil => cases this
      | cons d' l' =>
        simp only [List.map_cons, List.cons.injEq] at this
        exact .cons ⟨_, q1, this.1⟩ (ih _ this.2)
  · intro hnew
    rw [hout.reloc]
    have hdisj : ∀ {ls : List Cluster}, ls.Pairwise Apart → ∀ (i j : Nat) (cl cl' : Cluster) (k : Nat), ls[i]? = some cl → ls[j]? = some cl' →
        k ∈ cl.map (·.1) → k ∈ cl'.map (·.1) → i = j := by
      intro ls hls i j cl cl' k q1 q2 q3 q4
      obtain ⟨l1, rfl⟩ := List.getElem?_eq_some_iff.1 q1
      obtain ⟨l2, rfl⟩ := List.getElem?_eq_some_iff.1 q2
      rw [List.pairwise_iff_getElem] at hls
      rcases Nat.lt_trichotomy i j with hlt | heq | hgt
      · exact absurd q4 (hls i j l1 l2 hlt k q3)
      · exact heq
      · exact absurd q3 (hls j i l2 l1 hgt k q4)
    have hk : ∀ (c : AMap Nat Neighbours) (k : Nat), k ∈ (order c).map (·.1) ↔ k ∈ c.keys := fun c k => ((ho c).map _).mem_iff
    obtain ⟨v1, v2⟩ := multi_event_solved_partial hc hn hnew hhist sep.good (hdisj sep.apart) h
    obtain ⟨w1, w2⟩ := multi_event_solved_partial hc hn hnew hhist sep'.good (hdisj sep'.apart) u1
    have hidx : ∀ (j : Nat) (c : AMap Nat Neighbours), cs[j]? = some c → ∃ i ∈ is, is[j]? = some i ∧ res[i - 1]? = some c := by
      intro j c hj
      obtain ⟨l1, e⟩ := List.getElem?_eq_some_iff.1 hj
      have l2 : j < is.length := by rw [k3.length_eq]; exact l1
      have := (List.forall₂_iff_get.1 k3).2 j l2 l1
      simp only [List.get_eq_getElem, e] at this
      exact ⟨is[j], List.getElem_mem l2, List.getElem?_eq_getElem l2, this⟩
    refine ⟨?_, ?_⟩
    · intro k hsome
      obtain ⟨j, cl, xc', r, log, q1, -, q3, -⟩ := (w1 k).1 hsome
      rw [List.getElem?_map, Option.map_eq_some_iff] at q1
      obtain ⟨c, q1, rfl⟩ := q1
      obtain ⟨i, hi, -, q5⟩ := hidx j c q1
      exact ⟨i, hi, c, q5, (hk c k).1 q3⟩
    · intro i hi c hcr k hkc
      obtain ⟨j, hj⟩ := List.mem_iff_getElem?.1 hi
      obtain ⟨l1, ej⟩ := List.getElem?_eq_some_iff.1 hj
      have l2 : j < cs.length := by rw [← k3.length_eq]; exact l1
      have l3 : j < u.done.length := by rw [← hdone.length_eq]; exact l1
      have q1 := (List.forall₂_iff_get.1 k3).2 j l1 l2
      have q2 := (List.forall₂_iff_get.1 hdone).2 j l1 l3
      simp only [List.get_eq_getElem, ej] at q1 q2
      rw [hcr] at q1
      cases q1
      obtain ⟨⟨xc', r, log⟩, hd'⟩ : ∃ d, u.done[j] = d := ⟨_, rfl⟩
      have g1 := w2 j (order cs[j]) xc' r log (by rw [List.getElem?_map, List.getElem?_eq_getElem l2]; rfl)
        (by rw [List.getElem?_eq_getElem l3, hd']) k ((hk _ _).2 hkc)
      have g2 := v2 (i - 1) (order cs[j]) xc' r log (by rw [List.getElem?_map, hcr]; rfl)
        (by rw [a2, q2, hd']) k ((hk _ _).2 hkc)
      exact ⟨g1.1.trans g2.1.symm, g1.2.trans g2.2.symm⟩

/-! ## Concrete cases

Four events, two by two close to each other. -/

namespace Example
open Verif.Relocate.Example (cat4 cat4_sound cat4_noAt margs)

/-- the events are visited in the order of their numbers -/
def byNumber : Order := fun m => List.insertionSort (fun x y => x.1 ≤ y.1) m

theorem byNumber_perm (m : AMap Nat Neighbours) : (byNumber m).Perm m := List.perm_insertionSort _ _

theorem byNumber_byEvents : ByEvents byNumber := by
  intro c d hc hd h
  have hs : ∀ m : AMap Nat Neighbours, ((byNumber m).map (·.1)).Pairwise (· ≤ ·) := by
    intro m
    rw [List.pairwise_map]
    exact List.pairwise_insertionSort _ _
  refine List.Perm.eq_of_pairwise (fun a b _ _ h1 h2 => Nat.le_antisymm h1 h2) (hs c) (hs d) ?_
  refine ((byNumber_perm c).map _).trans (List.Perm.trans ?_ ((byNumber_perm d).map _).symm)
  exact (List.perm_ext_iff_of_nodup hc.unique hd.unique).2 h.events

def points4 : List (Pt ℚ × Nat) := cat4.events.map (fun kv => (Selection.eventPt kv.2, kv.1))
def tree4 : Selection.EventTree ℚ :=
  ⟨points4, KdTree.ofPoints (fun i => (points4.getD i (⟨0, 0, 0⟩, 0)).1) (fun _ => .sorting _) 4⟩

theorem tree4_wf : tree4.WF := by
  obtain ⟨h1, h2⟩ := KdTree.tree_holds_points (fun i => (points4.getD i (⟨0, 0, 0⟩, 0)).1) (fun _ => .sorting _) 4
  exact ⟨h1, by decide +kernel, h2⟩

theorem nonneg4 (e : Event ℚ) : Selection.Example.geo.Nonneg cat4 e tree4 :=
  ⟨by intro x _; unfold Selection.Example.geo KdTree.Example.chebyshev; positivity,
   fun _ _ _ => abs_nonneg _, fun _ _ _ _ _ _ => abs_nonneg _⟩

theorem printable4 : Printable cat4 := by
  refine ⟨?_, ?_⟩
  · intro id s h
    have := AMap.mem_of_find? h
    have hall : ∀ x ∈ cat4.stations, (∀ c ∈ x.2.networkCode.toList, c ≠ ',' ∧ c ≠ '"' ∧ c ≠ '\n' ∧ c ≠ '\r') ∧
      (∀ c ∈ x.2.stationCode.toList, c ≠ ',' ∧ c ≠ '"' ∧ c ≠ '\n' ∧ c ≠ '\r') ∧
      (∀ c ∈ x.2.locationCode.toList, c ≠ ',' ∧ c ≠ '"' ∧ c ≠ '\n' ∧ c ≠ '\r') := by decide +kernel
    exact hall _ this
  · unfold Plain
    decide +kernel

def cfg4 : Selection.Config ℚ := ⟨0, -1, 0, 1, 0, 2, 0, 3⟩

/-- two clusters; each pair is kept on one side -/
def res4 : List (AMap Nat Neighbours) :=
  [[(3, ⟨3, []⟩), (4, ⟨4, [(3, [("N.A.", "Pg")])]⟩)], [(1, ⟨1, []⟩), (2, ⟨2, [(1, [("N.A.", "Pg")])]⟩)]]

theorem found4 : findClusters Selection.Example.geo cfg4 1 KdTree.Example.sortingPop tree4 byNumber Clusters.Example.head cat4 = .ok res4 := by
  decide +kernel

/-- the texts of the catalog files do not matter here -/
def text4 (c : Catalog ℚ) : Str × Str × Str := (decimal c.stations.length, decimal c.events.length, decimal c.phases.length)

/-- correlations and solver do not depend on the run -/
def margs4 : MultiArgs ℚ := { margs with
  x := { margs.x with correlate := fun _ _ _ _ _ => .ok ⟨true, 3/4, 1⟩ }
  sol := fun _ => ⟨fun _ _ _ _ => .ok (), fun _ _ _ => some ⟨fun j => if j = 1 ∨ j = 4 then some ⟨0, 1, 0, 1⟩ else none, fun _ _ _ => true⟩⟩ }

example := dumped_clusters_read_back_partial (cfg := cfg4) KdTree.Example.sortingPop tree4 tree4_wf 1 le_rfl cat4_sound (fun _ e _ => nonneg4 e)
  byNumber byNumber_perm Clusters.Example.head text4 printable4

/-- the files written, and the relocation at once: events 4 and 1 move by a degree; two correlations -/
theorem run4 : ∃ fs t, dumpClusters text4 byNumber cat4 (.ok res4) [] = .ok fs ∧
    fs.find? "cluster-2-pair.csv".toList =
      some "eventId1,eventId2,networkCode,stationCode,locationCode,phaseType\n2,1,N,A,,Pg\n".toList ∧
    fs.find? "cluster-2-event.csv".toList = some "2".toList ∧
    relocateCatalog margs4 byNumber id cat4 (.ok res4) [] [] [] = .ok t ∧
    t.reloc.events.map (fun kv => (kv.1, kv.2.latitude)) = [(1, 47), (4, 41)] ∧ t.calls.length = 2 := by
  have h : (match dumpClusters text4 byNumber cat4 (.ok res4) [], relocateCatalog margs4 byNumber id cat4 (.ok res4) [] [] [] with
    | .ok fs, .ok t => decide (fs.find? "cluster-2-pair.csv".toList =
        some "eventId1,eventId2,networkCode,stationCode,locationCode,phaseType\n2,1,N,A,,Pg\n".toList ∧
      fs.find? "cluster-2-event.csv".toList = some "2".toList ∧
      t.reloc.events.map (fun kv => (kv.1, kv.2.latitude)) = [(1, 47), (4, 41)] ∧ t.calls.length = 2)
    | _, _ => false) = true := by decide +kernel
  split at h
  · rename_i fs t h1 h2
    obtain ⟨k1, k2, k3, k4⟩ := of_decide_eq_true h
    exact ⟨fs, t, h1, k1, k2, h2, k3, k4⟩
  · cases h

/-- the hypotheses of C99b and C99c hold for the relocation from both files, and from the second one alone -/
example : True := by
  obtain ⟨fs, t, h1, -, -, h2, -⟩ := run4
  have hxf : ∀ i, ∀ kind ∈ ["pair", "station", "event", "phase"], ([] : Str) ≠ named i kind := by
    intro i kind _ e
    rw [← fileName_named] at e
    exact (List.append_ne_nil_of_right_ne_nil _ (by decide +kernel) e.symm)
  have a := relocation_from_files_partial tree4_wf le_rfl cat4_sound (fun _ e _ => nonneg4 e) byNumber_perm byNumber_byEvents printable4
    found4 h1 (by decide) (fun _ _ => rfl) id hxf .throws h2
  have b := relocation_of_some_clusters_partial tree4_wf le_rfl cat4_sound cat4_noAt (fun _ e _ => nonneg4 e) byNumber_perm byNumber_byEvents
    printable4 found4 h1 (by decide +kernel) (fun _ _ => rfl) (fun _ _ => rfl) id hxf .throws h2 [2] (by decide) (by decide) (by decide)
  trivial

end Example

/-- (negation) If no neighbour is required, an event without neighbours is a cluster of its own; it is not read back from the
file of that cluster. Here the picks of all events are too far away. -/
theorem lonely_cluster_not_read_back :
    ∃ (bg : Catalog ℚ) (cfg : Selection.Config ℚ) (t : Selection.EventTree ℚ) (res : List (AMap Nat Neighbours)) (fs : Files)
      (read : List (AMap Nat Neighbours)), bg.Sound ∧ Printable bg ∧ t.WF ∧
      findClusters Selection.Example.geo cfg 0 KdTree.Example.sortingPop t Example.byNumber Clusters.Example.head bg = .ok res ∧
      dumpClusters Example.text4 Example.byNumber bg (.ok res) [] = .ok fs ∧
      readClusters bg fs (named 1 "pair") = .ok read ∧ res.map (·.keys) = [[4], [3], [2], [1]] ∧ read.map (·.keys) = [[]] := by
  have h : (match findClusters Selection.Example.geo { Example.cfg4 with maxESdist := 1 / 1000 } 0 KdTree.Example.sortingPop Example.tree4
        Example.byNumber Clusters.Example.head Relocate.Example.cat4 with
      | .ok res => (match dumpClusters Example.text4 Example.byNumber Relocate.Example.cat4 (.ok res) [] with
        | .ok fs => (match readClusters Relocate.Example.cat4 fs (named 1 "pair") with
          | .ok read => decide (res.map (·.keys) = [[4], [3], [2], [1]] ∧ read.map (·.keys) = [[]])
          | _ => false)
        | _ => false)
      | _ => false) = true := by decide +kernel
  split at h
  · rename_i res h1
    split at h
    · rename_i fs h2
      split at h
      · rename_i read h3
        obtain ⟨k1, k2⟩ := of_decide_eq_true h
        exact ⟨_, _, _, res, fs, read, Relocate.Example.cat4_sound, Example.printable4, Example.tree4_wf, h1, h2, h3, k1, k2⟩
      · cases h
    · cases h
  · cases h

/-- (negation) Reading a cluster file that does not exist, or is empty, is not reported: it is undefined behaviour. -/
theorem missing_cluster_file_undefined {D : Type} [Field D] [LinearOrder D] (bg : Catalog D) (fs : Files) (name : Str) (hn : CommandLine.Spec.Item name)
    (h : fs.find? name = none ∨ fs.find? name = some []) : readClusters bg fs name = .ub := by
  have hc : content fs name = [] := by
    unfold content
    rcases h with h | h <;> rw [h] <;> rfl
  have ht : CommandLine.tokens name = [name] := CommandLine.tokens_commaSeparated (xs := [name]) (by simp) (by simpa using hn)
  unfold readClusters
  rw [if_pos hn.1, ht]
  unfold readFiles
  rw [hc]
  rfl

end Verif.ClusterFiles
