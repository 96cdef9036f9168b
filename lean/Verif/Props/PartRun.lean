import Verif.Proofs.PartRun
import Verif.Props.XCorrBuild
import Verif.Props.Clusters

/-!
# C132: a part of a catalog is relocated as if it were all there is
-/

set_option linter.unusedSectionVars false
set_option linter.unusedSimpArgs false

namespace Verif.Relocate
open Verif.Catalog Verif.XCorr

variable {K : Type} [Field K] [LinearOrder K] {S : Nat → Bool}

/-- **C132** A cluster is relocated from the data of its own events and their neighbours: with two catalogs that agree on them,
whatever else they contain, the relocation does the same calls to the solver, restores the same events, moves the events the
same way and ends the same way, with the same catalog returned, whether neighbours are fixed or not and with any solver.  No event
elsewhere may be marked as relocated before (such events are returned as they are, see C72). -/
theorem cluster_alone (env : Env K) (so : SolverOptions K) (o : ObsOptions K) (sol : SolverAnswers K) {xc xc' : Cache}
    (hxc : ∀ a b s p, XCorr.get xc a b s p = XCorr.get xc' a b s p) {cl cl' : Cluster} (hcl : SamePairs cl cl') (hin : Within S cl)
    (hin' : Within S cl') {cat cat' : Catalog K} (hs : cat.Sound) (hs' : cat'.Sound) (h : AgreeOn S cat cat')
    (hlive : ∃ k, S k = true ∧ (cat.events.find? k).isSome = true)
    (hnew : ∀ k, S k = false → ¬ Marked cat k) (hnew' : ∀ k, S k = false → ¬ Marked cat' k) :
    SameResultOn S (relocate ⟨env, so, o, xc, cl, sol⟩ cat) (relocate ⟨env, so, o, xc', cl', sol⟩ cat') := by
  have hp : Part S cat (Selection.restrict cat S) := ⟨rfl, fun k e he => (hs.eventKey k e he).1, hnew, hlive, hs.eventsUnique⟩
  have hp' : Part S cat' (Selection.restrict cat' S) := by
    obtain ⟨k, h1, h2⟩ := hlive
    exact ⟨rfl, fun k e he => (hs'.eventKey k e he).1, hnew', ⟨k, h1, by rw [← h.events k h1]; exact h2⟩, hs'.eventsUnique⟩
  have := relocate_agree env so o hxc hcl hin hin' sol hp hp' h
  revert this
  generalize relocate ⟨env, so, o, xc, cl, sol⟩ cat = x
  generalize relocate ⟨env, so, o, xc', cl', sol⟩ cat' = y
  intro g
  cases g with
  | ok g => exact g
  | throws => trivial
  | ub => trivial

/-- **C132** Relocating a whole catalog relocates every part of it that shares no cluster with the rest as if the part was all there
is: if the whole is relocated, so is the part alone, with its clusters and the correlation results of its pairs; each of its events
then comes out the same with the same picks, and the correlation results of its pairs are the same.  The clusters may be in any
order.  Correlating the same waveforms again must give the same, the solver must not depend on earlier clusters, and the catalogs are
not marked by an earlier relocation. -/
theorem part_alone {m : MultiArgs K} (hx : ∀ i j, m.x.correlate i = m.x.correlate j) (hsol : ∀ i j, m.sol i = m.sol j)
    {bg bg' : Catalog K} (hs : bg.Sound) (hs' : bg'.Sound) (hn : NoAt bg) (hnew : ∀ k, ¬ Marked bg k) (hnew' : ∀ k, ¬ Marked bg' k)
    (h : AgreeOn S bg bg') (hlive : ∃ k, S k = true ∧ (bg.events.find? k).isSome = true) {cls : List Cluster} (hc : GoodClusters cls)
    (hsplit : Split S cls) {data data' : Cache} {f f' : XCorrSpec.View} (hd : History data f) (hd' : History data' f')
    (hdata : SameResultsOn S data data') {t : MultiState K} (ht : relocateMultiEvents m bg cls data = .ok t) :
    ∃ t', relocateMultiEvents m bg' (ofPart S cls) data' = .ok t' ∧
      (∀ k, t'.reloc.events.find? k = if S k then t.reloc.events.find? k else none) ∧
      (∀ k, t'.reloc.phasesOf k = if S k then t.reloc.phasesOf k else []) ∧
      SameResultsOn S t.xcorrData t'.xcorrData := by
  obtain ⟨t', h1, h2⟩ := multi_part hx hsol hs hs' hn hnew hnew' h hlive cls hc hsplit ⟨Catalog.init, data, [], []⟩
    ⟨Catalog.init, data', [], []⟩ t ⟨init_sound, init_sound, fun _ _ => rfl, fun _ _ => rfl, fun _ _ => rfl, hdata, hd.inv.1, hd.inv.2,
      hd'.inv.1, hd'.inv.2⟩ ht
  have hev : ∀ k, t'.reloc.events.find? k = if S k then t.reloc.events.find? k else none := by
    intro k
    by_cases hk : S k = true
    · rw [if_pos hk, h2.events k hk]
    · rw [if_neg hk, h2.only k (by simpa using hk)]
  refine ⟨t', h1, hev, fun k => ?_, h2.data⟩
  by_cases hk : S k = true
  · rw [if_pos hk, h2.phases k hk]
  · rw [if_neg hk]
    exact Catalog.phasesOf_of_no_event h2.sound' (h2.only k (by simpa using hk))

/-- **C132** The clusters that are found share none between the part and the rest if no event of the part is a neighbour of an event
of the rest nor the other way round. -/
theorem found_clusters_split {G : AMap Nat Neighbours} (hG : Clusters.WF G) (pick : Clusters.Pick) {res : List (AMap Nat Neighbours)}
    (h : Clusters.clusterize pick G = .ok res) (hcross : ∀ a b, Clusters.Lists G a b → S a = S b)
    (order : AMap Nat Neighbours → List (Nat × Neighbours)) (ho : ∀ m, (order m).Perm m) : Split S (res.map order) := by
  obtain ⟨r1, g1, hperm, hne, hlink⟩ := Clusters.clusters_are_components G hG pick
  obtain ⟨r2, g2, -, -, hkeep⟩ := Clusters.pairs_used_once G hG pick
  obtain rfl : res = r1 := by rw [h] at g1; cases g1; rfl
  obtain rfl : res = r2 := by rw [h] at g2; cases g2; rfl
  have hS : ∀ a b, Clusters.Linked G a b → S a = S b := by
    intro a b hab
    induction hab with
    | rel a b hab => exact hcross a b hab.2
    | refl a => rfl
    | symm a b _ ih => exact ih.symm
    | trans a b c _ _ i1 i2 => exact i1.trans i2
  intro cl hcl
  obtain ⟨c, hc, rfl⟩ := List.mem_map.1 hcl
  obtain ⟨⟨a, na⟩, rest, hcons⟩ := List.exists_cons_of_ne_nil (hne c hc)
  have hsub : ∀ k ∈ c.keys, k ∈ G.keys := fun k hk => hperm.mem_iff.1 (List.mem_flatMap.2 ⟨c, hc, hk⟩)
  have hnd : c.NodupKeys := by
    have : (res.flatMap (fun c => c.keys)).Nodup := hperm.nodup_iff.2 hG.unique
    exact (List.nodup_flatMap.1 this).1 c hc
  have ha : a ∈ c.keys := by rw [hcons]; simp
  have hall : ∀ kv ∈ order c, S kv.1 = S a ∧ kv.2.refId = kv.1 ∧ ∀ n ∈ kv.2.ids, S n = S a := by
    rintro ⟨k, n⟩ hkv
    have hmem : (k, n) ∈ c := (ho c).mem_iff.1 hkv
    have hk : k ∈ c.keys := AMap.mem_keys_of_mem hmem
    have hka : S k = S a := hS k a ((hlink k (hsub k hk) a (hsub a ha)).1 ⟨c, hc, hk, ha⟩)
    obtain ⟨q1, q2⟩ := hkeep c hc k n (AMap.find?_of_mem hnd hmem)
    refine ⟨hka, q1, fun b hb => ?_⟩
    obtain ⟨phs, hphs⟩ := Option.isSome_iff_exists.1 (AMap.find?_isSome.2 (show b ∈ n.nbs.keys from hb))
    obtain ⟨m, hm, hmb⟩ := q2 b phs hphs
    rw [← hka]
    exact (hcross k b ⟨m, hm, AMap.mem_keys_of_find? hmb⟩).symm
  cases hSa : S a with
  | true =>
    left
    intro kv hkv
    obtain ⟨q1, q2, q3⟩ := hall kv hkv
    exact ⟨q1.trans hSa, by rw [q2]; exact q1.trans hSa, fun n hn => (q3 n hn).trans hSa⟩
  | false =>
    right
    refine ⟨fun hnil => ?_, fun kv hkv => ?_⟩
    · have := (ho c).length_eq
      rw [hnil, hcons] at this
      simp at this
    · obtain ⟨q1, q2, q3⟩ := hall kv hkv
      refine ⟨by simp [q1, hSa], by simp [q2, q1, hSa], fun n hn => by simp [q3 n hn, hSa]⟩

/-! ## Concrete cases -/

namespace Example

/-- events 1 and 2 -/
def firstTwo (k : Nat) : Bool := k = 1 || k = 2

/-- correlations do not depend on when they are made, the solver moves events 1 and 3 in every cluster -/
def margsS : MultiArgs ℚ :=
  { margs with
    x := { xargs with correlate := fun _ _ _ _ _ => .ok ⟨true, 3/4, 1⟩ }
    sol := fun _ => ⟨fun _ _ _ _ => .ok (), fun _ _ _ => some ⟨fun j => if j = 1 ∨ j = 3 then some ⟨0, 1, 0, 1⟩ else none, fun _ _ _ => true⟩⟩ }

theorem agree4 : AgreeOn firstTwo cat4 cat := by
  refine ⟨fun k hk => ?_, fun k hk => ?_, fun s => ?_⟩
  · simp only [firstTwo, Bool.or_eq_true, decide_eq_true_eq] at hk
    rcases hk with rfl | rfl <;> decide +kernel
  · simp only [firstTwo, Bool.or_eq_true, decide_eq_true_eq] at hk
    rcases hk with rfl | rfl <;> decide +kernel
  · rfl

theorem split4 : Split firstTwo clusters4 := by
  intro cl hcl
  simp only [clusters4, List.mem_cons, List.not_mem_nil, or_false] at hcl
  rcases hcl with rfl | rfl
  · left; unfold Within; decide
  · right; exact ⟨by simp, by unfold Within; decide⟩

theorem unmarked_of {c : Catalog ℚ} (h : ∀ kv ∈ c.events, kv.2.isRelocated = false) (k : Nat) : ¬ Marked c k := by
  rintro ⟨e, he, hr⟩
  rw [h (k, e) (AMap.mem_of_find? he)] at hr
  cases hr

/-- the hypotheses of `part_alone` hold for the catalog of four events, of which the first two are a part -/
example : ∃ t t', relocateMultiEvents margsS cat4 clusters4 known = .ok t ∧
    relocateMultiEvents margsS cat [[(1, nb), (2, nb2)]] [] = .ok t' ∧ t'.reloc.phasesOf 1 = t.reloc.phasesOf 1 := by
  obtain ⟨t, ht⟩ : ∃ t, relocateMultiEvents margsS cat4 clusters4 known = .ok t := by
    have h : (multi (relocateMultiEvents margsS cat4 clusters4 known)).isSome = true := by decide +kernel
    cases hx : relocateMultiEvents margsS cat4 clusters4 known with
    | ok t => exact ⟨t, rfl⟩
    | throws => rw [hx] at h; cases h
    | ub => rw [hx] at h; cases h
  have hk : SameResultsOn firstTwo known [] := by
    intro a b ha hb hne s p
    simp only [firstTwo, Bool.or_eq_true, decide_eq_true_eq] at ha hb
    unfold known
    rw [XCorr.get_add (History.new.inv.1) _ _ _ _ _ hne]
    unfold XCorrSpec.View.record
    rw [if_neg (c := a = 4 ∧ b = 3) (by omega), if_neg (c := a = 3 ∧ b = 4) (by omega), ite_self]
  obtain ⟨t', h1, h2, h3, h4⟩ := part_alone (S := firstTwo) (m := margsS) (fun _ _ => rfl) (fun _ _ => rfl) cat4_sound cat_sound cat4_noAt
    (unmarked_of (by decide +kernel)) (unmarked_of (by decide +kernel)) agree4 ⟨1, rfl, by decide +kernel⟩ clusters4_good split4
    (.add .new _ _ _ _ _) .new hk ht
  exact ⟨t, t', ht, h1, by rw [h3]; rfl⟩

/-- what comes out: the whole moves events 1 and 3, the part event 1, to the same place -/
example : (multi (relocateMultiEvents margsS cat4 clusters4 known)).map (·.evs) =
      some [⟨3, 41, 31000000, true⟩, ⟨1, 47, 11000000, true⟩] ∧
    (multi (relocateMultiEvents margsS cat [[(1, nb), (2, nb2)]] [])).map (·.evs) = some [⟨1, 47, 11000000, true⟩] := by
  decide +kernel

end Example
end Verif.Relocate
