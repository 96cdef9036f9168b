import Verif.Proofs.XCorrReuse
import Verif.Props.XCorrFile
import Verif.Spec.ClusterFiles
import Verif.Proofs.ClusterRelocation

/-!
# C100: correlation results saved by one run and given to the next
-/

set_option linter.unusedSimpArgs false

namespace Verif.Relocate
open Verif.Catalog Verif.XCorr Verif.Decimal.Spec
open Verif.ClusterFiles (Printable Plain)

variable {K : Type} [Field K] [LinearOrder K]

/-- the result can be written -/
theorem result_writable {bg : Catalog K} (hs : bg.Sound) (hp : Printable bg) {x : XcorrArgs K} {i : Nat} {c : XcorrCall K}
    (h : GoodCall x bg i c) : XCorrFile.Writable bg.stations c.refEv.id c.ev.id c.refPhase.stationId c.refPhase.type := by
  have hph := Catalog.mem_phasesOf.1 h.refPick
  obtain ⟨sta, hst⟩ := Option.isSome_iff_exists.1 (hs.phaseStation _ hph)
  obtain ⟨q1, q2⟩ := hs.stationKey _ _ hst
  obtain ⟨p1, p2, p3⟩ := hp.stations _ _ hst
  exact ⟨⟨sta, hst, q1, q2, p1, p2, p3⟩, hp.phases _ hph, (hs.eventKey _ _ h.ref).2, (hs.eventKey _ _ h.ev).2⟩

theorem Writable.swap {stations : AMap String (Station K)} {a b : Nat} {s p : String} (h : XCorrFile.Writable stations a b s p) :
    XCorrFile.Writable stations b a s p := ⟨h.station, h.phase, h.event2, h.event1⟩

/-- **C100.** The correlation results of a run can be written to a file and read, whatever the order in which they are visited.
A later run of the same catalog with this file, with the same distance limits, in which no cluster wants a pair that the first
run did not want, correlates nothing: whatever its correlations would have given, it uses the results of the first run, with
coefficient and lag rounded to six decimals, for every pair and from either side.  (`hb`: the coefficients and lags of the first
run are doubles; `10^308` is somewhat below the largest one.) -/
theorem saved_results_reused {m m' : MultiArgs K} {f : Nat → Event K → Phase K → Event K → Phase K → Outcome Entry}
    (hm : m'.x = { m.x with correlate := f }) {bg : Catalog K} (hs : bg.Sound) (hn : NoAt bg) (hp : Printable bg)
    {cls cls' : List Cluster} (hc : GoodClusters cls) (hc' : GoodClusters cls')
    (hw : ∀ cl' ∈ cls', ∀ a b sp, Wanted m.x bg cl' a b sp → ∃ cl ∈ cls, Wanted m.x bg cl a b sp) {t : MultiState K}
    (h : relocateMultiEvents m bg cls [] = .ok t)
    (hb : ∀ i e p e' p' r, m.x.correlate i e p e' p' = .ok r → |r.coeff| ≤ 10 ^ 308 ∧ |r.lag| ≤ 10 ^ 308) (rnd : ℚ → ℚ) (hrnd : ∀ x, rnd (-x) = -rnd x) (order : List XCorrFile.Row)
    (ho : order.Perm (forEach t.xcorrData)) :
    ∃ text r, XCorrFile.writeEntries bg.stations order = .ok text ∧ XCorrFile.readEntries rnd bg.stations text = .ok r ∧
      ∀ t', relocateMultiEvents m' bg cls' r = .ok t' → t'.calls = [] ∧
        ∀ a b s p v cc lag, a ≠ b → XCorr.get t.xcorrData a b s p = some ⟨v, cc, lag⟩ →
          ∃ cc' lag', Nearest 6 cc cc' ∧ Nearest 6 lag lag' ∧ XCorr.get t'.xcorrData a b s p = some ⟨v, rnd cc', rnd lag'⟩ := by
  have hres := run_results hs History.new (fun cl hcl => (hc cl hcl).2.1) h
  obtain ⟨g, hg⟩ := hres.history
  obtain ⟨-, -, h3, -, h5, h6⟩ := multi_event_correlations hs hn History.new hc h
  have hwr : ∀ a b s p, XCorr.get t.xcorrData a b s p ≠ none → XCorrFile.Writable bg.stations a b s p := by
    intro a b s p hne
    obtain ⟨e, he⟩ := Option.ne_none_iff_exists'.1 hne
    have hab : a ≠ b := by
      rintro rfl
      unfold XCorr.get at hne
      rw [hres.self (by intro a s p; rfl)] at hne
      exact hne rfl
    obtain ⟨c, hcc, h7⟩ := h6 a b (s, p) e hab he rfl
    obtain ⟨i, hi⟩ := List.mem_iff_getElem?.1 hcc
    have := result_writable hs hp (h3 i c hi)
    rcases h7 with ⟨rfl, rfl, h8, -⟩ | ⟨rfl, rfl, h8, -⟩
    · cases h8; exact this
    · cases h8; exact Writable.swap this
  have hbv : ∀ a b s p v cc lag, XCorr.get t.xcorrData a b s p = some ⟨v, cc, lag⟩ → |cc| ≤ 10 ^ 308 ∧ |lag| ≤ 10 ^ 308 := by
    intro a b s p v cc lag he
    have hab : a ≠ b := by
      rintro rfl
      unfold XCorr.get at he
      rw [hres.self (by intro a s p; rfl)] at he
      cases he
    obtain ⟨c, hcc, h7⟩ := h6 a b (s, p) _ hab he rfl
    obtain ⟨i, hi⟩ := List.mem_iff_getElem?.1 hcc
    have hr := hb _ _ _ _ _ _ (h3 i c hi).answer
    rcases h7 with ⟨-, -, -, h8⟩ | ⟨-, -, -, h8⟩
    · rw [h8] at hr; exact hr
    · rw [h8] at hr
      simpa using hr
  obtain ⟨text, r, k1, k2, k3⟩ := XCorrFile.xcorr_file_round_trip rnd hrnd bg.stations hg hwr hbv order ho
  refine ⟨text, r, k1, k2, ?_⟩
  intro t' ht'
  obtain ⟨fr, hfr⟩ : ∃ f, History r f := ClusterFiles.readEntries_inv rnd k2
  obtain ⟨-, l2, l3, l4, -, -⟩ := multi_event_correlations hs hn hfr hc' ht'
  refine ⟨?_, ?_⟩
  · rw [List.eq_nil_iff_forall_not_mem]
    intro c hcc
    have hnone := l2 c hcc
    obtain ⟨hen, cl', hcl', hwant⟩ := (run_results hs hfr (fun cl hcl => (hc' cl hcl).2.1) ht').wanted c hcc
    have hW : ∀ a b sp, Wanted m'.x bg cl' a b sp → Wanted m.x bg cl' a b sp := by
      intro a b sp hh
      unfold Wanted at hh ⊢
      rw [hm] at hh
      exact hh
    have hen' : m.x.enable = true := by rw [hm] at hen; exact hen
    -- a pair wanted by the first run has a result, which is in the file
    have hgot : ∀ a b sp, a ≠ b → Wanted m'.x bg cl' a b sp → XCorr.get r a b sp.1 sp.2 ≠ none := by
      intro a b sp hab hh
      obtain ⟨cl, hcl, hh⟩ := hw cl' hcl' a b sp (hW a b sp hh)
      have hhas := h5 hen' cl hcl a b sp hh
      unfold XCorr.has at hhas
      obtain ⟨e, he⟩ := Option.isSome_iff_exists.1 hhas
      obtain ⟨cc', lag', -, -, e3⟩ := (k3 a b sp.1 sp.2 hab).2 e.valid e.coeff e.lag he
      rw [e3]
      simp
    have hne : c.refEv.id ≠ c.ev.id := by
      intro e
      have hsame : ∀ a sp, ¬ Wanted m'.x bg cl' a a sp := by
        rintro a sp ⟨kv, hkv, h1, -, -, -, -, -, -, -, -, -, -, h2, -⟩
        rw [← h1] at h2
        exact (hc' cl' hcl').2.1 kv hkv h2
      rw [e] at hwant
      exact hwant.elim (hsame _ _) (hsame _ _)
    rcases hwant with hwant | hwant
    · exact hgot _ _ _ hne hwant hnone
    · apply hgot _ _ _ (Ne.symm hne) hwant
      rw [get_symm hfr.inv.1 c.refEv.id c.ev.id, hnone]
      rfl
  · intro a b s p v cc lag hab he
    obtain ⟨cc', lag', e1, e2, e3⟩ := (k3 a b s p hab).2 v cc lag he
    exact ⟨cc', lag', e1, e2, l4 a b (s, p) _ hab e3⟩

/-! ## Concrete cases -/

namespace ReuseExample
open Example

theorem printable : Printable cat4 := by
  refine ⟨?_, ?_⟩
  · intro id s h
    have := AMap.mem_of_find? h
    have hall : ∀ x ∈ cat4.stations, (∀ c ∈ x.2.networkCode.toList, c ≠ ',' ∧ c ≠ '"' ∧ c ≠ '\n' ∧ c ≠ '\r') ∧
      (∀ c ∈ x.2.stationCode.toList, c ≠ ',' ∧ c ≠ '"' ∧ c ≠ '\n' ∧ c ≠ '\r') ∧
      (∀ c ∈ x.2.locationCode.toList, c ≠ ',' ∧ c ≠ '"' ∧ c ≠ '\n' ∧ c ≠ '\r') := by decide +kernel
    exact hall _ this
  · unfold Plain
    decide +kernel

/-- correlations whose coefficient has more than six decimals -/
def first : MultiArgs ℚ := { margs with x := { margs.x with correlate := fun _ _ _ _ _ => .ok ⟨true, 7654321/10000000, 1⟩ } }
/-- correlations that would throw -/
def second : MultiArgs ℚ := { margs with x := { margs.x with correlate := fun _ _ _ _ _ => .throws } }

/-- the first run correlates both pairs -/
theorem first_runs : ∃ t, relocateMultiEvents first cat4 clusters4 [] = .ok t ∧ t.calls.length = 2 ∧
    XCorr.get t.xcorrData 1 2 "N.A." "Pg" = some ⟨true, 7654321/10000000, 1⟩ := by
  have h : (match relocateMultiEvents first cat4 clusters4 [] with
    | .ok t => decide (t.calls.length = 2 ∧ XCorr.get t.xcorrData 1 2 "N.A." "Pg" = some ⟨true, 7654321/10000000, 1⟩)
    | _ => false) = true := by decide +kernel
  split at h
  · rename_i t ht
    exact ⟨t, ht, of_decide_eq_true h⟩
  · cases h

/-- the hypotheses hold: first run of both clusters, second run of the second one alone with correlations that would throw -/
example : ∃ t text r, relocateMultiEvents first cat4 clusters4 [] = .ok t ∧
    XCorrFile.writeEntries cat4.stations (forEach t.xcorrData) = .ok text ∧ XCorrFile.readEntries id cat4.stations text = .ok r ∧
    ∀ t', relocateMultiEvents second cat4 [clusters4[1]] r = .ok t' → t'.calls = [] := by
  obtain ⟨t, ht, -⟩ := first_runs
  obtain ⟨text, r, h1, h2, h3⟩ := saved_results_reused (m := first) (m' := second) rfl cat4_sound cat4_noAt printable clusters4_good
    (cls' := [clusters4[1]]) (fun cl h => clusters4_good cl (by rw [List.mem_singleton] at h; subst h; decide))
    (fun cl' h a b sp hw => ⟨cl', by rw [List.mem_singleton] at h; subst h; decide, hw⟩) ht (by
      intro i e p e' p' r hr
      cases hr
      decide +kernel) id (fun _ => rfl)
    (forEach t.xcorrData) (List.Perm.refl _)
  exact ⟨t, text, r, ht, h1, h2, fun t' ht' => (h3 t' ht').1⟩

/-- and that second run succeeds: it moves event 3, and has the rounded result of the other pair -/
example : ((relocateMultiEvents first cat4 clusters4 []).bind (fun t => (XCorrFile.writeEntries cat4.stations (forEach t.xcorrData)).bind
    (fun text => (XCorrFile.readEntries id cat4.stations text).bind (fun r => relocateMultiEvents second cat4 [clusters4[1]] r)))).map
      (fun t' => (t'.calls.length, XCorr.get t'.xcorrData 1 2 "N.A." "Pg")) = .ok (0, some ⟨true, 765432/1000000, 1⟩) := by
  decide +kernel

/-- without the file the second run fails: the results were needed -/
example : (relocateMultiEvents second cat4 [clusters4[1]] []).map (fun t' => t'.calls.length) = .throws := by decide +kernel

end ReuseExample

end Verif.Relocate
