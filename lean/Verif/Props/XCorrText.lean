import Verif.Proofs.CatalogText
import Verif.Props.XCorrFile

/-!
# C74: what a cross-correlation file means
-/

set_option linter.unusedSimpArgs false

namespace Verif.XCorrFile
open Verif.Csv Verif.Catalog Verif.XCorr Verif.PairFile Verif.Decimal Verif.NumberSpec Verif.CatalogFile.Spec Verif.CatalogFile
variable {D : Type}

/-- the row describes a result for a station of the catalog -/
structure EntryRow (rnd : ℚ → ℚ) (stations : AMap String (Station D)) (row : TableRow) (x : Row) : Prop where
  event1 : IdCell row "eventId1" x.1
  event2 : IdCell row "eventId2" x.2.1
  station : ∃ net sta loc s, TextCell row "networkCode" net ∧ TextCell row "stationCode" sta ∧ TextCell row "locationCode" loc ∧
    stations.find? (net ++ "." ++ sta ++ "." ++ loc) = some s ∧ s.id = x.2.2.1
  phase : TextCell row "phaseType" x.2.2.2.1
  valid : ∃ s, Cell row "valid" s ∧ (x.2.2.2.2.valid = true ↔ Yes s)
  coeff : NumberCell rnd row "coefficient" (.num x.2.2.2.2.coeff)
  lag : NumberCell rnd row "lag" (.num x.2.2.2.2.lag)

theorem number_iff {rnd : ℚ → ℚ} {s : Str} {x : ℚ} : number rnd s = .ok x ↔ Number rnd s (.num x) := by
  rw [← stod_iff]
  unfold number
  cases h : stod rnd s with
  | throws => simp
  | ub => simp
  | ok v => cases v <;> simp

theorem readEntry_iff {rnd : ℚ → ℚ} {stations : AMap String (Station D)} {c c' : Cache} {row : TableRow} :
    readEntry rnd stations c row = .ok c' ↔ ∃ x : Row, EntryRow rnd stations row x ∧ c' = add c x.1 x.2.1 x.2.2.1 x.2.2.2.1 x.2.2.2.2 := by
  unfold readEntry
  simp only [bind_iff, bind_iff', stoul_iff, column_iff, number_iff]
  constructor
  · rintro ⟨e1, h1, e2, h2, n, h3, s, h4, l, h5, p, h6, v, h7, cc, ⟨t8, h8, h8'⟩, la, ⟨t9, h9, h9'⟩, h⟩
    cases hf : stations.find? (Catalog.stationIdOf (String.ofList n) (String.ofList s) (String.ofList l)) with
    | none => rw [hf] at h; cases h
    | some st =>
      rw [hf] at h
      cases h
      obtain ⟨t, ht, hv⟩ : ∃ t, column row "valid" = .ok t ∧ strToBool t = v := by
        cases hc : column row "valid" with
        | ok t => rw [hc] at h7; cases h7; exact ⟨t, rfl, rfl⟩
        | throws => rw [hc] at h7; cases h7
        | ub => rw [hc] at h7; cases h7
      refine ⟨(e1, e2, st.id, String.ofList p, ⟨v, cc, la⟩), ⟨h1, h2, ?_, text_of h6, ⟨t, column_iff.1 ht, ?_⟩, ⟨t8, h8, h8'⟩,
        ⟨t9, h9, h9'⟩⟩, rfl⟩
      · exact ⟨_, _, _, st, text_of h3, text_of h4, text_of h5, hf, rfl⟩
      · rw [← strToBool_iff, hv]
  · rintro ⟨⟨e1, e2, sid, p, v, cc, la⟩, ⟨h1, h2, ⟨n, s, l, st, h3, h4, h5, hf, hid⟩, h6, ⟨t, h7, hv⟩, ⟨t8, h8, h8'⟩, ⟨t9, h9, h9'⟩⟩, rfl⟩
    refine ⟨e1, h1, e2, h2, _, h3, _, h4, _, h5, _, h6, v, ?_, cc, ⟨t8, h8, h8'⟩, la, ⟨t9, h9, h9'⟩, ?_⟩
    · rw [column_iff.2 h7]
      show Outcome.ok (strToBool t) = .ok v
      rw [← strToBool_iff] at hv
      congr 1
      exact (Bool.eq_iff_iff.2 hv).symm
    · simp only [String.ofList_toList]
      rw [show Catalog.stationIdOf n s l = n ++ "." ++ s ++ "." ++ l from rfl, hf]
      simp only at hid
      rw [← hid]

theorem readRows_iff {rnd : ℚ → ℚ} {stations : AMap String (Station D)} (rows : List TableRow) (c c' : Cache) :
    readRows rnd stations rows c = .ok c' ↔ ∃ xs, List.Forall₂ (EntryRow rnd stations) rows xs ∧
      c' = xs.foldl (fun c x => add c x.1 x.2.1 x.2.2.1 x.2.2.2.1 x.2.2.2.2) c := by
  induction rows generalizing c with
  | nil =>
    rw [readRows]
    constructor
    · intro h; cases h; exact ⟨[], .nil, rfl⟩
    · rintro ⟨xs, h, rfl⟩; cases h; rfl
  | cons row rows ih =>
    rw [readRows]
    cases hr : readEntry rnd stations c row with
    | ok c1 =>
      simp only
      rw [ih]
      constructor
      · rintro ⟨xs, h, rfl⟩
        obtain ⟨x, hx, rfl⟩ := readEntry_iff.1 hr
        exact ⟨x :: xs, .cons hx h, rfl⟩
      · rintro ⟨_, h, rfl⟩
        cases h with
        | @cons _ x _ xs hx h =>
          have := (readEntry_iff (c := c)).2 ⟨x, hx, rfl⟩
          rw [hr] at this
          cases this
          exact ⟨xs, h, rfl⟩
    | throws =>
      refine ⟨fun h => (by cases h), ?_⟩
      rintro ⟨_, h, rfl⟩
      cases h with
      | cons hx _ => rw [(readEntry_iff (c := c)).2 ⟨_, hx, rfl⟩] at hr; cases hr
    | ub =>
      refine ⟨fun h => (by cases h), ?_⟩
      rintro ⟨_, h, rfl⟩
      cases h with
      | cons hx _ => rw [(readEntry_iff (c := c)).2 ⟨_, hx, rfl⟩] at hr; cases hr

/-- **C74** A cross-correlation file is read without error exactly when each of its rows describes a result for a station of
the catalog; the outcome is what adding these results one after the other gives. -/
theorem xcorr_file_meaning (rnd : ℚ → ℚ) (stations : AMap String (Station D)) (text : Str) (c : Cache) :
    readEntries rnd stations text = .ok c ↔ ∃ rows xs, readWithHeader text = .ok rows ∧
      List.Forall₂ (EntryRow rnd stations) rows xs ∧
      c = xs.foldl (fun c x => add c x.1 x.2.1 x.2.2.1 x.2.2.2.1 x.2.2.2.2) [] := by
  unfold readEntries
  cases h : readWithHeader text with
  | ok rows =>
    simp only [readRows_iff]
    constructor
    · rintro ⟨xs, h1, h2⟩; exact ⟨rows, xs, rfl, h1, h2⟩
    · rintro ⟨rows', xs, h0, h1, h2⟩; cases h0; exact ⟨xs, h1, h2⟩
  | throws => simp
  | ub => simp

namespace Example

example : (readEntries id stations ("eventId2,eventId1,phaseType,networkCode,stationCode,locationCode,coefficient,lag,valid\n" ++
    "2,1,P,N,B,,.75, -1e-1,TRUE\n3,1,P,N,B,,.75, -1e-1,yes\n").toList).map (fun r => [XCorr.get r 1 2 "N.B." "P", XCorr.get r 1 3 "N.B." "P"]) =
    .ok [some ⟨true, 3/4, -1/10⟩, some ⟨false, 3/4, -1/10⟩] := by decide +kernel

end Example
end Verif.XCorrFile
