import Verif.Model.XCorrFile
import Verif.Proofs.CsvFile
import Verif.Proofs.Decimal
import Verif.Props.XCorrCache

/-!
# C74: cross-correlation files
-/

set_option linter.unusedSimpArgs false

namespace Verif.XCorrFile
open Verif.Csv Verif.Catalog Verif.XCorr Verif.PairFile Verif.Decimal Verif.CsvFile Verif.Decimal.Spec
variable {D : Type}

/-- one result: the two events, the station, the phase type and the values -/
abbrev Row := Nat × Nat × String × String × Entry

/-- the result can be written: its station is known, under the id made of its codes, the texts can be fields
of the file, and the events have 32-bit ids -/
structure Writable (stations : AMap String (Station D)) (a b : Nat) (s p : String) : Prop where
  station : ∃ sta, stations.find? s = some sta ∧ sta.id = s ∧
    Catalog.stationIdOf sta.networkCode sta.stationCode sta.locationCode = s ∧
    Clean sta.networkCode.toList ∧ Clean sta.stationCode.toList ∧ Clean sta.locationCode.toList
  phase : Clean p.toList
  event1 : a < PairFile.uintMod
  event2 : b < PairFile.uintMod

/-- the fields of the row of a result -/
def fieldsOf (stations : AMap String (Station D)) (x : Row) : List Str :=
  match stations.find? x.2.2.1 with
  | none => []
  | some sta => [decimal x.1, decimal x.2.1, sta.networkCode.toList, sta.stationCode.toList,
      sta.locationCode.toList, x.2.2.2.1.toList, (if x.2.2.2.2.valid then "true" else "false").toList,
      fixedText 6 x.2.2.2.2.coeff, fixedText 6 x.2.2.2.2.lag]

/-- the values as they are read back -/
def readBack (rnd : ℚ → ℚ) (e : Entry) : Entry := ⟨e.valid, rnd (fixedValue 6 e.coeff), rnd (fixedValue 6 e.lag)⟩

theorem clean_bool (v : Bool) : Clean (if v then "true" else "false").toList := by
  cases v <;> (unfold Clean; decide)

theorem entryRow_ok {stations : AMap String (Station D)} {x : Row} (h : Writable stations x.1 x.2.1 x.2.2.1 x.2.2.2.1) :
    entryRow stations x = .ok (fieldsOf stations x) ∧ CleanRow (fieldsOf stations x) := by
  obtain ⟨sta, h1, -, -, h4, h5, h6⟩ := h.station
  unfold entryRow fieldsOf
  rw [h1]
  refine ⟨rfl, by simp, ?_⟩
  intro f hf
  simp only [List.mem_cons, List.not_mem_nil, or_false] at hf
  rcases hf with rfl | rfl | rfl | rfl | rfl | rfl | rfl | rfl | rfl
  · exact clean_decimal _
  · exact clean_decimal _
  · exact h4
  · exact h5
  · exact h6
  · exact h.phase
  · exact clean_bool _
  · exact clean_fixed _ _
  · exact clean_fixed _ _

theorem number_fixed (rnd : ℚ → ℚ) {n : Nat} (hn : n ≤ 300) {x : ℚ} (hx : |x| ≤ 10 ^ 308) :
    number rnd (fixedText n x) = .ok (rnd (fixedValue n x)) := by
  unfold number
  rw [fixed_read rnd hn hx]

theorem strToBool_text (v : Bool) : strToBool (if v then "true" else "false").toList = v := by
  cases v <;> decide

theorem readEntry_row (rnd : ℚ → ℚ) {stations : AMap String (Station D)} {x : Row}
    (h : Writable stations x.1 x.2.1 x.2.2.1 x.2.2.2.1) (hv : |x.2.2.2.2.coeff| ≤ 10 ^ 308 ∧ |x.2.2.2.2.lag| ≤ 10 ^ 308) (c : Cache) :
    readEntry rnd stations c (formatRow header (fieldsOf stations x)) =
      .ok (add c x.1 x.2.1 x.2.2.1 x.2.2.2.1 (readBack rnd x.2.2.2.2)) := by
  obtain ⟨sta, h1, h2, h3, -⟩ := h.station
  have hf : fieldsOf stations x = [decimal x.1, decimal x.2.1, sta.networkCode.toList, sta.stationCode.toList,
      sta.locationCode.toList, x.2.2.2.1.toList, (if x.2.2.2.2.valid then "true" else "false").toList,
      fixedText 6 x.2.2.2.2.coeff, fixedText 6 x.2.2.2.2.lag] := by unfold fieldsOf; rw [h1]
  have hc := fun (i : Nat) name hi => find_column (header := header) (by decide) (fieldsOf stations x) i name hi
  rw [hf] at hc ⊢
  unfold readEntry
  rw [hc 0 "eventId1" rfl, hc 1 "eventId2" rfl, hc 2 "networkCode" rfl, hc 3 "stationCode" rfl,
    hc 4 "locationCode" rfl, hc 5 "phaseType" rfl, hc 6 "valid" rfl, hc 7 "coefficient" rfl, hc 8 "lag" rfl]
  simp only [List.getD_cons_zero, List.getD_cons_succ, Outcome.bind, Outcome.map]
  rw [stoul_decimal _ h.event1, stoul_decimal _ h.event2, number_fixed rnd (by omega) hv.1, number_fixed rnd (by omega) hv.2, strToBool_text]
  show (match stations.find? (Catalog.stationIdOf (String.ofList sta.networkCode.toList) (String.ofList sta.stationCode.toList)
      (String.ofList sta.locationCode.toList)) with
    | none => Outcome.ub
    | some station => _) = _
  simp only [String.ofList_toList]
  rw [h3, h1]
  simp only [h2]
  rfl

theorem readRows_spec (rnd : ℚ → ℚ) {stations : AMap String (Station D)} : ∀ (l : List Row) (c : Cache),
    (∀ x ∈ l, Writable stations x.1 x.2.1 x.2.2.1 x.2.2.2.1) →
    (∀ x ∈ l, |x.2.2.2.2.coeff| ≤ 10 ^ 308 ∧ |x.2.2.2.2.lag| ≤ 10 ^ 308) →
    readRows rnd stations ((l.map (fieldsOf stations)).map (formatRow header)) c =
      .ok ((l.map (fun x => (x.1, x.2.1, x.2.2.1, x.2.2.2.1, readBack rnd x.2.2.2.2))).foldl
        (fun c x => add c x.1 x.2.1 x.2.2.1 x.2.2.2.1 x.2.2.2.2) c)
  | [], _, _, _ => rfl
  | x :: l, c, h, hv => by
    simp only [List.map_cons, List.foldl_cons]
    unfold readRows
    rw [readEntry_row rnd (h x (by simp)) (hv x (by simp)) c]
    exact readRows_spec rnd l _ (fun y hy => h y (by simp [hy])) (fun y hy => hv y (by simp [hy]))

theorem fixedValue_neg (n : Nat) (x : ℚ) : fixedValue n (-x) = -fixedValue n x := by
  unfold fixedValue
  rw [abs_neg]
  rcases lt_trichotomy x 0 with h | h | h
  · simp [h, not_lt.2 (neg_pos.2 h).le]
  · subst h
    have : roundEven 0 = 0 := by have := roundEven_nat 0; simpa using this
    simp [this]
  · simp [h, not_lt.2 h.le]

/-- **C74** Every cross-correlation cache a program can build is written to a file without error, whatever the order
in which its entries are visited (`10^308` is somewhat below the largest double), and reading that file gives for every pair of distinct events, station and phase the
same result: none if there was none, otherwise the same validity and the coefficient and the lag rounded to six
decimals (and then to the nearest double, `rnd`), from either side of the pair. -/
theorem xcorr_file_round_trip (rnd : ℚ → ℚ) (hrnd : ∀ x, rnd (-x) = -rnd x) (stations : AMap String (Station D))
    {c : Cache} {f : XCorrSpec.View} (h : History c f)
    (hw : ∀ a b s p, get c a b s p ≠ none → Writable stations a b s p)
    (hv : ∀ a b s p v cc lag, get c a b s p = some ⟨v, cc, lag⟩ → |cc| ≤ 10 ^ 308 ∧ |lag| ≤ 10 ^ 308)
    (order : List Row) (ho : order.Perm (forEach c)) :
    ∃ text r, writeEntries stations order = .ok text ∧ readEntries rnd stations text = .ok r ∧
      ∀ a b s p, a ≠ b →
        (get c a b s p = none → get r a b s p = none) ∧
        ∀ v cc lag, get c a b s p = some ⟨v, cc, lag⟩ → ∃ cc' lag', Nearest 6 cc cc' ∧ Nearest 6 lag lag' ∧
          get r a b s p = some ⟨v, rnd cc', rnd lag'⟩ := by
  obtain ⟨hd, hu⟩ := h.inv
  have hmem : ∀ a b s p e, (a, b, s, p, e) ∈ order ↔ at? c a s p b = some e := by
    intro a b s p e
    rw [ho.mem_iff, mem_forEach hu]
  have hwr : ∀ x ∈ order, Writable stations x.1 x.2.1 x.2.2.1 x.2.2.2.1 := by
    rintro ⟨a, b, s, p, e⟩ hx
    have := (hmem a b s p e).1 hx
    exact hw a b s p (by simp [XCorr.get, this])
  have hvr : ∀ x ∈ order, |x.2.2.2.2.coeff| ≤ 10 ^ 308 ∧ |x.2.2.2.2.lag| ≤ 10 ^ 308 := by
    rintro ⟨a, b, s, p, v, cc, lag⟩ hx
    have := (hmem a b s p _).1 hx
    exact hv a b s p v cc lag (by simp [XCorr.get, this])
  have hrows : mapRows (entryRow stations) order = .ok (order.map (fieldsOf stations)) :=
    mapRows_ok (fun x hx => (entryRow_ok (hwr x hx)).1)
  have hread : readWithHeader (fileText (header :: order.map (fieldsOf stations))) =
      .ok ((order.map (fieldsOf stations)).map (formatRow header)) := by
    apply read_file
    · refine ⟨by decide, ?_⟩
      unfold Clean; decide
    · intro row hrow
      obtain ⟨x, hx, rfl⟩ := List.mem_map.1 hrow
      exact (entryRow_ok (hwr x hx)).2
  obtain ⟨i1, i2, i3⟩ := foldl_add (order.map (fun x => (x.1, x.2.1, x.2.2.1, x.2.2.2.1, readBack rnd x.2.2.2.2)))
    OneDir.nil Uniq.nil
  refine ⟨fileText (header :: order.map (fieldsOf stations)),
    (order.map (fun x => (x.1, x.2.1, x.2.2.1, x.2.2.2.1, readBack rnd x.2.2.2.2))).foldl
      (fun c x => add c x.1 x.2.1 x.2.2.1 x.2.2.2.1 x.2.2.2.2) [], ?_, ?_, ?_⟩
  · unfold writeEntries
    rw [hrows]; rfl
  · unfold readEntries
    rw [hread]
    exact readRows_spec rnd order [] hwr hvr
  · intro a b s p hab
    have hin : ∀ a b s p e, (a, b, s, p, e) ∈ order.map (fun x => (x.1, x.2.1, x.2.2.1, x.2.2.2.1, readBack rnd x.2.2.2.2)) ↔
        ∃ e', at? c a s p b = some e' ∧ e = readBack rnd e' := by
      intro a b s p e
      rw [List.mem_map]
      constructor
      · rintro ⟨⟨a', b', s', p', e'⟩, hx, heq⟩
        simp only [Prod.mk.injEq] at heq
        obtain ⟨rfl, rfl, rfl, rfl, rfl⟩ := heq
        exact ⟨e', (hmem _ _ _ _ _).1 hx, rfl⟩
      · rintro ⟨e', he', rfl⟩
        exact ⟨(a, b, s, p, e'), (hmem _ _ _ _ _).2 he', rfl⟩
    -- a stored result is read back, on the side on which it is stored
    have hdir : ∀ a b e, a ≠ b → at? c a s p b = some e → _ := fun a b e hab he =>
      (i3 a b s p hab).2 (readBack rnd e) ((hin _ _ _ _ _).2 ⟨e, he, rfl⟩)
        (fun e' he' => by
          obtain ⟨e'', h1, h2⟩ := (hin _ _ _ _ _).1 he'
          rw [he] at h1; cases h1; exact h2)
        (fun e' he' => by
          obtain ⟨e'', h1, -⟩ := (hin _ _ _ _ _).1 he'
          rw [hd a b s p (by rw [he]; simp)] at h1; cases h1)
    cases h1 : at? c a s p b with
    | some e =>
      have hg : get c a b s p = some e := by simp [XCorr.get, h1]
      refine ⟨fun hn => (by rw [hg] at hn; cases hn), ?_⟩
      intro v cc lag he
      rw [hg] at he
      cases he
      exact ⟨fixedValue 6 cc, fixedValue 6 lag, fixed_nearest _ _, fixed_nearest _ _, hdir a b _ hab h1⟩
    | none =>
      cases h2 : at? c b s p a with
      | some e =>
        have hg : get c a b s p = some e.neg := by simp [XCorr.get, h1, h2]
        refine ⟨fun hn => (by rw [hg] at hn; cases hn), ?_⟩
        intro v cc lag he
        rw [hg] at he
        simp only [Entry.neg, Option.some.injEq, Entry.mk.injEq] at he
        obtain ⟨rfl, rfl, rfl⟩ := he
        refine ⟨fixedValue 6 e.coeff, fixedValue 6 (-e.lag), fixed_nearest _ _, fixed_nearest _ _, ?_⟩
        rw [get_symm i1 b a s p, hdir b a _ (Ne.symm hab) h2]
        simp only [Option.map_some, readBack, Entry.neg, fixedValue_neg, hrnd]
      | none =>
        have hg : get c a b s p = none := by simp [XCorr.get, h1, h2]
        refine ⟨fun _ => ?_, fun v cc lag he => (by rw [hg] at he; cases he)⟩
        rw [(i3 a b s p hab).1]
        · simp [XCorr.get, at?]
        · intro e he
          obtain ⟨e', h3, -⟩ := (hin _ _ _ _ _).1 he
          rw [h1] at h3; cases h3
        · intro e he
          obtain ⟨e', h3, -⟩ := (hin _ _ _ _ _).1 he
          rw [h2] at h3; cases h3

/-- **C74** A coefficient or lag with at most six decimals is restored exactly. -/
theorem six_decimals_exact {x y : ℚ} (h : Nearest 6 x y) (z : ℤ) (hx : x = z / 10 ^ 6) : y = x := by
  obtain ⟨w, hw, hd, -⟩ := h
  rw [hw, hx] at hd
  have e : (w : ℚ) / 10 ^ 6 - z / 10 ^ 6 = ((w - z : ℤ) : ℚ) / 10 ^ 6 := by push_cast; ring
  rw [e, abs_div, abs_of_pos (by norm_num : (0 : ℚ) < 10 ^ 6)] at hd
  have h1 : |((w - z : ℤ) : ℚ)| ≤ 1 / 2 := by
    have := mul_le_mul_of_nonneg_right hd (by norm_num : (0 : ℚ) ≤ 10 ^ 6)
    field_simp at this
    linarith
  have h2 : w - z = 0 := by
    by_contra hne
    have h3 : (1 : ℤ) ≤ |w - z| := Int.one_le_abs hne
    have h4 : (1 : ℚ) ≤ |((w - z : ℤ) : ℚ)| := by exact_mod_cast h3
    linarith
  rw [hw, hx]
  have : w = z := by omega
  rw [this]

namespace Example

def stations : AMap String (Station Nat) := [("N.A.00", ⟨"N.A.00", 0, 0, 0, "N", "A", "00"⟩), ("N.B.", ⟨"N.B.", 0, 0, 0, "N", "B", ""⟩)]

/-- two results for the same pair, one of them recorded from the other side, and a failed one -/
def cache : Cache := add (add (add [] 1 2 "N.A.00" "P" ⟨true, 93/100, -1/80⟩) 2 1 "N.B." "Sg" ⟨true, 1/3, 1/7⟩) 1 3 "N.B." "P" ⟨false, 0, 0⟩

theorem history : ∃ f, History cache f := ⟨_, ((History.new.add _ _ _ _ _).add _ _ _ _ _).add _ _ _ _ _⟩

example : (writeEntries stations (forEach cache)) = .ok (
    "eventId1,eventId2,networkCode,stationCode,locationCode,phaseType,valid,coefficient,lag\n1,3,N,B,,P,false,0.000000,0.000000\n1,2,N,A,00,P,true,0.930000,-0.012500\n2,1,N,B,,Sg,true,0.333333,0.142857\n").toList := by
  decide +kernel

example : ((writeEntries stations (forEach cache)).bind (readEntries id stations)).map (fun r =>
    [XCorr.get r 2 1 "N.A.00" "P", XCorr.get r 1 2 "N.B." "Sg", XCorr.get r 1 3 "N.B." "P", XCorr.get r 1 3 "N.A.00" "P"]) =
    .ok [some ⟨true, 93/100, 1/80⟩, some ⟨true, 333333/1000000, -142857/1000000⟩, some ⟨false, 0, 0⟩, none] := by
  decide +kernel

/-- the hypotheses of the round trip hold for this cache -/
theorem writable : ∀ a b s p, get cache a b s p ≠ none → Writable stations a b s p := by
  intro a b s p h
  have hm : ∃ x ∈ forEach cache, x.2.2.1 = s ∧ x.2.2.2.1 = p ∧ ((x.1 = a ∧ x.2.1 = b) ∨ (x.1 = b ∧ x.2.1 = a)) := by
    obtain ⟨f, hf⟩ := history
    have hu := hf.inv.2
    cases h1 : at? cache a s p b with
    | some e => exact ⟨_, (mem_forEach hu _ _ _ _ _).2 h1, rfl, rfl, .inl ⟨rfl, rfl⟩⟩
    | none =>
      cases h2 : at? cache b s p a with
      | some e => exact ⟨_, (mem_forEach hu _ _ _ _ _).2 h2, rfl, rfl, .inr ⟨rfl, rfl⟩⟩
      | none => simp [XCorr.get, h1, h2] at h
  obtain ⟨x, hx, rfl, rfl, hab⟩ := hm
  have hall : ∀ x ∈ forEach cache, x.1 < 10 ∧ x.2.1 < 10 ∧ Clean x.2.2.2.1.toList ∧ ∃ y ∈ stations, y.1 = x.2.2.1 ∧ y.2.id = x.2.2.1 ∧
        Catalog.stationIdOf y.2.networkCode y.2.stationCode y.2.locationCode = x.2.2.1 ∧
        Clean y.2.networkCode.toList ∧ Clean y.2.stationCode.toList ∧ Clean y.2.locationCode.toList := by
    unfold Clean; decide +kernel
  obtain ⟨h1, h2, h3, y, hy, hy1, hy2⟩ := hall x hx
  refine ⟨⟨y.2, ?_, hy2⟩, h3, ?_, ?_⟩
  · rw [← hy1]
    exact AMap.find?_of_mem (by unfold AMap.NodupKeys; decide +kernel) hy
  · unfold PairFile.uintMod; rcases hab with ⟨rfl, rfl⟩ | ⟨rfl, rfl⟩ <;> omega
  · unfold PairFile.uintMod; rcases hab with ⟨rfl, rfl⟩ | ⟨rfl, rfl⟩ <;> omega

theorem bounded : ∀ a b s p v cc lag, get cache a b s p = some ⟨v, cc, lag⟩ → |cc| ≤ 10 ^ 308 ∧ |lag| ≤ 10 ^ 308 := by
  intro a b s p v cc lag h
  obtain ⟨f, hf⟩ := history
  have hu := hf.inv.2
  have hall : ∀ x ∈ forEach cache, |x.2.2.2.2.coeff| ≤ 10 ^ 308 ∧ |x.2.2.2.2.lag| ≤ 10 ^ 308 := by decide +kernel
  cases h1 : at? cache a s p b with
  | some e =>
    rw [show get cache a b s p = some e by simp [XCorr.get, h1]] at h
    have he := Option.some.inj h
    have := hall _ ((mem_forEach hu _ _ _ _ _).2 h1)
    rw [he] at this
    exact this
  | none =>
    cases h2 : at? cache b s p a with
    | some e =>
      rw [show get cache a b s p = some e.neg by simp [XCorr.get, h1, h2]] at h
      have := hall _ ((mem_forEach hu _ _ _ _ _).2 h2)
      simp only [Entry.neg, Option.some.injEq, Entry.mk.injEq] at h
      obtain ⟨-, rfl, rfl⟩ := h
      rw [abs_neg]
      exact this
    | none => simp [XCorr.get, h1, h2] at h

example : ∃ text r, writeEntries stations (forEach cache) = .ok text ∧ readEntries id stations text = .ok r ∧
    ∃ cc lag, Nearest 6 (1/3) cc ∧ Nearest 6 (-1/7) lag ∧ get r 1 2 "N.B." "Sg" = some ⟨true, cc, lag⟩ := by
  obtain ⟨f, hf⟩ := history
  obtain ⟨text, r, h1, h2, h3⟩ := xcorr_file_round_trip id (fun _ => rfl) stations hf writable bounded (forEach cache) (List.Perm.refl _)
  obtain ⟨cc, lag, h4⟩ := (h3 1 2 "N.B." "Sg" (by omega)).2 true (1/3) (-1/7) (by decide +kernel)
  exact ⟨text, r, h1, h2, cc, lag, h4⟩

/-- (negation) The values are not restored exactly: a coefficient below the acceptance threshold of 0.8 reaches it
by being written and read. -/
theorem threshold_crossed :
    ((writeEntries stations (forEach (add [] 1 2 "N.B." "P" ⟨true, 7999999/10000000, 0⟩))).bind (readEntries id stations)).map
      (fun r => XCorr.get r 1 2 "N.B." "P") = .ok (some ⟨true, 8/10, 0⟩) := by
  decide +kernel

/-- (negation) A station that is not in the catalog: writing throws, reading is undefined behaviour. -/
theorem unknown_station :
    writeEntries stations (forEach (add [] 1 2 "X.Y." "P" ⟨true, 1, 0⟩)) = .throws ∧
    readEntries id stations ("eventId1,eventId2,networkCode,stationCode,locationCode,phaseType,valid,coefficient,lag\n" ++
      "1,2,X,Y,,P,true,1,0\n").toList = .ub := by
  refine ⟨by decide +kernel, ?_⟩
  have key : ∀ x : Outcome Cache, (match x with
    | .ub => true
    | _ => false) = true → x = .ub := by
    intro x
    cases x <;> simp
  exact key _ (by decide +kernel)

end Example
end Verif.XCorrFile
