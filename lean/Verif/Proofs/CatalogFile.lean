import Verif.Model.CatalogFile
import Verif.Spec.CatalogFile
import Verif.Spec.Catalog
import Verif.Proofs.CsvFile
import Verif.Proofs.Decimal
import Verif.Props.UtcTime

/-!
# Catalog files: every row is read back
-/

set_option linter.unusedSimpArgs false

namespace Verif.CatalogFile
open Verif.Csv Verif.Catalog Verif.PairFile Verif.Decimal Verif.XCorrFile Verif.CsvFile Verif.Decimal.Spec

/-! ## texts -/

theorem utc_digit_clean {c : Char} (h : ∃ d, Utc.digitVal? c = some d) : c ≠ ',' ∧ c ≠ '"' ∧ c ≠ '\n' ∧ c ≠ '\r' := by
  obtain ⟨d, hd⟩ := h
  refine ⟨?_, ?_, ?_, ?_⟩ <;> (rintro rfl; revert hd; simp [Utc.digitVal?])

theorem clean_allDigits {l : Str} (h : ∀ c ∈ l, ∃ d, Utc.digitVal? c = some d) : Clean l :=
  fun c hc => utc_digit_clean (h c hc)

theorem clean_printNat (w n : Nat) : Clean (Utc.printNat w n) := by
  unfold Utc.printNat
  split
  · exact clean_allDigits (Utc.allDigits_padDigits w n)
  · intro c hc
    exact clean_allDigits (Utc.allDigits_padDigits _ n) c ((List.dropWhile_suffix _).subset hc)

theorem clean_printInt (w : Nat) (n : Int) : Clean (Utc.printInt w n) := by
  unfold Utc.printInt
  split
  · exact clean_cons (by decide) (clean_printNat _ _)
  · exact clean_printNat _ _

theorem clean_time (t : Int) : Clean (Utc.toString t) := by
  unfold Utc.toString
  simp only
  have hus : Clean (if (Utc.toDate t).usec = 0 then ['0', '0', '0', '0'] else Utc.trimZeros (Utc.printInt 6 (Utc.toDate t).usec)) := by
    split
    · unfold Clean; decide
    · intro c hc
      unfold Utc.trimZeros at hc
      exact clean_printInt 6 _ c (List.mem_reverse.1 ((List.dropWhile_suffix _).subset (List.mem_reverse.1 hc)))
  exact clean_append (clean_printInt _ _) (clean_cons (by decide) (clean_append (clean_printInt _ _) (clean_cons (by decide)
    (clean_append (clean_printInt _ _) (clean_cons (by decide) (clean_append (clean_printInt _ _) (clean_cons (by decide)
    (clean_append (clean_printInt _ _) (clean_cons (by decide) (clean_append (clean_printInt _ _) (clean_cons (by decide)
    (clean_append hus (clean_cons (by decide) clean_nil)))))))))))))

theorem clean_lit (s : String) (h : s.toList.all (fun c => c ≠ ',' && c ≠ '"' && c ≠ '\n' && c ≠ '\r') = true) : Clean s.toList := by
  intro c hc
  have := List.all_eq_true.1 h c hc
  simp only [Bool.and_eq_true, decide_eq_true_eq] at this
  exact ⟨this.1.1.1, this.1.1.2, this.1.2, this.2⟩

/-! ## the values read back -/

def back (rnd : ℚ → ℚ) (value : ℚ → ℚ) (x : Fl ℚ) : Fl ℚ := onNum (fun y => rnd (value y)) x

theorem numRead_back (rnd : ℚ → ℚ) (value : ℚ → ℚ) (R : ℚ → ℚ → Prop) (h : ∀ x, R x (value x)) (x : Fl ℚ) :
    Spec.NumRead rnd R x (back rnd value x) := by
  cases x with
  | num x => exact ⟨value x, h x, rfl⟩
  | inf s => rfl
  | nan => rfl

theorem numRead_fixed (rnd : ℚ → ℚ) (n : Nat) (x : Fl ℚ) : Spec.NumRead rnd (Nearest n) x (back rnd (fixedValue n) x) :=
  numRead_back rnd _ _ (fixed_nearest n) x

theorem numRead_general (rnd : ℚ → ℚ) (x : Fl ℚ) : Spec.NumRead rnd SixSignificant x (back rnd generalValue x) :=
  numRead_back rnd _ _ general_near x

theorem stod_fixed (rnd : ℚ → ℚ) {n : Nat} (hn : n ≤ 300) {x : Fl ℚ} (hx : Bounded x) :
    stod rnd (flText (fixedText n) x) = .ok (back rnd (fixedValue n) x) :=
  flText_read rnd _ _ x (fun y hy => fixed_read rnd hn (by subst hy; exact hx))

theorem stod_general (rnd : ℚ → ℚ) {x : Fl ℚ} (hx : Precise x) : stod rnd (flText generalText x) = .ok (back rnd generalValue x) :=
  flText_read rnd _ _ x (fun y hy => general_read rnd (by subst hy; exact hx))

def stationBack (rnd : ℚ → ℚ) (s : Station (Fl ℚ)) : Station (Fl ℚ) :=
  ⟨Catalog.stationIdOf s.networkCode s.stationCode s.locationCode, back rnd (fixedValue 8) s.latitude,
    back rnd (fixedValue 8) s.longitude, back rnd (fixedValue 3) s.elevation, s.networkCode, s.stationCode, s.locationCode⟩

def eventBack (rnd : ℚ → ℚ) (load : Bool) (u e : Event (Fl ℚ)) : Event (Fl ℚ) :=
  { id := e.id, time := e.time, latitude := back rnd (fixedValue 8) e.latitude,
    longitude := back rnd (fixedValue 8) e.longitude, depth := back rnd (fixedValue 6) e.depth,
    magnitude := back rnd (fixedValue 3) e.magnitude, isRelocated := load && e.isRelocated,
    startRms := if load && e.isRelocated then back rnd generalValue e.startRms else u.startRms,
    finalRms := if load && e.isRelocated then back rnd generalValue e.finalRms else u.finalRms }

def phaseBack (rnd : ℚ → ℚ) (load : Bool) (u p : Phase (Fl ℚ)) : Phase (Fl ℚ) :=
  { u with
    eventId := p.eventId, stationId := Catalog.stationIdOf p.networkCode p.stationCode p.locationCode, time := p.time,
    lowerUncertainty := back rnd generalValue p.lowerUncertainty,
    upperUncertainty := back rnd generalValue p.upperUncertainty, type := p.type, networkCode := p.networkCode,
    stationCode := p.stationCode, locationCode := p.locationCode, channelCode := p.channelCode,
    isRelocated := load && p.isRelocated,
    weight := if load && p.isRelocated then back rnd generalValue p.weight else u.weight,
    startResidual := if load && p.isRelocated then back rnd generalValue p.startResidual else u.startResidual,
    finalResidual := if load && p.isRelocated then back rnd generalValue p.finalResidual else u.finalResidual }

/-- a time that can be written and read, see C07 -/
def TimeOk (t : Int) : Prop := 0 ≤ t ∧ (Utc.toDate t).date.year ≤ 9999

/-- the numbers of a station, an event and a phase that can be written and read -/
def StationNumbers (s : Station (Fl ℚ)) : Prop := Bounded s.latitude ∧ Bounded s.longitude ∧ Bounded s.elevation

def EventNumbers (e : Event (Fl ℚ)) : Prop :=
  Bounded e.latitude ∧ Bounded e.longitude ∧ Bounded e.depth ∧ Bounded e.magnitude ∧
    (e.isRelocated = true → Precise e.startRms ∧ Precise e.finalRms)

def PhaseNumbers (p : Phase (Fl ℚ)) : Prop :=
  Precise p.lowerUncertainty ∧ Precise p.upperUncertainty ∧
    (p.isRelocated = true → Precise p.weight ∧ Precise p.startResidual ∧ Precise p.finalResidual)

/-! ## rows -/

theorem stationOf_row (rnd : ℚ → ℚ) {s : Station (Fl ℚ)} (hn : StationNumbers s) :
    stationOf rnd (formatRow stationHeader (stationFields s)) = .ok (stationBack rnd s) := by
  have hc := fun (i : Nat) name hi => find_column (header := stationHeader) (by decide) (stationFields s) i name hi
  unfold stationOf numberAt
  rw [hc 0 "latitude" rfl, hc 1 "longitude" rfl, hc 2 "elevation" rfl, hc 3 "networkCode" rfl, hc 4 "stationCode" rfl,
    hc 5 "locationCode" rfl]
  simp only [stationFields, List.getD_cons_zero, List.getD_cons_succ, Outcome.bind]
  rw [stod_fixed _ (by omega) hn.1, stod_fixed _ (by omega) hn.2.1, stod_fixed _ (by omega) hn.2.2]
  show Outcome.ok _ = _
  simp only [String.ofList_toList]
  rfl

theorem clean_stationRow {s : Station (Fl ℚ)} (h : Clean s.networkCode.toList ∧ Clean s.stationCode.toList ∧ Clean s.locationCode.toList) :
    CleanRow (stationFields s) := by
  refine ⟨by simp [stationFields], ?_⟩
  intro f hf
  simp only [stationFields, List.mem_cons, List.not_mem_nil, or_false] at hf
  rcases hf with rfl | rfl | rfl | rfl | rfl | rfl
  · exact clean_flText _ (clean_fixed _) _
  · exact clean_flText _ (clean_fixed _) _
  · exact clean_flText _ (clean_fixed _) _
  · exact h.1
  · exact h.2.1
  · exact h.2.2

def eventHeader' (reloc : Bool) : List Str := if reloc then eventHeader ++ eventRelocHeader else eventHeader
def eventFields' (reloc : Bool) (e : Event (Fl ℚ)) : List Str := if reloc then eventFields e ++ eventRelocFields e else eventFields e
def phaseHeader' (reloc : Bool) : List Str := if reloc then phaseHeader ++ phaseRelocHeader else phaseHeader
def phaseFields' (reloc : Bool) (p : Phase (Fl ℚ)) : List Str := if reloc then phaseFields p ++ phaseRelocFields p else phaseFields p

theorem eventOf_row (rnd : ℚ → ℚ) (load : Bool) (u e : Event (Fl ℚ)) (reloc : Bool) (hid : e.id < PairFile.uintMod) (ht : TimeOk e.time) (hn : EventNumbers e)
    (hr : e.isRelocated = true → reloc = true) :
    eventOf rnd load u (formatRow (eventHeader' reloc) (eventFields' reloc e)) = .ok (eventBack rnd load u e) := by
  have hc := fun (i : Nat) name hi => find_column (header := eventHeader' reloc) (by cases reloc <;> decide) (eventFields' reloc e) i name hi
  unfold eventOf numberAt
  rw [hc 0 "id" (by cases reloc <;> rfl), hc 1 "isotime" (by cases reloc <;> rfl), hc 2 "latitude" (by cases reloc <;> rfl),
    hc 3 "longitude" (by cases reloc <;> rfl), hc 4 "depth" (by cases reloc <;> rfl), hc 5 "magnitude" (by cases reloc <;> rfl)]
  have g0 : (eventFields' reloc e).getD 0 [] = decimal e.id := by cases reloc <;> rfl
  have g1 : (eventFields' reloc e).getD 1 [] = Utc.toString e.time := by cases reloc <;> rfl
  have g2 : (eventFields' reloc e).getD 2 [] = flText (fixedText 8) e.latitude := by cases reloc <;> rfl
  have g3 : (eventFields' reloc e).getD 3 [] = flText (fixedText 8) e.longitude := by cases reloc <;> rfl
  have g4 : (eventFields' reloc e).getD 4 [] = flText (fixedText 6) e.depth := by cases reloc <;> rfl
  have g5 : (eventFields' reloc e).getD 5 [] = flText (fixedText 3) e.magnitude := by cases reloc <;> rfl
  simp only [g0, g1, g2, g3, g4, g5, Outcome.bind]
  rw [stoul_decimal _ hid, Utc.utc_text_round_trip_partial _ ht.1 ht.2, stod_fixed _ (by omega) hn.1,
    stod_fixed _ (by omega) hn.2.1, stod_fixed _ (by omega) hn.2.2.1, stod_fixed _ (by omega) hn.2.2.2.1]
  cases reloc with
  | false =>
    have he : e.isRelocated = false := by
      cases h : e.isRelocated with
      | false => rfl
      | true => exact absurd (hr h) (by decide)
    have hm : marked load (formatRow (eventHeader' false) (eventFields' false e)) "relocated" = false := by
      unfold marked
      rw [find_none (header := eventHeader' false) (by decide) _ _ (by decide)]
      simp
    simp only [orElse]
    show (if marked load (formatRow (eventHeader' false) (eventFields' false e)) "relocated" = true then _ else _) = _
    rw [hm]
    simp [eventBack, he]
  | true =>
    cases he : e.isRelocated with
    | false =>
      have hm : marked load (formatRow (eventHeader' true) (eventFields' true e)) "relocated" = false := by
        unfold marked
        rw [find_some (header := eventHeader' true) (by decide) _ 6 _ rfl]
        have : (eventFields' true e).getD 6 [] = "false".toList := by
          unfold eventFields' eventRelocFields; rw [he]; rfl
        rw [this]
        simp only [show XCorrFile.strToBool "false".toList = false from by decide, Bool.and_false]
      simp only [orElse]
      show (if marked load (formatRow (eventHeader' true) (eventFields' true e)) "relocated" = true then _ else _) = _
      rw [hm]
      simp [eventBack, he]
    | true =>
      have hm : marked load (formatRow (eventHeader' true) (eventFields' true e)) "relocated" = load := by
        unfold marked
        rw [find_some (header := eventHeader' true) (by decide) _ 6 _ rfl]
        have : (eventFields' true e).getD 6 [] = "true".toList := by
          unfold eventFields' eventRelocFields; rw [he]; rfl
        rw [this]
        simp only [show XCorrFile.strToBool "true".toList = true from by decide, Bool.and_true]
      have f7 : (eventFields' true e).getD 7 [] = flText generalText e.startRms := by
          unfold eventFields' eventRelocFields; rw [he]; rfl
      have f8 : (eventFields' true e).getD 8 [] = flText generalText e.finalRms := by
          unfold eventFields' eventRelocFields; rw [he]; rfl
      simp only [orElse]
      show (if marked load (formatRow (eventHeader' true) (eventFields' true e)) "relocated" = true then _ else _) = _
      rw [hm]
      cases load with
      | false => simp [eventBack, he]
      | true =>
        rw [if_pos rfl, hc 7 "startRms" rfl, hc 8 "finalRms" rfl]
        simp only [f7, f8, Outcome.bind]
        rw [stod_general _ (hn.2.2.2.2 he).1, stod_general _ (hn.2.2.2.2 he).2]
        show Outcome.ok _ = _
        simp [eventBack, he]

theorem clean_eventRow (reloc : Bool) (e : Event (Fl ℚ)) : CleanRow (eventFields' reloc e) := by
  have h1 : CleanRow (eventFields e) := by
    refine ⟨by simp [eventFields], ?_⟩
    intro f hf
    simp only [eventFields, List.mem_cons, List.not_mem_nil, or_false] at hf
    rcases hf with rfl | rfl | rfl | rfl | rfl | rfl
    · exact clean_decimal _
    · exact clean_time _
    · exact clean_flText _ (clean_fixed _) _
    · exact clean_flText _ (clean_fixed _) _
    · exact clean_flText _ (clean_fixed _) _
    · exact clean_flText _ (clean_fixed _) _
  cases reloc with
  | false => exact h1
  | true =>
    refine ⟨by simp [eventFields', eventFields], ?_⟩
    intro f hf
    rcases List.mem_append.1 (show f ∈ eventFields e ++ eventRelocFields e from hf) with h | h
    · exact h1.2 f h
    · unfold eventRelocFields at h
      split at h
      · simp only [List.mem_cons, List.not_mem_nil, or_false] at h
        rcases h with rfl | rfl | rfl
        · exact clean_lit "false" (by decide)
        · exact clean_nil
        · exact clean_nil
      · simp only [List.mem_cons, List.not_mem_nil, or_false] at h
        rcases h with rfl | rfl | rfl
        · exact clean_lit "true" (by decide)
        · exact clean_flText _ clean_general _
        · exact clean_flText _ clean_general _

theorem phaseOf_row (rnd : ℚ → ℚ) (load : Bool) (u p : Phase (Fl ℚ)) (known : String → Bool) (reloc : Bool)
    (hid : p.eventId < PairFile.uintMod) (ht : TimeOk p.time) (hn : PhaseNumbers p)
    (hr : p.isRelocated = true → reloc = true) (hk : known (Catalog.stationIdOf p.networkCode p.stationCode p.locationCode) = true) :
    phaseOf rnd load u known (formatRow (phaseHeader' reloc) (phaseFields' reloc p)) = .ok (phaseBack rnd load u p) := by
  have hc := fun (i : Nat) name hi => find_column (header := phaseHeader' reloc) (by cases reloc <;> decide) (phaseFields' reloc p) i name hi
  unfold phaseOf uncertainties numberAt
  rw [hc 0 "eventId" (by cases reloc <;> rfl), hc 1 "isotime" (by cases reloc <;> rfl), hc 2 "lowerUncertainty" (by cases reloc <;> rfl),
    hc 3 "upperUncertainty" (by cases reloc <;> rfl), hc 4 "type" (by cases reloc <;> rfl), hc 5 "networkCode" (by cases reloc <;> rfl),
    hc 6 "stationCode" (by cases reloc <;> rfl), hc 7 "locationCode" (by cases reloc <;> rfl), hc 8 "channelCode" (by cases reloc <;> rfl)]
  have g0 : (phaseFields' reloc p).getD 0 [] = decimal p.eventId := by cases reloc <;> rfl
  have g1 : (phaseFields' reloc p).getD 1 [] = Utc.toString p.time := by cases reloc <;> rfl
  have g2 : (phaseFields' reloc p).getD 2 [] = flText generalText p.lowerUncertainty := by cases reloc <;> rfl
  have g3 : (phaseFields' reloc p).getD 3 [] = flText generalText p.upperUncertainty := by cases reloc <;> rfl
  have g4 : (phaseFields' reloc p).getD 4 [] = p.type.toList := by cases reloc <;> rfl
  have g5 : (phaseFields' reloc p).getD 5 [] = p.networkCode.toList := by cases reloc <;> rfl
  have g6 : (phaseFields' reloc p).getD 6 [] = p.stationCode.toList := by cases reloc <;> rfl
  have g7 : (phaseFields' reloc p).getD 7 [] = p.locationCode.toList := by cases reloc <;> rfl
  have g8 : (phaseFields' reloc p).getD 8 [] = p.channelCode.toList := by cases reloc <;> rfl
  simp only [g0, g1, g2, g3, g4, g5, g6, g7, g8, Outcome.bind]
  rw [stoul_decimal _ hid, Utc.utc_text_round_trip_partial _ ht.1 ht.2, stod_general _ hn.1, stod_general _ hn.2.1]
  simp only [bind, Outcome.bind, orElse, String.ofList_toList]
  cases reloc with
  | false =>
    have he : p.isRelocated = false := by
      cases h : p.isRelocated with
      | false => rfl
      | true => exact absurd (hr h) (by decide)
    have hm : marked load (formatRow (phaseHeader' false) (phaseFields' false p)) "usedInReloc" = false := by
      unfold marked
      rw [find_none (header := phaseHeader' false) (by decide) _ _ (by decide)]
      simp
    rw [hm]
    simp [phaseBack, he, hk]
  | true =>
    cases he : p.isRelocated with
    | false =>
      have hm : marked load (formatRow (phaseHeader' true) (phaseFields' true p)) "usedInReloc" = false := by
        unfold marked
        rw [find_some (header := phaseHeader' true) (by decide) _ 9 _ rfl]
        have : (phaseFields' true p).getD 9 [] = "false".toList := by
          unfold phaseFields' phaseRelocFields; rw [he]; rfl
        rw [this]
        simp only [show XCorrFile.strToBool "false".toList = false from by decide, Bool.and_false]
      rw [hm]
      simp [phaseBack, he, hk]
    | true =>
      have hm : marked load (formatRow (phaseHeader' true) (phaseFields' true p)) "usedInReloc" = load := by
        unfold marked
        rw [find_some (header := phaseHeader' true) (by decide) _ 9 _ rfl]
        have : (phaseFields' true p).getD 9 [] = "true".toList := by
          unfold phaseFields' phaseRelocFields; rw [he]; rfl
        rw [this]
        simp only [show XCorrFile.strToBool "true".toList = true from by decide, Bool.and_true]
      have f1 : (phaseFields' true p).getD 10 [] = flText generalText p.weight := by
          unfold phaseFields' phaseRelocFields; rw [he]; rfl
      have f2 : (phaseFields' true p).getD 11 [] = flText generalText p.startResidual := by
          unfold phaseFields' phaseRelocFields; rw [he]; rfl
      have f3 : (phaseFields' true p).getD 12 [] = flText generalText p.finalResidual := by
          unfold phaseFields' phaseRelocFields; rw [he]; rfl
      rw [hm]
      cases load with
      | false => simp [phaseBack, he, hk]
      | true =>
        rw [if_pos rfl, hc 10 "weight" rfl, hc 11 "startResidual" rfl, hc 12 "finalResidual" rfl]
        simp only [f1, f2, f3, Outcome.bind]
        rw [stod_general _ (hn.2.2 he).1, stod_general _ (hn.2.2 he).2.1, stod_general _ (hn.2.2 he).2.2]
        simp [phaseBack, he, hk]

theorem clean_phaseRow (reloc : Bool) {p : Phase (Fl ℚ)} (h : Clean p.type.toList ∧ Clean p.networkCode.toList ∧
    Clean p.stationCode.toList ∧ Clean p.locationCode.toList ∧ Clean p.channelCode.toList) : CleanRow (phaseFields' reloc p) := by
  have h1 : CleanRow (phaseFields p) := by
    refine ⟨by simp [phaseFields], ?_⟩
    intro f hf
    simp only [phaseFields, List.mem_cons, List.not_mem_nil, or_false] at hf
    rcases hf with rfl | rfl | rfl | rfl | rfl | rfl | rfl | rfl | rfl
    · exact clean_decimal _
    · exact clean_time _
    · exact clean_flText _ clean_general _
    · exact clean_flText _ clean_general _
    · exact h.1
    · exact h.2.1
    · exact h.2.2.1
    · exact h.2.2.2.1
    · exact h.2.2.2.2
  cases reloc with
  | false => exact h1
  | true =>
    refine ⟨by simp [phaseFields', phaseFields], ?_⟩
    intro f hf
    rcases List.mem_append.1 (show f ∈ phaseFields p ++ phaseRelocFields p from hf) with h | h
    · exact h1.2 f h
    · unfold phaseRelocFields at h
      split at h
      · simp only [List.mem_cons, List.not_mem_nil, or_false] at h
        rcases h with rfl | rfl | rfl | rfl
        · exact clean_lit "false" (by decide)
        · exact clean_nil
        · exact clean_nil
        · exact clean_nil
      · simp only [List.mem_cons, List.not_mem_nil, or_false] at h
        rcases h with rfl | rfl | rfl | rfl
        · exact clean_lit "true" (by decide)
        · exact clean_flText _ clean_general _
        · exact clean_flText _ clean_general _
        · exact clean_flText _ clean_general _

/-! ## the containers -/

theorem find?_foldl_set {K V : Type} [DecidableEq K] (key : V → K) : ∀ (l : List V) (m : AMap K V) (k : K),
    (l.map key).Nodup →
    (l.foldl (fun m v => m.set (key v) v) m).find? k = (match l.find? (fun v => key v = k) with | some v => some v | none => m.find? k)
  | [], m, k, _ => rfl
  | a :: l, m, k, h => by
    rw [List.map_cons, List.nodup_cons] at h
    rw [List.foldl_cons, find?_foldl_set key l _ k h.2, AMap.find?_set]
    by_cases hk : key a = k
    · have : l.find? (fun v => key v = k) = none := by
        rw [List.find?_eq_none]
        intro v hv hvk
        simp only [decide_eq_true_eq] at hvk
        exact h.1 (List.mem_map.2 ⟨v, hv, by rw [hvk, hk]⟩)
      rw [this]
      simp [hk]
    · rw [List.find?_cons_of_neg (by simpa using hk)]
      simp [Ne.symm hk]

theorem find?_map_perm {K V W : Type} [DecidableEq K] {m : AMap K V} (hm : m.NodupKeys) {l : List (K × V)} (hl : l.Perm m)
    (g : V → W) (key : W → K) (hkey : ∀ kv ∈ m, key (g kv.2) = kv.1) (k : K) :
    AMap.find? ((l.map (fun kv => g kv.2)).foldl (fun (m : AMap K W) v => m.set (key v) v) ([] : AMap K W)) k = (m.find? k).map g := by
  have hk : (l.map (fun kv => g kv.2)).map key = l.map Prod.fst := by
    rw [List.map_map]
    exact List.map_congr_left (fun kv h => hkey kv (hl.mem_iff.1 h))
  have hnd : ((l.map (fun kv => g kv.2)).map key).Nodup := by
    rw [hk]; exact ((hl.map Prod.fst).nodup_iff).2 hm
  rw [find?_foldl_set key _ _ _ hnd]
  cases hf : m.find? k with
  | some v =>
    have hmem : (k, v) ∈ l := hl.mem_iff.2 (AMap.mem_of_find? hf)
    cases hg : (l.map (fun kv => g kv.2)).find? (fun v => key v = k) with
    | none =>
      rw [List.find?_eq_none] at hg
      exact absurd (hg (g v) (List.mem_map.2 ⟨_, hmem, rfl⟩)) (by
        simp only [decide_eq_true_eq, not_not]
        exact hkey (k, v) (AMap.mem_of_find? hf))
    | some w =>
      have h1 := List.find?_some hg
      have h2 := List.mem_of_find?_eq_some hg
      obtain ⟨⟨k', v'⟩, h3, rfl⟩ := List.mem_map.1 h2
      simp only [decide_eq_true_eq] at h1
      have h4 := hl.mem_iff.1 h3
      rw [hkey _ h4] at h1
      subst h1
      have := AMap.find?_of_mem hm h4
      rw [hf] at this
      cases this
      rfl
  | none =>
    have : (l.map (fun kv => g kv.2)).find? (fun v => key v = k) = none := by
      rw [List.find?_eq_none]
      intro w hw h1
      obtain ⟨⟨k', v'⟩, h3, rfl⟩ := List.mem_map.1 hw
      simp only [decide_eq_true_eq] at h1
      have h4 := hl.mem_iff.1 h3
      rw [hkey _ h4] at h1
      subst h1
      rw [AMap.find?_of_mem hm h4] at hf
      cases hf
    rw [this]
    rfl

end Verif.CatalogFile
