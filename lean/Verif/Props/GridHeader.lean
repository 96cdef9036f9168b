import Verif.Proofs.GridHeader
import Verif.Props.MapProject

/-! C85, C86: which grid files are accepted, what their headers say, and which grids are found in a directory. -/

set_option linter.unusedSectionVars false
set_option linter.unusedSimpArgs false

namespace Verif.GridHeader
open Verif.Csv Verif.Decimal

variable {rnd : ℚ → ℚ} {kind : Kind}

theorem parse_ok {swap : Bool} {text : Str} {h : Header} : parse rnd kind swap text = .ok h ↔
    ∃ r d, Run rnd kind {} ((lines text).map words) r ∧ r.parsedLines = (if kind = .velocity then 2 else 3) ∧ r.dims = some d ∧
      ¬(d.useDouble = true ∧ swap = true) ∧ h = ⟨normalDims d, r.src, r.transform⟩ := by
  have hc : ∀ r : Raw, (((kind = .time ∨ kind = .angle) ∧ r.parsedLines ≠ 3) ∨ (kind = .velocity ∧ r.parsedLines ≠ 2)) ↔
      ¬r.parsedLines = (if kind = .velocity then 2 else 3) := by
    intro r; cases kind <;> simp
  unfold parse
  rw [bind_ok_iff]
  simp only [readLines_iff, hc]
  constructor
  · rintro ⟨r, hr, h⟩
    by_cases hp : ¬r.parsedLines = (if kind = .velocity then 2 else 3)
    · rw [if_pos hp] at h; cases h
    rw [if_neg hp] at h
    cases hd : r.dims with
    | none => rw [hd] at h; cases h
    | some d =>
      rw [hd] at h
      simp only at h
      by_cases hs : (d.useDouble && swap) = true
      · rw [if_pos hs] at h; cases h
      rw [if_neg hs] at h
      cases h
      exact ⟨r, d, hr, not_not.1 hp, hd, by simpa using hs, rfl⟩
  · rintro ⟨r, d, hr, hp, hd, hs, rfl⟩
    refine ⟨r, hr, ?_⟩
    rw [if_neg (by rw [hp]; simp), hd]
    simp only
    rw [if_neg (by simpa using hs)]
    rfl

/-- **C85**: a header is accepted, and its station known, exactly if its lines describe a grid: the line of the
dimensions, for time and angle grids the line of the station, and one transform line, in this order, with lines that
are none of these ignored; then the header holds what the lines say. -/
theorem header_accepted_iff (swap : Bool) (text : Str) (h : Header) :
    (parse rnd kind swap text = .ok h ∧ (kind = .velocity ∨ h.src ≠ none)) ↔ HeaderOf rnd kind swap text h := by
  rw [parse_ok]
  constructor
  · rintro ⟨⟨r, d, hr, hp, hd, hs, rfl⟩, hk⟩
    obtain ⟨p, ht, hD⟩ := run_describes hr hd hp hk
    exact ⟨d, r.src, p, hD, hs, by rw [ht]⟩
  · rintro ⟨d, s, p, hD, hs, rfl⟩
    refine ⟨⟨_, d, describes_run hD, rfl, rfl, hs, rfl⟩, ?_⟩
    generalize (lines text).map words = W at hD
    cases hD with
    | velocity => exact .inl rfl
    | station => exact .inr (by simp)

/-- **C85**: an accepted header has a transform, read from a transform line of the file. -/
theorem accepted_header_has_transform (swap : Bool) (text : Str) (h : Header) (hp : parse rnd kind swap text = .ok h) :
    ∃ p, h.transform = some p ∧ ∃ l ∈ (lines text).map words, TransformLine rnd l p := by
  obtain ⟨r, d, hr, hn, hd, -, rfl⟩ := parse_ok.1 hp
  have key : ∀ {a b : Raw} {ts : List (List Str)}, Run rnd kind a ts b → ∀ p, b.transform = some p →
      a.transform = some p ∨ ∃ l ∈ ts, TransformLine rnd l p := by
    intro a b ts h
    induction h with
    | nil => intro p hp; exact .inl hp
    | cons he _ ih =>
      intro p hp
      rcases ih p hp with h | ⟨l, hl, ht⟩
      · cases he with
        | skip => exact .inl h
        | dims => exact .inl h
        | src => exact .inl h
        | trans _ _ h3 => cases h; exact .inr ⟨_, by simp, h3⟩
      · exact .inr ⟨l, by simp [hl], ht⟩
  cases ht : r.transform with
  | none =>
    rcases hr.transform (fun _ => .inl ⟨by simp, rfl⟩) ht with ⟨h1, _⟩ | ⟨h1, h2⟩
    · rw [hn] at h1; split at h1 <;> omega
    · rw [hn, if_neg h2] at h1; omega
  | some p => exact ⟨p, rfl, (key hr p ht).resolve_left (by simp)⟩

/-- **C85**: a transform line is accepted exactly if it has the keywords of its type, readable numbers, origin, rotation
and parallels within their ranges and a known ellipsoid. -/
theorem transform_line_iff (t : List Str) (p : Proj) : parseTransform rnd t = .ok p ↔ TransformLine rnd t p :=
  parseTransform_iff

/-- a header is read without undefined behaviour if the line of the dimensions precedes the transform lines -/
theorem header_defined (swap : Bool) (text : Str) (A B : List (List Str)) (ld : List Str)
    (hW : (lines text).map words = A ++ ld :: B) (hA : ∀ l ∈ A, ¬IsTrans l) (hd : IsDims ld) :
    parse rnd kind swap text ≠ .ub := by
  intro h
  unfold parse at h
  cases hr : readLines rnd kind {} (lines text) with
  | throws => rw [hr] at h; simp at h
  | ub => exact readLines_ne_ub _ _ _ _ hr
  | ok r =>
    rw [hr] at h
    simp only [Outcome.bind_ok] at h
    split at h
    · cases h
    have hrun := readLines_iff.1 hr
    cases hdm : r.dims with
    | some d => rw [hdm] at h; simp only at h; split at h <;> cases h
    | none =>
      rw [hW] at hrun
      have key : ∀ (A : List (List Str)) (a : Raw), (∀ l ∈ A, ¬IsTrans l) → (a.parsedLines = 0 ∨ a.dims ≠ none) →
          Run rnd kind a (A ++ ld :: B) r → r.dims ≠ none := by
        intro A
        induction A with
        | nil =>
          intro a _ ha hrun
          cases hrun with
          | cons he hs =>
            by_cases h0 : a.parsedLines = 0
            · cases he with
              | skip h1 => exact absurd ⟨h0, hd⟩ h1
              | dims => rw [hs.dims_kept (by simp)]; simp
              | src h1 => omega
              | trans h1 => exact absurd ⟨h0, hd⟩ h1
            · have ha' := ha.resolve_left h0
              have e := Run.dims_kept (.cons he hs) h0
              rw [e]; exact ha'
        | cons t A ih =>
          intro a hA ha hrun
          cases hrun with
          | cons he hs =>
            refine ih _ (fun l hl => hA l (by simp [hl])) ?_ hs
            cases he with
            | skip => exact ha
            | dims => exact .inr (by simp)
            | src h1 => exact .inr (by simpa using ha.resolve_left (by omega))
            | trans _ _ h3 => exact absurd h3.isTrans (hA _ (by simp))
      exact key A {} hA (.inl rfl) hrun hdm

/-! ## What the code gets wrong -/

/-- Transform lines are counted like the other two lines, so three of them pass for a header: the sizes are then used
without having been assigned. -/
theorem transform_lines_only : parse id .time false "TRANS GLOBAL\nTRANS GLOBAL\nTRANS GLOBAL\n".toList = .ub := by
  decide +kernel

/-- With two transform lines the line of the station may be missing: the position of the station is not assigned. -/
theorem station_line_missing :
    parse id .time false "1 3 2 0 0 -1 1 1 1 TIME2D\nTRANS SIMPLE LatOrig 46 LongOrig 8 RotCW 0\nTRANS SIMPLE LatOrig 46 LongOrig 8 RotCW 0\n".toList =
      .ok ⟨⟨1, 3, 2, .num 0, .num 0, .num (-1), .num 1, .num 1, .num 1, "TIME2D".toList, false⟩, none,
        some (.simple (.num 46) (.num 8) (.num 0))⟩ := by
  decide +kernel

/-- Not-a-number passes the range checks of the transforms. -/
theorem nan_origin_accepted :
    parse id .velocity false "2 3 2 0 0 -1 1 1 1 VELOCITY\nTRANSFORM SIMPLE LatOrig nan LongOrig 8 RotCW 0".toList =
      .ok ⟨⟨2, 3, 2, .num 0, .num 0, .num (-1), .num 1, .num 1, .num 1, "VELOCITY".toList, false⟩, none,
        some (.simple .nan (.num 8) (.num 0))⟩ := by
  decide +kernel

/-- a header as NonLinLoc writes it, with a comment line and blanks -/
example : HeaderOf id .time false
    "  1 101  51 0.0 0 -3. 0.5 1.0 1e0 TIME2D FLOAT\r\n\nSTA1 1.5  -2 0.25\r\nsome remark\nTRANSFORM LAMBERT RefEllipsoid WGS-84 LatOrig 46.5 LongOrig 8.25 FirstStdParal 45 SecondStdParal 48 RotCW 0.0\n".toList
    ⟨⟨1, 101, 51, .num 0, .num 0, .num (-3), .num 1, .num 1, .num 1, "TIME2D".toList, false⟩,
      some ⟨"STA1".toList, .num (3 / 2), .num (-2), .num (1 / 4)⟩,
      some (.lambert "WGS-84".toList (.num (93 / 2)) (.num (33 / 4)) (.num 0) (.num 45) (.num 48))⟩ :=
  (header_accepted_iff _ _ _).1 ⟨by decide +kernel, .inr (by simp)⟩

example : HeaderOf id .velocity true "2 3 4 -1 -2 -3 0.1 0.1 0.1 SLOW_LEN\nTRANSFORM TRANS_MERC RefEllipsoid Sphere LatOrig 46 LongOrig 8 RotCW -10 UseFalseEasting 1".toList
    ⟨⟨2, 3, 4, .num (-1), .num (-2), .num (-3), .num (1 / 10), .num (1 / 10), .num (1 / 10), "SLOW_LEN".toList, false⟩, none,
      some (.transMerc "Sphere".toList (.num 46) (.num 8) (.num (-10)) true 500000 (.num 1))⟩ :=
  (header_accepted_iff _ _ _).1 ⟨by decide +kernel, .inl rfl⟩

/-- the transform line in the place of the station line -/
example : parse id .angle false "1 2 3 0 0 0 1 1 1 ANGLE2D\nTRANSFORM GLOBAL\nSTA 0 0 0\n".toList = .throws := by decide +kernel

/-- eight-byte values in the wrong byte order -/
example : parse id .velocity true "2 3 4 0 0 0 1 1 1 VELOCITY DOUBLE\nTRANS GLOBAL".toList = .throws := by decide +kernel

example : parse id .velocity false "2 3 4 0 0 0 1 1 1 VELOCITY DOUBLE\nTRANS GLOBAL".toList ≠ .ub :=
  header_defined false _ [] [["TRANS".toList, "GLOBAL".toList]]
    ["2".toList, "3".toList, "4".toList, "0".toList, "0".toList, "0".toList, "1".toList, "1".toList, "1".toList, "VELOCITY".toList, "DOUBLE".toList]
    (by decide +kernel) (by simp) (.inr rfl)

end Verif.GridHeader
