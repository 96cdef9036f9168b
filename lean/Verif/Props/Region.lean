import Verif.Model.Region
import Mathlib.Tactic.Linarith
import Mathlib.Tactic.NormNum
import Mathlib.Tactic.Ring
import Mathlib.Algebra.Order.Floor.Ring
import Mathlib.Data.Rat.Floor

/-!
# C53: region test and profile selection
-/

namespace Verif.Region

/-- **Specification.** Width in degrees of the eastward arc from `lonMin` to `lonMax`. -/
def arcWidth (lonMin lonMax : ℚ) : ℚ := if lonMin ≤ lonMax then lonMax - lonMin else lonMax - lonMin + 360

/-- **Specification.** `lon` is met when going east from `lonMin` by at most the width of the arc
(longitudes being the same when they differ by whole turns). -/
def OnEastwardArc (lonMin lonMax lon : ℚ) : Prop :=
  ∃ δ : ℚ, 0 ≤ δ ∧ δ ≤ arcWidth lonMin lonMax ∧ ∃ k : ℤ, lon = lonMin + δ + 360 * k

/-- **C53a.** A rectangular region contains a point iff its latitude is within limits and its
longitude is on the eastward arc from `lonMin` to `lonMax`, for any longitudes less than a turn
apart (both −180…180 and 0…360 conventions), except for the point a full turn east of `lonMin`. -/
theorem rect_region_partial (latMin lonMin latMax lonMax lat lon : ℚ)
    (h1 : -360 ≤ lonMax - lonMin) (h2 : lonMax - lonMin ≤ 360)
    (h3 : -360 ≤ lon - lonMin) (h4 : lon - lonMin < 360) :
    rectInside latMin lonMin latMax lonMax lat lon = true ↔
      latMin ≤ lat ∧ lat ≤ latMax ∧ OnEastwardArc lonMin lonMax lon := by
  unfold rectInside OnEastwardArc arcWidth
  by_cases hlat : lat < latMin ∨ lat > latMax
  · rw [if_pos hlat]
    constructor
    · intro h; cases h
    · rintro ⟨ha, hb, _⟩; rcases hlat with h | h <;> linarith
  · rw [if_neg hlat]
    push Not at hlat
    have hw : (if lonMax - lonMin < 0 then lonMax - lonMin + 360 else lonMax - lonMin) =
        (if lonMin ≤ lonMax then lonMax - lonMin else lonMax - lonMin + 360) := by
      split <;> split <;> first | rfl | (exfalso; linarith)
    simp only [hw, decide_eq_true_eq]
    generalize hW : (if lonMin ≤ lonMax then lonMax - lonMin else lonMax - lonMin + 360) = W
    have hW0 : 0 ≤ W := by rw [← hW]; split <;> linarith
    have hW1 : W ≤ 360 := by rw [← hW]; split <;> linarith
    constructor
    · intro h
      refine ⟨hlat.1, hlat.2, ?_⟩
      split at h
      · exact ⟨lon - lonMin + 360, by linarith, h, -1, by push_cast; ring⟩
      · exact ⟨lon - lonMin, by linarith, h, 0, by push_cast; ring⟩
    · rintro ⟨_, _, δ, hd0, hd1, k, hk⟩
      have hkl : (-3 : ℚ) < k := by linarith
      have hku : (k : ℚ) < 1 := by linarith
      have hkl' : -3 < k := by exact_mod_cast hkl
      have hku' : k < 1 := by exact_mod_cast hku
      have : k = 0 ∨ k = -1 ∨ k = -2 := by omega
      split
      · rename_i hneg
        rcases this with rfl | rfl | rfl <;> (push_cast at hk; linarith)
      · rename_i hneg
        rcases this with rfl | rfl | rfl <;> (push_cast at hk; linarith)

example : rectInside 40 170 50 (-170) 45 (-175) = true ∧ rectInside 40 170 50 (-170) 45 165 = false := by
  constructor <;> norm_num [rectInside]

/-- **C53a is false on the date line**: longitude 180 is not found in a region starting at −180,
although it is the same meridian. -/
theorem rect_region_misses_date_line :
    rectInside 40 (-180) 50 (-170) 45 180 = false ∧ OnEastwardArc (-180) (-170) 180 := by
  refine ⟨by norm_num [rectInside], 0, le_rfl, by norm_num [arcWidth], 1, by norm_num⟩

/-- an empty region contains everything, a circular one the points within its radius -/
theorem other_regions (distKm : ℚ → ℚ → ℚ → ℚ → ℚ) (lat lon clat clon radius : ℚ) :
    isInside distKm .everywhere lat lon = true ∧
    (isInside distKm (.circ clat clon radius) lat lon = true ↔ distKm clat clon lat lon ≤ radius) := by
  simp [isInside]

/-- **C53b.** The selected profile is the first one in configuration order that matches — by name if
a profile is forced, by region otherwise; nothing is selected iff none matches. -/
theorem profile_selection (distKm : ℚ → ℚ → ℚ → ℚ → ℚ) (profiles : List Profile) (lat lon : ℚ)
    (force : String) :
    let matches_ (p : Profile) : Prop :=
      (force ≠ "" → p.name = force) ∧ (force = "" → isInside distKm p.region lat lon = true)
    (∀ p, getProfile distKm profiles (some (lat, lon)) force = some p ↔
      ∃ pre post, profiles = pre ++ p :: post ∧ matches_ p ∧ ∀ q ∈ pre, ¬ matches_ q) ∧
    (getProfile distKm profiles (some (lat, lon)) force = none ↔ ∀ p ∈ profiles, ¬ matches_ p) := by
  intro matches_
  simp only [getProfile]
  have hstep : ∀ p ps, getProfileLoop distKm lat lon force (p :: ps) =
      (open Classical in if matches_ p then some p else getProfileLoop distKm lat lon force ps) := by
    intro p ps
    by_cases hf : force = ""
    · by_cases hi : isInside distKm p.region lat lon = true
      · simp [getProfileLoop, matches_, hf, hi]
      · simp [getProfileLoop, matches_, hf, hi]
    · by_cases hn : p.name = force
      · simp [getProfileLoop, matches_, hf, hn]
      · simp [getProfileLoop, matches_, hf, hn]
  induction profiles with
  | nil => simp [getProfileLoop]
  | cons p ps ih =>
    rw [hstep]
    by_cases hm : matches_ p
    · rw [if_pos hm]
      constructor
      · intro q
        constructor
        · intro h; simp at h; subst h; exact ⟨[], ps, rfl, hm, by simp⟩
        · rintro ⟨pre, post, he, hq, hpre⟩
          cases pre with
          | nil => simp at he; rw [he.1]
          | cons a pre => simp at he; exact absurd (he.1 ▸ hm) (hpre a (by simp))
      · simp [hm]
    · rw [if_neg hm]
      constructor
      · intro q
        rw [ih.1]
        constructor
        · rintro ⟨pre, post, he, hq, hpre⟩
          refine ⟨p :: pre, post, by simp [he], hq, ?_⟩
          intro r hr
          rcases List.mem_cons.1 hr with rfl | hr
          · exact hm
          · exact hpre r hr
        · rintro ⟨pre, post, he, hq, hpre⟩
          cases pre with
          | nil => simp at he; exact absurd (he.1 ▸ hq) hm
          | cons a pre =>
            simp at he
            exact ⟨pre, post, he.2, hq, fun r hr => hpre r (by simp [hr])⟩
      · rw [ih.2]; simp [hm]

/-- an origin without coordinates is given no profile -/
theorem profile_needs_coordinates (distKm : ℚ → ℚ → ℚ → ℚ → ℚ) (profiles : List Profile)
    (force : String) : getProfile distKm profiles none force = none := rfl

/-- **C53c.** Selection by name returns the first profile of that name, never one for the empty
name. -/
theorem profile_by_name (profiles : List Profile) (name : String) (p : Profile) :
    getProfileByName profiles name = some p ↔ name ≠ "" ∧
      ∃ pre post, profiles = pre ++ p :: post ∧ p.name = name ∧ ∀ q ∈ pre, q.name ≠ name := by
  unfold getProfileByName
  by_cases h : name = ""
  · simp [h]
  · rw [if_neg h, List.find?_eq_some_iff_append]
    simp only [decide_eq_true_eq, Bool.not_eq_true', decide_eq_false_iff_not]
    constructor
    · rintro ⟨h1, a, x, rfl, h2⟩; exact ⟨h, a, x, rfl, h1, h2⟩
    · rintro ⟨_, a, x, rfl, h1, h2⟩; exact ⟨h1, a, x, rfl, h2⟩

example : ∃ p, getProfile (fun _ _ _ _ => 0)
    [⟨"alps", .rect 40 5 50 15⟩, ⟨"world", .everywhere⟩] (some (45, 20)) "" = some p ∧ p.name = "world" := by
  refine ⟨⟨"world", .everywhere⟩, ?_, rfl⟩
  norm_num [getProfile, getProfileLoop, isInside, rectInside]

end Verif.Region
