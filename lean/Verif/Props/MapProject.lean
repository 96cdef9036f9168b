import Verif.Proofs.Lambert

/-!
# C44: the LAMBERT, TRANS_MERC and AZIMUTHAL_EQUIDIST transforms

Quantified over every ellipsoid of the table, every origin and rotation accepted by the constructors, and every
position where the projection is defined.
-/

set_option linter.unusedSectionVars false
set_option linter.unusedSimpArgs false

namespace Verif.Geo
open Real

theorem bind_eq_ok' {α β : Type} {x : Outcome α} {f : α → Outcome β} {b : β} (h : (x >>= f) = .ok b) :
    ∃ a, x = .ok a ∧ f a = .ok b := by
  cases x with
  | ok a => exact ⟨a, rfl, h⟩
  | throws => cases h
  | ub => cases h

theorem aziEqdistMake_ok {name : String} {orgLat orgLong rot : ℝ} {tr : Frame × AziEqdist}
    (h : aziEqdistMake name orgLat orgLong rot = .ok tr) :
    Frame.make orgLat orgLong rot = .ok tr.1 ∧ mapSetup name = .ok tr.2.e ∧ tr.2.cm = orgLong ∧ tr.2.pole = orgLat ∧
    tr.2.sinp = sin (orgLat * d2r) ∧ tr.2.cosp = cos (orgLat * d2r) := by
  unfold aziEqdistMake at h
  obtain ⟨fr, h1, h⟩ := bind_eq_ok' h
  obtain ⟨p, h2, h⟩ := bind_eq_ok' h
  unfold vazeqdist at h2
  obtain ⟨e, h3, h2⟩ := bind_eq_ok' h2
  cases h2
  cases h
  have u := Frame.unit h1
  exact ⟨h1, h3, u.2.2.1, u.2.1, by rw [u.2.1], by rw [u.2.1]⟩

/-- **C44, AZIMUTHAL_EQUIDIST.** Latitude and longitude are recovered exactly (the longitude normalised), for every
position between the poles except the one opposite to the origin. -/
theorem azimuthal_round_trip_partial {name : String} {orgLat orgLong rot : ℝ} {tr : Frame × AziEqdist}
    (hm : aziEqdistMake name orgLat orgLong rot = .ok tr) {lat lon : ℝ} (h1 : -90 < lat) (h2 : lat < 90)
    (ha : ¬ (lat = -orgLat ∧ ∃ k : ℤ, lon = orgLong + 180 + 360 * k)) :
    aziEqdistTo tr (aziEqdistFrom tr lat lon) = (lat, normalizeLon lon) := by
  obtain ⟨hf, he, h3, h4, h5, h6⟩ := aziEqdistMake_ok hm
  have u := Frame.unit hf
  unfold aziEqdistTo aziEqdistFrom
  simp only
  rw [rotate_inverse u.1]
  simp only [div_mul_cancel₀ _ (by norm_num : (1000 : ℝ) ≠ 0)]
  obtain ⟨e1, e2⟩ := azeqdist_round_trip (p := tr.2) (mapSetup_ok he).1 (by rw [h4, h5]) (by rw [h4, h6])
    (by rw [h4]; exact u.2.2.2.2.1) (by rw [h4]; exact u.2.2.2.2.2.1) h1 h2 (lon := lon) (by rw [h3, h4]; exact ha)
  rw [e1, normalizeLon_congr e2]

/-- **C44, negation.** The position opposite to the origin is given the coordinates of the origin: converting it back
gives the origin, half a turn away. -/
theorem azimuthal_antipode {name : String} {orgLong rot : ℝ} {tr : Frame × AziEqdist}
    (hm : aziEqdistMake name 0 orgLong rot = .ok tr) (h : -180 ≤ orgLong) (h' : orgLong < 0) :
    aziEqdistFrom tr 0 (orgLong + 180) = (0, 0) ∧
    aziEqdistTo tr (aziEqdistFrom tr 0 (orgLong + 180)) = (0, orgLong) ∧ orgLong ≠ normalizeLon (orgLong + 180) := by
  obtain ⟨hf, he, h3, h4, h5, h6⟩ := aziEqdistMake_ok hm
  have u := Frame.unit hf
  have hT : turnDown tr.2.cm (turnUp tr.2.cm (orgLong + 180)) = orgLong + 180 := by
    rw [h3]
    have e1 : turnUp orgLong (orgLong + 180) = orgLong + 180 := by
      rw [turnUp, if_neg (by linarith)]
    rw [e1, turnDown, if_neg (by linarith)]
  have hz : azeqdist tr.2 (orgLong + 180) 0 = (0, 0) := by
    unfold azeqdist
    simp only [hT]
    rw [if_pos]
    rw [h3, h5, h6]
    have : (orgLong + 180 - orgLong) * d2r = π := by rw [← half_d2r]; ring
    rw [this]
    simp
  have hfrom : aziEqdistFrom tr 0 (orgLong + 180) = (0, 0) := by
    unfold aziEqdistFrom
    simp [hz, Frame.rotate]
  refine ⟨hfrom, ?_, ?_⟩
  · rw [hfrom]
    unfold aziEqdistTo
    simp only [Frame.inverseRotate]
    unfold iazeqdist
    simp only [zero_mul, add_zero, sub_zero, ne_eq, OfNat.ofNat_ne_zero, not_false_eq_true, zero_pow, sqrt_zero, if_true]
    rw [h4, h3, normalizeLon_id h (by linarith)]
  · rw [normalizeLon_id (by linarith) (by linarith)]
    linarith

/-- **C44, AZIMUTHAL_EQUIDIST.** Distances from the origin are true: the distance on the grid between the origin and a
position is the earth's radius (in kilometres) times the angle between them. -/
theorem azimuthal_distance {name : String} {orgLat orgLong rot : ℝ} {tr : Frame × AziEqdist}
    (hm : aziEqdistMake name orgLat orgLong rot = .ok tr) {lat lon : ℝ} (h1 : -90 < lat) (h2 : lat < 90)
    (ha : ¬ (lat = -orgLat ∧ ∃ k : ℤ, lon = orgLong + 180 + 360 * k)) :
    √((aziEqdistFrom tr lat lon).1 ^ 2 + (aziEqdistFrom tr lat lon).2 ^ 2) =
      tr.2.e.eqRad / 1000 * arccos (sin (degToRad orgLat) * sin (degToRad lat) +
        cos (degToRad orgLat) * cos (degToRad lat) * cos (degToRad (lon - orgLong))) := by
  obtain ⟨hf, he, h3, h4, h5, h6⟩ := aziEqdistMake_ok hm
  have u := Frame.unit hf
  have hR := (mapSetup_ok he).1
  obtain ⟨t1, t2, t3⟩ := turn_spec tr.2.cm lon
  have hrot : (aziEqdistFrom tr lat lon).1 ^ 2 + (aziEqdistFrom tr lat lon).2 ^ 2 =
      ((azeqdist tr.2 lon lat).1 / 1000) ^ 2 + ((azeqdist tr.2 lon lat).2 / 1000) ^ 2 := by
    unfold aziEqdistFrom Frame.rotate
    simp only
    linear_combination (((azeqdist tr.2 lon lat).1 / 1000) ^ 2 + ((azeqdist tr.2 lon lat).2 / 1000) ^ 2) * u.1
  have hcd : cos (degToRad (lon - orgLong)) = cos ((turnDown tr.2.cm (turnUp tr.2.cm lon) - tr.2.cm) * d2r) := by
    obtain ⟨k, hk⟩ := t1
    rw [hk, h3]
    have : (lon + 360 * k - orgLong) * d2r = degToRad (lon - orgLong) + k * (2 * π) := by
      unfold d2r degToRad; ring
    rw [this, cos_add_int_mul_two_pi]
  rw [hrot, hcd, ← mul_d2r orgLat, ← mul_d2r lat, ← h5, ← h6]
  have hd := d2r_pos
  have e90 := right_d2r
  have ha1 : -(π / 2) ≤ orgLat * d2r := by have := u.2.2.2.2.1; nlinarith
  have ha2 : orgLat * d2r ≤ π / 2 := by have := u.2.2.2.2.2.1; nlinarith
  obtain ⟨hb1, hb2⟩ := rad_mem h1 h2
  have hmem := cos_angle_mem (d := (turnDown tr.2.cm (turnUp tr.2.cm lon) - tr.2.cm) * d2r) ha1 ha2 hb1 hb2
  have hneg : ∀ _ : sin (orgLat * d2r) * sin (lat * d2r) + cos (orgLat * d2r) * cos (lat * d2r) *
      cos ((turnDown tr.2.cm (turnUp tr.2.cm lon) - tr.2.cm) * d2r) = -1, False := by
    intro h
    obtain ⟨q1, q2⟩ := cos_angle_neg_one ha1 ha2 hb1 hb2 h
    refine ha ⟨mul_right_cancel₀ hd.ne' (by rw [q1]; ring), ?_⟩
    obtain ⟨k, hk⟩ := cos_eq_neg_one_iff.1 q2
    obtain ⟨m, hm⟩ := t1.symm
    refine ⟨k + m, ?_⟩
    have : (turnDown tr.2.cm (turnUp tr.2.cm lon) - tr.2.cm) * d2r = (180 + 360 * k) * d2r := by
      rw [← hk, ← half_d2r]; ring
    have := mul_right_cancel₀ hd.ne' this
    rw [hm, ← h3]
    push_cast
    linarith
  rw [← h5, ← h6] at hmem hneg
  unfold azeqdist
  simp only
  generalize turnDown tr.2.cm (turnUp tr.2.cm lon) = lon' at *
  by_cases hcc : |tr.2.sinp * sin (lat * d2r) + tr.2.cosp * cos (lat * d2r) * cos ((lon' - tr.2.cm) * d2r)| ≥ 1
  · rw [if_pos hcc]
    rcases le_abs.1 hcc with h | h
    · rw [show tr.2.sinp * sin (lat * d2r) + tr.2.cosp * cos (lat * d2r) * cos ((lon' - tr.2.cm) * d2r) = 1 by linarith]
      simp
    · exact absurd (by linarith) (fun h => hneg h)
  · rw [if_neg hcc]
    have hcc' := abs_lt.1 (not_le.1 hcc)
    generalize hcdef : arccos (tr.2.sinp * sin (lat * d2r) + tr.2.cosp * cos (lat * d2r) * cos ((lon' - tr.2.cm) * d2r)) = c
    have hcos : cos c = tr.2.sinp * sin (lat * d2r) + tr.2.cosp * cos (lat * d2r) * cos ((lon' - tr.2.cm) * d2r) := by
      rw [← hcdef, cos_arccos hmem.1 hmem.2]
    have hc0 : 0 < c := by rw [← hcdef]; exact arccos_pos.2 hcc'.2
    have hcp : c < π := by
      rw [← hcdef]
      refine lt_of_le_of_ne (arccos_le_pi _) fun h => ?_
      have := arccos_eq_pi.1 h
      linarith [hcc'.1]
    obtain ⟨s1, -⟩ := azeqdist_spec (p := tr.2) hR (by rw [h5, h6]; exact sin_sq_add_cos_sq _)
      (sin_sq_add_cos_sq (lat * d2r)) (sin_sq_add_cos_sq ((lon' - tr.2.cm) * d2r)) hc0 hcp hcos rfl rfl
    simp only
    rw [div_pow, div_pow, ← add_div, sqrt_div (by positivity), s1, sqrt_sq (by norm_num)]
    ring

/-! ## Lambert -/

theorem lambertMake_ok {name : String} {orgLat orgLong rot pha phb : ℝ} {tr : Frame × Lambert}
    (h : lambertMake name orgLat orgLong rot pha phb = .ok tr) :
    Frame.make orgLat orgLong rot = .ok tr.1 ∧ vlamb name orgLong orgLat pha phb = .ok tr.2 ∧
    -90 ≤ pha ∧ pha ≤ 90 ∧ -90 ≤ phb ∧ phb ≤ 90 := by
  unfold lambertMake at h
  obtain ⟨fr, h1, h⟩ := bind_eq_ok' h
  have u := Frame.unit h1
  split at h
  · cases h
  · rename_i a1
    split at h
    · cases h
    · rename_i a2
      push Not at a1 a2
      obtain ⟨p, h2, h⟩ := bind_eq_ok' h
      cases h
      rw [u.2.1, u.2.2.1] at h2
      exact ⟨h1, h2, a1.2, a1.1, a2.2, a2.1⟩

/-- **C44, LAMBERT.** Standard parallels between the poles and not opposite to each other give a cone constant that is
the sine of a latitude between them. -/
theorem lambert_cone {name : String} {orgLat orgLong rot pha phb : ℝ} {tr : Frame × Lambert}
    (hm : lambertMake name orgLat orgLong rot pha phb = .ok tr)
    (ha1 : -90 < pha) (ha2 : pha < 90) (hb1 : -90 < phb) (hb2 : phb < 90) (hab : pha ≠ -phb) :
    tr.2.n ≠ 0 ∧ |tr.2.n| < 1 ∧
    ∃ c, min pha phb ≤ c ∧ c ≤ max pha phb ∧ tr.2.n = sin (degToRad c) := by
  obtain ⟨-, -, h3, h4, -, c, c1, c2, c3⟩ := vlamb_ok (lambertMake_ok hm).2.1 ha1 ha2 hb1 hb2 hab
  have hd := d2r_pos
  have e : c * r2d * d2r = c := by have := d2r_r2d; linear_combination c * this
  refine ⟨h3, h4, c * r2d, ?_, ?_, ?_⟩
  · exact le_of_mul_le_mul_right (by rw [e]; exact c1) hd
  · exact le_of_mul_le_mul_right (by rw [e]; exact c2) hd
  · rw [c3, ← mul_d2r, e]

/-- the distance in longitude from the origin, in degrees -/
theorem turn_abs (cm lon : ℝ) : |turnDown cm (turnUp cm lon) - cm| = |normalizeLon (lon - cm)| := by
  obtain ⟨t1, t2, t3⟩ := turn_spec cm lon
  obtain ⟨n1, n2, n3⟩ := normalizeLon_spec (lon - cm)
  have hs : SameAngle (turnDown cm (turnUp cm lon) - cm) (normalizeLon (lon - cm)) := by
    have := (t1.add_left (-cm)).trans (by rw [neg_add_eq_sub]; exact n3.symm)
    rwa [neg_add_eq_sub] at this
  rcases eq_or_lt_of_le t3 with h | h
  · rw [h]
    rw [h] at hs
    have : SameAngle (-180) (normalizeLon (lon - cm)) := SameAngle.trans ⟨-1, by norm_num⟩ hs
    rw [← this.eq (lo := -180) (by norm_num) (by norm_num) n1 (by linarith)]
    norm_num
  · rw [hs.eq (lo := -180) t2 (by linarith) n1 (by linarith)]

/-- **C44, LAMBERT.** The longitude is recovered exactly (normalised) and the latitude within 10⁻⁸ degrees (about a
millimetre), for every pair of standard parallels between the poles and not opposite to each other, and every position
within 90° of longitude of the origin and not within 2·10⁻⁸ degrees of the north pole nor at the south pole. -/
theorem lambert_round_trip_partial {name : String} {orgLat orgLong rot pha phb : ℝ} {tr : Frame × Lambert}
    (hm : lambertMake name orgLat orgLong rot pha phb = .ok tr)
    (ha1 : -90 < pha) (ha2 : pha < 90) (hb1 : -90 < phb) (hb2 : phb < 90) (hab : pha ≠ -phb)
    {lat lon : ℝ} (h1 : -90 < lat) (h2 : lat ≤ 90 - 1 / 50000000) (h3 : |normalizeLon (lon - orgLong)| ≤ 90) :
    |(lambertTo tr (lambertFrom tr lat lon)).1 - lat| ≤ 1 / 100000000 ∧
    (lambertTo tr (lambertFrom tr lat lon)).2 = normalizeLon lon := by
  obtain ⟨hf, hv, -⟩ := lambertMake_ok hm
  obtain ⟨he, hcm, hn, hn1, hfn, -⟩ := vlamb_ok hv ha1 ha2 hb1 hb2 hab
  obtain ⟨k1, k2, k3, k4, k5⟩ := mapSetup_ok he
  have u := Frame.unit hf
  unfold lambertTo lambertFrom
  simp only
  rw [rotate_inverse u.1]
  simp only [div_mul_cancel₀ _ (by norm_num : (1000 : ℝ) ≠ 0)]
  have hth : |tr.2.n * (turnDown tr.2.cm (turnUp tr.2.cm lon) - tr.2.cm)| < 90 := by
    rw [abs_mul, turn_abs, hcm]
    have := abs_nonneg tr.2.n
    nlinarith [abs_nonneg (normalizeLon (lon - orgLong))]
  obtain ⟨e1, e2⟩ := lamb_round_trip k1 k4 (by rw [k5]; exact k3) hn hfn h1 h2 hth
  exact ⟨e1, normalizeLon_congr e2⟩

/-- **C44, LAMBERT, farther positions.** The same holds as long as the longitude difference times the cone constant is
below a quarter turn. -/
theorem lambert_round_trip_cone {name : String} {orgLat orgLong rot pha phb : ℝ} {tr : Frame × Lambert}
    (hm : lambertMake name orgLat orgLong rot pha phb = .ok tr)
    (ha1 : -90 < pha) (ha2 : pha < 90) (hb1 : -90 < phb) (hb2 : phb < 90) (hab : pha ≠ -phb)
    {lat lon : ℝ} (h1 : -90 < lat) (h2 : lat ≤ 90 - 1 / 50000000)
    (h3 : |tr.2.n| * |normalizeLon (lon - orgLong)| < 90) :
    |(lambertTo tr (lambertFrom tr lat lon)).1 - lat| ≤ 1 / 100000000 ∧
    (lambertTo tr (lambertFrom tr lat lon)).2 = normalizeLon lon := by
  obtain ⟨hf, hv, -⟩ := lambertMake_ok hm
  obtain ⟨he, hcm, hn, hn1, hfn, -⟩ := vlamb_ok hv ha1 ha2 hb1 hb2 hab
  obtain ⟨k1, k2, k3, k4, k5⟩ := mapSetup_ok he
  have u := Frame.unit hf
  unfold lambertTo lambertFrom
  simp only
  rw [rotate_inverse u.1]
  simp only [div_mul_cancel₀ _ (by norm_num : (1000 : ℝ) ≠ 0)]
  obtain ⟨e1, e2⟩ := lamb_round_trip k1 k4 (by rw [k5]; exact k3) hn hfn h1 h2
    (by rw [abs_mul, turn_abs, hcm]; exact h3)
  exact ⟨e1, normalizeLon_congr e2⟩

/-- **C44, negation.** Beyond that the longitude is not recovered: with both standard parallels at 60°, the meridian
opposite to the origin comes back within 120° of it. -/
theorem lambert_far_side {tr : Frame × Lambert} (hm : lambertMake "WGS-84" 45 0 0 60 60 = .ok tr) (lat : ℝ) :
    |(ilamb tr.2 (lamb tr.2 180 lat).1 (lamb tr.2 180 lat).2).2| < 120 ∧
    (lambertTo tr (lambertFrom tr lat 180)).2 ≠ normalizeLon 180 := by
  obtain ⟨hf, hv, -⟩ := lambertMake_ok hm
  have u := Frame.unit hf
  obtain ⟨he, hcm, hn, hn1, hfn, c, c1, c2, c3⟩ := vlamb_ok hv (by norm_num) (by norm_num) (by norm_num) (by norm_num) (by norm_num)
  have hc : c = π / 3 := by
    have e : 60 * d2r = π / 3 := by unfold d2r; ring
    rw [min_self, e] at c1
    rw [max_self, e] at c2
    linarith
  have hn' : 0.75 < tr.2.n := by
    rw [c3, hc, sin_pi_div_three]
    have : (1.5 : ℝ) < √3 := by
      rw [lt_sqrt (by norm_num)]; norm_num
    linarith
  have key : ∀ v : ℝ × ℝ, |(ilamb tr.2 v.1 v.2).2| < 120 := by
    intro v
    unfold ilamb
    simp only
    rw [hcm, add_zero]
    generalize v.1 / (tr.2.rho0 - v.2) = z
    have a1 := arctan_lt_pi_div_two z
    have a2 := neg_pi_div_two_lt_arctan z
    have hpos : 0 < tr.2.n := by linarith
    have e1 : arctan z / tr.2.n * r2d = arctan z * r2d / tr.2.n := by ring
    have h90 : π / 2 * r2d = 90 := by unfold r2d; have := pi_pos; field_simp; norm_num
    have hr := r2d_pos
    rw [e1, abs_lt]
    constructor
    · rw [lt_div_iff₀ hpos]; nlinarith
    · rw [div_lt_iff₀ hpos]; nlinarith
  refine ⟨key _, ?_⟩
  unfold lambertTo lambertFrom
  simp only
  rw [rotate_inverse u.1]
  simp only [div_mul_cancel₀ _ (by norm_num : (1000 : ℝ) ≠ 0)]
  obtain ⟨b1, b2⟩ := abs_lt.1 (key (lamb tr.2 180 lat))
  rw [normalizeLon_id (by linarith) (by linarith)]
  have : normalizeLon 180 = -180 := by
    rw [normalizeLon_congr (show SameAngle 180 (-180) from ⟨1, by norm_num⟩), normalizeLon_id] <;> norm_num
  rw [this]
  intro h
  linarith

/-- **C44, negation.** Opposite standard parallels are accepted, although the cone constant is then 0 and every
conversion divides by it. -/
theorem lambert_opposite_parallels {pha : ℝ} (h1 : -90 < pha) (h2 : pha < 90) :
    ∃ tr, lambertMake "WGS-84" 45 0 0 pha (-pha) = .ok tr ∧ tr.2.n = 0 := by
  obtain ⟨e, he⟩ : ∃ e, mapSetup "WGS-84" = .ok e := ⟨_, rfl⟩
  obtain ⟨k1, k2, k3, k4, k5⟩ := mapSetup_ok he
  have hfr : Frame.make 45 0 0 = .ok ⟨45, 0, 0, cos (-degToRad 0), sin (-degToRad 0)⟩ := by
    unfold Frame.make; norm_num
  have hn : (if pha * d2r ≠ -pha * d2r then (dLog (lambM e.ecc2 (pha * d2r)) - dLog (lambM e.ecc2 (-pha * d2r))) /
      (dLog (lambT e.ecc (pha * d2r)) - dLog (lambT e.ecc (-pha * d2r))) else sin (pha * d2r)) = 0 := by
    have hM : lambM e.ecc2 (-pha * d2r) = lambM e.ecc2 (pha * d2r) := by
      unfold lambM; rw [neg_mul, cos_neg, sin_neg, neg_sq]
    split
    · rw [hM, sub_self, zero_div]
    · rename_i h
      push Not at h
      have : pha * d2r = 0 := by linarith
      rw [this, sin_zero]
  unfold lambertMake
  rw [hfr]
  simp only [Outcome.bind_ok]
  rw [if_neg (by push Not; constructor <;> linarith), if_neg (by push Not; constructor <;> linarith)]
  unfold vlamb
  rw [he]
  simp only [Outcome.bind_ok]
  refine ⟨_, rfl, ?_⟩
  simp only
  exact hn

/-! ## Transverse Mercator -/

theorem transMercMake_ok {name : String} {orgLat orgLong rot : ℝ} {b : Bool} {fe : ℤ} {k : ℝ} {tr : Frame × TransMerc}
    (h : transMercMake name orgLat orgLong rot b fe k = .ok tr) :
    Frame.make orgLat orgLong rot = .ok tr.1 ∧ vtm name orgLong orgLat b fe k = .ok tr.2 := by
  unfold transMercMake at h
  obtain ⟨fr, h1, h⟩ := bind_eq_ok' h
  have u := Frame.unit h1
  obtain ⟨p, h2, h⟩ := bind_eq_ok' h
  cases h
  rw [u.2.1, u.2.2.1] at h2
  exact ⟨h1, h2⟩

theorem transMerc_cancel {tr : Frame × TransMerc} {orgLat orgLong rot : ℝ} (hf : Frame.make orgLat orgLong rot = .ok tr.1)
    (lat lon : ℝ) :
    transMercTo tr (transMercFrom tr lat lon) =
      ((itm tr.2 (tm tr.2 lon lat).1 (tm tr.2 lon lat).2).1, normalizeLon (itm tr.2 (tm tr.2 lon lat).1 (tm tr.2 lon lat).2).2) := by
  unfold transMercTo transMercFrom
  simp only
  rw [rotate_inverse (Frame.unit hf).1]
  simp only [div_mul_cancel₀ _ (by norm_num : (1000 : ℝ) ≠ 0)]

/-- on the central meridian: no easting but the false one, and the northing is the arc of meridian from the origin -/
theorem tm_meridian (p : TransMerc) (lat : ℝ) :
    tm p p.cm lat = (if p.useFalseEasting then (p.falseEasting : ℝ) else 0, p.mapScaleFactor * p.arc (lat * d2r) - p.yCentral) := by
  unfold tm
  simp only [sub_self, abs_zero, show ¬ ((0 : ℝ) > 360) by norm_num, show ¬ ((0 : ℝ) > 180) by norm_num, if_false,
    zero_mul, mul_zero, add_zero]
  by_cases h : |lat * d2r| = π / 2
  · simp only [h, if_true, zero_add]
  · simp only [h, if_false, zero_add]

theorem itm_meridian (p : TransMerc) (y : ℝ) :
    itm p (if p.useFalseEasting then (p.falseEasting : ℝ) else 0) y =
      (p.foot ((y + p.yCentral) / p.mapScaleFactor / (p.e.eqRad * p.c1)) * r2d, p.cm) := by
  have hx : (if p.useFalseEasting then (if p.useFalseEasting then (p.falseEasting : ℝ) else 0) - p.falseEasting
      else (if p.useFalseEasting then (p.falseEasting : ℝ) else 0)) = 0 := by
    cases p.useFalseEasting <;> simp
  unfold itm
  simp only [hx, zero_div, mul_zero, zero_mul, add_zero, sub_zero, zero_add]

theorem vtm_ok {name : String} {lon0 lat0 : ℝ} {b : Bool} {fe : ℤ} {k : ℝ} {p : TransMerc} (h : vtm name lon0 lat0 b fe k = .ok p) :
    mapSetup name = .ok p.e ∧ p.cm = lon0 ∧ p.mapScaleFactor = k ∧ p.useFalseEasting = b ∧ p.falseEasting = fe := by
  unfold vtm at h
  obtain ⟨e, he, h⟩ := bind_eq_ok' h
  cases h
  exact ⟨he, rfl, rfl, rfl, rfl⟩

theorem vtm_central {name : String} {lon0 lat0 : ℝ} {b : Bool} {fe : ℤ} {k : ℝ} {p : TransMerc} (h : vtm name lon0 lat0 b fe k = .ok p) :
    p.yCentral = k * p.arc (lat0 * d2r) := by
  unfold vtm at h
  obtain ⟨e, he, h⟩ := bind_eq_ok' h
  cases h
  refine (congrArg Prod.snd (tm_meridian _ lat0)).trans ?_
  exact sub_zero _

/-- **C44, TRANS_MERC.** The origin has the coordinates (0, 0) on the grid, or the false easting (in kilometres). -/
theorem transverse_mercator_origin {name : String} {orgLat orgLong : ℝ} {b : Bool} {fe : ℤ} {k : ℝ}
    {tr : Frame × TransMerc} (hm : transMercMake name orgLat orgLong 0 b fe k = .ok tr) :
    transMercFrom tr orgLat orgLong = (if b then (fe : ℝ) / 1000 else 0, 0) := by
  obtain ⟨hf, hv⟩ := transMercMake_ok hm
  obtain ⟨he, hcm, hsf, hb, hfe⟩ := vtm_ok hv
  have hfr : tr.1.cosang = 1 ∧ tr.1.sinang = 0 := by
    have u := Frame.unit hf
    have h : Frame.make orgLat orgLong 0 = .ok ⟨orgLat, orgLong, 0, cos (-degToRad 0), sin (-degToRad 0)⟩ := by
      unfold Frame.make
      rw [if_neg (by push Not; exact ⟨u.2.2.2.2.2.1, u.2.2.2.2.1⟩),
        if_neg (by push Not; exact ⟨u.2.2.2.2.2.2.2.1, u.2.2.2.2.2.2.1⟩), if_neg (by norm_num)]
    rw [h] at hf
    injection hf with hf
    rw [← hf]
    simp [degToRad]
  unfold transMercFrom
  rw [← hcm, tm_meridian, vtm_central hv, hsf, hb, hfe]
  simp only [Frame.rotate, hfr.1, hfr.2, sub_self]
  cases b <;> simp

theorem sphere_setup : mapSetup "Sphere" = .ok ⟨6371008.7714, 0, 0, 0, 0⟩ := by
  have : ellipsoids.find? (fun e => e.1 == "Sphere") = some ("Sphere", 6371008.7714, 0) := by
    simp [ellipsoids, List.find?]
  unfold mapSetup
  rw [this]
  simp [dSqrt_eq]

theorem vtm_sphere {lon0 lat0 : ℝ} {b : Bool} {fe : ℤ} {k : ℝ} {p : TransMerc} (h : vtm "Sphere" lon0 lat0 b fe k = .ok p) :
    p.e.eqRad = 6371008.7714 ∧ p.e.ecc2 = 0 ∧ p.e2 = 0 ∧ p.c1 = 1 ∧ p.c2 = 0 ∧ p.c3 = 0 ∧ p.c4 = 0 ∧ p.ic1 = 0 ∧ p.ic2 = 0 ∧ p.ic3 = 0 ∧ p.ic4 = 0 := by
  unfold vtm at h
  rw [sphere_setup] at h
  simp only [Outcome.bind_ok] at h
  cases h
  simp [dSqrt_eq]

/-- **C44, TRANS_MERC, on the central meridian.** The longitude is recovered exactly for every ellipsoid, false easting
and scale factor other than 0; for the sphere the latitude is recovered exactly too. -/
theorem transverse_mercator_meridian_partial {name : String} {orgLat orgLong rot : ℝ} {b : Bool} {fe : ℤ} {k : ℝ}
    {tr : Frame × TransMerc} (hm : transMercMake name orgLat orgLong rot b fe k = .ok tr) (hk : k ≠ 0) (lat : ℝ) :
    (transMercTo tr (transMercFrom tr lat orgLong)).2 = normalizeLon orgLong ∧
    (name = "Sphere" → (transMercTo tr (transMercFrom tr lat orgLong)).1 = lat) := by
  obtain ⟨hf, hv⟩ := transMercMake_ok hm
  obtain ⟨he, hcm, hsf, -, -⟩ := vtm_ok hv
  rw [transMerc_cancel hf, ← hcm, tm_meridian, itm_meridian]
  refine ⟨rfl, fun hname => ?_⟩
  subst hname
  obtain ⟨q1, q2, q3, q4, q5, q6, q7, q8, q9, q10, q11⟩ := vtm_sphere hv
  have hd := d2r_r2d
  simp only [TransMerc.foot, TransMerc.arc, q1, q4, q5, q6, q7, q8, q9, q10, q11, hsf]
  rw [sub_add_cancel, mul_div_cancel_left₀ _ hk]
  have e1 : (6371008.7714 : ℝ) * (1 * (lat * d2r) - 0 * sin (2 * (lat * d2r)) + 0 * sin (4 * (lat * d2r)) - 0 * sin (6 * (lat * d2r))) /
      (6371008.7714 * 1) = lat * d2r := by
    rw [mul_div_mul_left _ _ (by norm_num)]; ring
  rw [e1]
  linear_combination lat * hd

/-- **C44, negation.** Away from the central meridian the inverse is a truncated series, not the inverse of the forward
series: on the sphere, a position on the equator one radian east of the origin comes back more than a degree away. -/
theorem transverse_mercator_inexact {tr : Frame × TransMerc} (hm : transMercMake "Sphere" 0 0 0 false 500000 1 = .ok tr) :
    (transMercTo tr (transMercFrom tr 0 r2d)).2 > normalizeLon r2d + 1 := by
  obtain ⟨hf, hv⟩ := transMercMake_ok hm
  obtain ⟨he, hcm, hsf, hb, -⟩ := vtm_ok hv
  obtain ⟨q1, q2, q3, q4, q5, q6, q7, q8, q9, q10, q11⟩ := vtm_sphere hv
  have hr0 := r2d_pos
  have hr60 : r2d < 60 := by
    unfold r2d; rw [div_lt_iff₀ pi_pos]; linarith [pi_gt_three]
  have hr50 : 50 < r2d := by
    unfold r2d; rw [lt_div_iff₀ pi_pos]; linarith [pi_lt_d2]
  have hy : tr.2.yCentral = 0 := by
    rw [vtm_central hv]
    simp [TransMerc.arc]
  have hrd : r2d * d2r = 1 := by rw [mul_comm]; exact d2r_r2d
  have hpi : ¬ ((0 : ℝ) = π / 2) := by have := pi_pos; intro h; linarith
  have htm : tm tr.2 r2d 0 = (6371008.7714 * (29 / 24), 0) := by
    unfold tm
    simp only [hcm, hsf, hb, hy, q1, q2, q3, sub_zero, abs_of_pos hr0, show ¬ r2d > 360 by linarith,
      show ¬ r2d > 180 by linarith, if_false, zero_mul, abs_zero, hpi, hrd, sin_zero, cos_zero, tan_zero, dSqrt_eq,
      TransMerc.arc, mul_zero, add_zero, sub_zero]
    simp only [Bool.false_eq_true, if_false, Prod.mk.injEq]
    norm_num
  have hitm : itm tr.2 (6371008.7714 * (29 / 24)) 0 = (0, r2d * (29 / 24 - (29 / 24) ^ 3 / 6 + (29 / 24) ^ 5 / 24)) := by
    unfold itm
    simp only [hcm, hsf, hb, hy, q1, q2, q3, q4, q8, q9, q10, q11, TransMerc.foot, add_zero, zero_div, mul_zero, sin_zero,
      cos_zero, tan_zero, dSqrt_eq, sub_zero, zero_mul]
    simp only [Bool.false_eq_true, if_false, Prod.mk.injEq]
    norm_num
  rw [transMerc_cancel hf, htm, hitm]
  simp only
  rw [normalizeLon_id (by nlinarith) (by nlinarith), normalizeLon_id (by linarith) (by linarith)]
  norm_num
  nlinarith

/-! ## Non-vacuity -/

theorem frame_ok {orgLat orgLong rot : ℝ} (h : -90 ≤ orgLat ∧ orgLat ≤ 90 ∧ -180 ≤ orgLong ∧ orgLong ≤ 180 ∧ -360 ≤ rot ∧ rot ≤ 360) :
    ∃ f, Frame.make orgLat orgLong rot = .ok f := by
  refine ⟨⟨orgLat, orgLong, rot, cos (-degToRad rot), sin (-degToRad rot)⟩, ?_⟩
  unfold Frame.make
  rw [if_neg (by push Not; exact ⟨h.2.1, h.1⟩), if_neg (by push Not; exact ⟨h.2.2.2.1, h.2.2.1⟩),
    if_neg (by push Not; exact ⟨h.2.2.2.2.2, h.2.2.2.2.1⟩)]

theorem bind_eq_ok {α β : Type} {x : Outcome α} {f : α → Outcome β} {r : β} :
    (x >>= f) = .ok r ↔ ∃ y, x = .ok y ∧ f y = .ok r := by
  cases x <;> simp [bind, Outcome.bind]

/-- **C44 (arguments).** An origin outside of ±90° and ±180°, a rotation outside of ±360° or a standard
parallel outside of ±90° is rejected by every transform, and everything inside is accepted if the ellipsoid is
known. -/
theorem transform_arguments_checked (name : String) (orgLat orgLong rot pha phb : ℝ) (b : Bool) (fe : ℤ) (k : ℝ) :
    ((∃ f, Frame.make orgLat orgLong rot = .ok f) ↔ |orgLat| ≤ 90 ∧ |orgLong| ≤ 180 ∧ |rot| ≤ 360) ∧
    ((∃ tr, lambertMake name orgLat orgLong rot pha phb = .ok tr) ↔
      |orgLat| ≤ 90 ∧ |orgLong| ≤ 180 ∧ |rot| ≤ 360 ∧ |pha| ≤ 90 ∧ |phb| ≤ 90 ∧ name ∈ ellipsoids.map (·.1)) ∧
    ((∃ tr, aziEqdistMake name orgLat orgLong rot = .ok tr) ↔
      |orgLat| ≤ 90 ∧ |orgLong| ≤ 180 ∧ |rot| ≤ 360 ∧ name ∈ ellipsoids.map (·.1)) ∧
    ((∃ tr, transMercMake name orgLat orgLong rot b fe k = .ok tr) ↔
      |orgLat| ≤ 90 ∧ |orgLong| ≤ 180 ∧ |rot| ≤ 360 ∧ name ∈ ellipsoids.map (·.1)) := by
  have hset : (∃ e, mapSetup name = .ok e) ↔ name ∈ ellipsoids.map (·.1) := by
    unfold mapSetup
    cases hf : ellipsoids.find? (fun e => e.1 == name) with
    | none =>
      simp only [reduceCtorEq, exists_false, false_iff]
      intro hm
      obtain ⟨e, he, rfl⟩ := List.mem_map.1 hm
      have := List.find?_eq_none.1 hf e he
      simp at this
    | some e =>
      have h1 := List.find?_some hf
      have h2 := List.mem_of_find?_eq_some hf
      obtain ⟨n, r, f⟩ := e
      simp only [beq_iff_eq] at h1
      subst h1
      simp only [Outcome.ok.injEq, exists_eq', true_iff]
      exact List.mem_map.2 ⟨_, h2, rfl⟩
  have hfr : (∃ f, Frame.make orgLat orgLong rot = .ok f) ↔ |orgLat| ≤ 90 ∧ |orgLong| ≤ 180 ∧ |rot| ≤ 360 := by
    constructor
    · rintro ⟨f, hf⟩
      unfold Frame.make at hf
      split at hf
      · cases hf
      · split at hf
        · cases hf
        · split at hf
          · cases hf
          · rename_i h1 h2 h3
            push Not at h1 h2 h3
            exact ⟨abs_le.2 ⟨h1.2, h1.1⟩, abs_le.2 ⟨h2.2, h2.1⟩, abs_le.2 ⟨h3.2, h3.1⟩⟩
    · rintro ⟨h1, h2, h3⟩
      rw [abs_le] at h1 h2 h3
      exact frame_ok ⟨h1.1, h1.2, h2.1, h2.2, h3.1, h3.2⟩
  refine ⟨hfr, ?_, ?_, ?_⟩
  · constructor
    · rintro ⟨tr, h⟩
      unfold lambertMake at h
      rw [bind_eq_ok] at h
      obtain ⟨f, hf, h⟩ := h
      obtain ⟨a1, a2, a3⟩ := hfr.1 ⟨f, hf⟩
      by_cases g1 : pha > 90 ∨ pha < -90
      · rw [if_pos g1] at h; cases h
      · rw [if_neg g1] at h
        by_cases g2 : phb > 90 ∨ phb < -90
        · rw [if_pos g2] at h; cases h
        · rw [if_neg g2, bind_eq_ok] at h
          obtain ⟨p, hp, _⟩ := h
          unfold vlamb at hp
          rw [bind_eq_ok] at hp
          obtain ⟨e, he, _⟩ := hp
          push Not at g1 g2
          exact ⟨a1, a2, a3, abs_le.2 ⟨g1.2, g1.1⟩, abs_le.2 ⟨g2.2, g2.1⟩, hset.1 ⟨e, he⟩⟩
    · rintro ⟨a1, a2, a3, a4, a5, a6⟩
      obtain ⟨f, hf⟩ := hfr.2 ⟨a1, a2, a3⟩
      obtain ⟨e, he⟩ := hset.2 a6
      rw [abs_le] at a4 a5
      unfold lambertMake
      rw [hf]
      simp only [Outcome.bind_ok]
      rw [if_neg (by push Not; exact ⟨a4.2, a4.1⟩), if_neg (by push Not; exact ⟨a5.2, a5.1⟩)]
      unfold vlamb
      rw [he]
      exact ⟨_, rfl⟩
  · constructor
    · rintro ⟨tr, h⟩
      unfold aziEqdistMake at h
      rw [bind_eq_ok] at h
      obtain ⟨f, hf, h⟩ := h
      obtain ⟨a1, a2, a3⟩ := hfr.1 ⟨f, hf⟩
      rw [bind_eq_ok] at h
      obtain ⟨p, hp, _⟩ := h
      unfold vazeqdist at hp
      rw [bind_eq_ok] at hp
      obtain ⟨e, he, _⟩ := hp
      exact ⟨a1, a2, a3, hset.1 ⟨e, he⟩⟩
    · rintro ⟨a1, a2, a3, a4⟩
      obtain ⟨f, hf⟩ := hfr.2 ⟨a1, a2, a3⟩
      obtain ⟨e, he⟩ := hset.2 a4
      unfold aziEqdistMake
      rw [hf]
      simp only [Outcome.bind_ok]
      unfold vazeqdist
      rw [he]
      exact ⟨_, rfl⟩
  · constructor
    · rintro ⟨tr, h⟩
      unfold transMercMake at h
      rw [bind_eq_ok] at h
      obtain ⟨f, hf, h⟩ := h
      obtain ⟨a1, a2, a3⟩ := hfr.1 ⟨f, hf⟩
      rw [bind_eq_ok] at h
      obtain ⟨p, hp, _⟩ := h
      unfold vtm at hp
      rw [bind_eq_ok] at hp
      obtain ⟨e, he, _⟩ := hp
      exact ⟨a1, a2, a3, hset.1 ⟨e, he⟩⟩
    · rintro ⟨a1, a2, a3, a4⟩
      obtain ⟨f, hf⟩ := hfr.2 ⟨a1, a2, a3⟩
      obtain ⟨e, he⟩ := hset.2 a4
      unfold transMercMake
      rw [hf]
      simp only [Outcome.bind_ok]
      unfold vtm
      rw [he]
      exact ⟨_, rfl⟩

/-- a grid header with latitude and longitude swapped is rejected -/
example : ¬ ∃ f, Frame.make 100 46 0 = .ok f := by
  rw [(transform_arguments_checked "" 100 46 0 0 0 false 0 1).1]
  intro h
  have := h.1
  norm_num at this

example : ∃ e, mapSetup "WGS-84" = .ok e := ⟨_, rfl⟩
example : mapSetup "WGS84" = .throws := by
  have : ellipsoids.find? (fun e => e.1 == "WGS84") = none := by simp [ellipsoids, List.find?]
  unfold mapSetup; rw [this]

example : ∃ tr, aziEqdistMake "WGS-84" 46.5 8 30 = .ok tr := by
  obtain ⟨f, hf⟩ := frame_ok (orgLat := 46.5) (orgLong := 8) (rot := 30) (by norm_num)
  unfold aziEqdistMake
  rw [hf]
  exact ⟨_, rfl⟩

example : ∃ tr, aziEqdistMake "Sphere" 0 (-20) 0 = .ok tr := by
  obtain ⟨f, hf⟩ := frame_ok (orgLat := 0) (orgLong := -20) (rot := 0) (by norm_num)
  unfold aziEqdistMake
  rw [hf]
  exact ⟨_, rfl⟩

theorem lambert_example {orgLat orgLong rot pha phb : ℝ}
    (h : -90 ≤ orgLat ∧ orgLat ≤ 90 ∧ -180 ≤ orgLong ∧ orgLong ≤ 180 ∧ -360 ≤ rot ∧ rot ≤ 360)
    (ha : -90 ≤ pha ∧ pha ≤ 90) (hb : -90 ≤ phb ∧ phb ≤ 90) : ∃ tr, lambertMake "WGS-84" orgLat orgLong rot pha phb = .ok tr := by
  obtain ⟨f, hf⟩ := frame_ok h
  unfold lambertMake
  rw [hf]
  simp only [Outcome.bind_ok]
  rw [if_neg (by push Not; exact ⟨ha.2, ha.1⟩), if_neg (by push Not; exact ⟨hb.2, hb.1⟩)]
  exact ⟨_, rfl⟩

/-- a Swiss grid -/
example : ∃ tr, lambertMake "WGS-84" 46.5 8 30 46 47 = .ok tr ∧
    |(lambertTo tr (lambertFrom tr 47.25 9.5)).1 - 47.25| ≤ 1 / 100000000 ∧
    (lambertTo tr (lambertFrom tr 47.25 9.5)).2 = 9.5 := by
  obtain ⟨tr, h⟩ := lambert_example (orgLat := 46.5) (orgLong := 8) (rot := 30) (pha := 46) (phb := 47)
    (by norm_num) (by norm_num) (by norm_num)
  have hl : normalizeLon (9.5 - 8) = 1.5 := by
    rw [show (9.5 - 8 : ℝ) = 1.5 by norm_num, normalizeLon_id] <;> norm_num
  obtain ⟨a, b⟩ := lambert_round_trip_partial h (by norm_num) (by norm_num) (by norm_num) (by norm_num) (by norm_num)
    (lat := 47.25) (lon := 9.5) (by norm_num) (by norm_num) (by rw [hl, abs_le]; norm_num)
  refine ⟨tr, h, a, ?_⟩
  rw [b, normalizeLon_id] <;> norm_num

example : ∃ tr, lambertMake "WGS-84" 45 0 0 60 60 = .ok tr :=
  lambert_example (by norm_num) (by norm_num) (by norm_num)

example : ∃ tr, transMercMake "International" 46.5 8 0 true 500000 0.9996 = .ok tr := by
  obtain ⟨f, hf⟩ := frame_ok (orgLat := 46.5) (orgLong := 8) (rot := 0) (by norm_num)
  unfold transMercMake
  rw [hf]
  exact ⟨_, rfl⟩

example : ∃ tr, transMercMake "Sphere" 0 0 0 false 500000 1 = .ok tr := by
  obtain ⟨f, hf⟩ := frame_ok (orgLat := 0) (orgLong := 0) (rot := 0) (by norm_num)
  unfold transMercMake
  rw [hf]
  exact ⟨_, rfl⟩

end Verif.Geo
