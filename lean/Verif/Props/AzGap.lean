import Verif.Model.AzGap
import Mathlib.Tactic.Linarith
import Mathlib.Tactic.NormNum
import Mathlib.Tactic.Ring
import Mathlib.Order.Bounds.Basic

/-!
# C54: azimuthal gap
-/

namespace Verif.AzGap

/-- **Specification.** The observations (index of the observation, number of turns) seen strictly
inside the sector of width `g` starting at azimuth `θ`. -/
def InSector (azi : List ℚ) (θ g : ℚ) (jk : Nat × ℤ) : Prop :=
  ∃ h : jk.1 < azi.length, θ < azi[jk.1] + 360 * jk.2 ∧ azi[jk.1] + 360 * jk.2 < θ + g

/-- **Specification.** Widths (at most a full turn) of the sectors that start at an observation and
contain at most `m` others. -/
def Sectors (azi : List ℚ) (m : Nat) : Set ℚ :=
  {g | 0 ≤ g ∧ g ≤ 360 ∧ ∃ θ ∈ azi, ∀ l : List (Nat × ℤ), l.Nodup →
    (∀ jk ∈ l, InSector azi θ g jk) → l.length ≤ m}

/-! ### proofs -/

/-- the azimuths repeated on every turn -/
def per (L : List ℚ) (p : ℤ) : ℚ :=
  L.getD (p % L.length).toNat 0 + 360 * ((p / L.length : ℤ) : ℚ)

theorem per_nat {L : List ℚ} {i : Nat} (h : i < L.length) : per L i = L[i] := by
  unfold per
  have h1 : ((i : ℤ) % L.length) = i := Int.emod_eq_of_lt (by omega) (by omega)
  have h2 : ((i : ℤ) / L.length) = 0 := Int.ediv_eq_zero_of_lt (by omega) (by omega)
  rw [h1, h2]
  simp [h]

theorem per_add {L : List ℚ} (hL : L ≠ []) (p k : ℤ) : per L (p + L.length * k) = per L p + 360 * k := by
  have hn : (L.length : ℤ) ≠ 0 := by
    have := List.length_pos_iff.2 hL; omega
  unfold per
  rw [Int.add_mul_emod_self_left, Int.add_mul_ediv_left _ _ hn]
  push_cast; ring

/-- every position is an observation on some turn -/
theorem per_pos {L : List ℚ} (hL : L ≠ []) (p : ℤ) :
    ∃ (j : Nat) (h : j < L.length) (k : ℤ), p = j + L.length * k ∧ per L p = L[j] + 360 * k := by
  have hn : 0 < (L.length : ℤ) := by have := List.length_pos_iff.2 hL; omega
  have hm0 := Int.emod_nonneg p (ne_of_gt hn)
  have hm1 := Int.emod_lt_of_pos p hn
  have hj : (p % L.length).toNat < L.length := by omega
  refine ⟨(p % L.length).toNat, hj, p / L.length, ?_, ?_⟩
  · have := Int.emod_add_mul_ediv p L.length; omega
  · unfold per; simp [hj]

theorem per_step {L : List ℚ} (hL : L ≠ []) (hs : L.Pairwise (· ≤ ·)) {a : ℚ}
    (hr : ∀ x ∈ L, a ≤ x ∧ x < a + 360) (p : ℤ) : per L p ≤ per L (p + 1) := by
  obtain ⟨j, hj, k, hp, hv⟩ := per_pos hL p
  rw [hv]
  by_cases hlast : j + 1 < L.length
  · have : p + 1 = ((j + 1 : ℕ) : ℤ) + L.length * k := by push_cast; omega
    rw [this, per_add hL, per_nat hlast]
    have := List.pairwise_iff_getElem.1 hs j (j + 1) hj hlast (by omega)
    linarith
  · have hj' : j + 1 = L.length := by omega
    have h0 : 0 < L.length := by omega
    have : p + 1 = ((0 : ℕ) : ℤ) + L.length * (k + 1) := by
      push_cast; rw [hp, ← hj']; push_cast; ring
    rw [this, per_add hL, per_nat h0]
    have h1 := (hr L[j] (List.getElem_mem _)).2
    have h2 := (hr L[0] (List.getElem_mem _)).1
    push_cast
    linarith

theorem per_mono {L : List ℚ} (hL : L ≠ []) (hs : L.Pairwise (· ≤ ·)) {a : ℚ}
    (hr : ∀ x ∈ L, a ≤ x ∧ x < a + 360) : Monotone (per L) :=
  monotone_int_of_le_succ (per_step hL hs hr)

theorem ext_eq {L : List ℚ} (h2 : 2 ≤ L.length) (i : Nat) (hi : i < L.length + 2) :
    (L ++ [L.getD 0 0 + 360, L.getD 1 0 + 360]).getD i 0 = per L i := by
  have hL : L ≠ [] := by rintro rfl; simp at h2
  rw [List.getD_eq_getElem?_getD]
  by_cases h : i < L.length
  · rw [List.getElem?_append_left h, per_nat h]; simp [h]
  · rw [List.getElem?_append_right (by omega)]
    have hi' : i = L.length ∨ i = L.length + 1 := by omega
    rcases hi' with rfl | rfl
    · have : ((L.length : ℕ) : ℤ) = ((0 : ℕ) : ℤ) + L.length * 1 := by push_cast; ring
      rw [this, per_add hL, per_nat (by omega)]
      simp [List.getElem?_eq_getElem (show 0 < L.length by omega)]
    · have : ((L.length + 1 : ℕ) : ℤ) = ((1 : ℕ) : ℤ) + L.length * 1 := by push_cast; ring
      rw [this, per_add hL, per_nat (by omega)]
      simp [List.getElem?_eq_getElem (show 1 < L.length by omega)]

/-- running maximum -/
theorem runMax (f : Nat → ℚ) (n : Nat) :
    let r := (List.range n).foldl (fun acc i => if f i > acc then f i else acc) 0
    (∀ i < n, f i ≤ r) ∧ 0 ≤ r ∧ (r = 0 ∨ ∃ i < n, r = f i) := by
  induction n with
  | zero => simp
  | succ n ih =>
    simp only [List.range_succ, List.foldl_append, List.foldl_cons, List.foldl_nil] at ih ⊢
    generalize (List.range n).foldl (fun acc i => if f i > acc then f i else acc) 0 = r at *
    obtain ⟨h1, h2, h3⟩ := ih
    split
    · rename_i hg
      refine ⟨?_, by linarith, .inr ⟨n, by omega, rfl⟩⟩
      intro i hi
      rcases Nat.lt_succ_iff_lt_or_eq.1 hi with h | rfl
      · exact le_trans (h1 i h) (le_of_lt hg)
      · exact le_rfl
    · rename_i hg
      refine ⟨?_, h2, ?_⟩
      · intro i hi
        rcases Nat.lt_succ_iff_lt_or_eq.1 hi with h | rfl
        · exact h1 i h
        · exact not_lt.1 hg
      · rcases h3 with h | ⟨i, hi, h⟩
        · exact .inl h
        · exact .inr ⟨i, by omega, h⟩

theorem maxGap_spec {L : List ℚ} (h2 : 2 ≤ L.length) (step : Nat) (hst : step ≤ 2) :
    let r := maxGap (L ++ [L.getD 0 0 + 360, L.getD 1 0 + 360]) L.length step
    (∀ i < L.length, per L (i + step) - per L i ≤ r) ∧ 0 ≤ r ∧
    (r = 0 ∨ ∃ i < L.length, r = per L (i + step) - per L i) := by
  have h := runMax (fun i => (L ++ [L.getD 0 0 + 360, L.getD 1 0 + 360]).getD (i + step) 0 -
    (L ++ [L.getD 0 0 + 360, L.getD 1 0 + 360]).getD i 0) L.length
  have key : ∀ i < L.length, (L ++ [L.getD 0 0 + 360, L.getD 1 0 + 360]).getD (i + step) 0 -
    (L ++ [L.getD 0 0 + 360, L.getD 1 0 + 360]).getD i 0 = per L (i + step) - per L i := by
    intro i hi
    rw [ext_eq h2 _ (by omega), ext_eq h2 _ (by omega)]
    push_cast; rfl
  refine ⟨?_, h.2.1, ?_⟩
  · intro i hi; rw [← key i hi]; exact h.1 i hi
  · rcases h.2.2 with h' | ⟨i, hi, h'⟩
    · exact .inl h'
    · exact .inr ⟨i, hi, by rw [← key i hi]; exact h'⟩

/-- the sorted list sees the same sectors as the original one -/
theorem sectors_perm {A B : List ℚ} (h : A.Perm B) (m : Nat) : Sectors A m ⊆ Sectors B m := by
  rintro g ⟨h0, h1, θ, hθ, hl⟩
  refine ⟨h0, h1, θ, h.mem_iff.1 hθ, ?_⟩
  intro l hnd hin
  -- index bijection
  obtain ⟨σ, hσ⟩ : ∃ σ : Nat → Nat, (∀ j (hj : j < B.length), ∃ hj' : σ j < A.length, A[σ j] = B[j]) ∧
      ∀ i j, i < B.length → j < B.length → σ i = σ j → i = j := by
    clear hl hin hnd hθ h0 h1
    induction h with
    | nil => exact ⟨id, by simp, by simp⟩
    | cons x _ ih =>
      obtain ⟨σ, h1, h2⟩ := ih
      refine ⟨fun j => match j with | 0 => 0 | j + 1 => σ j + 1, ?_, ?_⟩
      · intro j hj
        cases j with
        | zero => exact ⟨by simp, rfl⟩
        | succ j =>
          obtain ⟨hj', he⟩ := h1 j (by simpa using hj)
          exact ⟨by simpa using hj', by simpa using he⟩
      · intro i j hi hj he
        cases i <;> cases j
        · rfl
        · simp at he
        · simp at he
        · simp at he; simp at hi hj; rw [h2 _ _ hi hj he]
    | swap x y l =>
      refine ⟨fun j => match j with | 0 => 1 | 1 => 0 | j + 2 => j + 2, ?_, ?_⟩
      · intro j hj
        match j with
        | 0 => exact ⟨by simp, rfl⟩
        | 1 => exact ⟨by simp, rfl⟩
        | j + 2 => exact ⟨by simpa using hj, rfl⟩
      · intro i j hi hj he
        match i, j with
        | 0, 0 => rfl
        | 0, 1 => simp at he
        | 0, j + 2 => simp at he
        | 1, 0 => simp at he
        | 1, 1 => rfl
        | 1, j + 2 => simp at he
        | i + 2, 0 => simp at he
        | i + 2, 1 => simp at he
        | i + 2, j + 2 => simpa using he
    | trans _ _ ih1 ih2 =>
      obtain ⟨σ, h1, h2⟩ := ih1
      obtain ⟨τ, k1, k2⟩ := ih2
      refine ⟨σ ∘ τ, ?_, ?_⟩
      · intro j hj
        obtain ⟨hj', he⟩ := k1 j hj
        obtain ⟨hj'', he'⟩ := h1 _ hj'
        exact ⟨hj'', he'.trans he⟩
      · intro i j hi hj he
        obtain ⟨hi', _⟩ := k1 i hi
        obtain ⟨hj', _⟩ := k1 j hj
        exact k2 i j hi hj (h2 _ _ hi' hj' he)
  have := hl (l.map fun jk => (σ jk.1, jk.2)) ?_ ?_
  · simpa using this
  · rw [List.nodup_map_iff_inj_on hnd]
    intro x hx y hy he
    obtain ⟨hxl, _⟩ := hin x hx
    obtain ⟨hyl, _⟩ := hin y hy
    simp at he
    exact Prod.ext (hσ.2 _ _ hxl hyl he.1) he.2
  · intro jk hjk
    rw [List.mem_map] at hjk
    obtain ⟨x, hx, rfl⟩ := hjk
    obtain ⟨hxl, hlo, hhi⟩ := hin x hx
    obtain ⟨hσl, hv⟩ := hσ.1 x.1 hxl
    exact ⟨hσl, by simp only [hv]; exact hlo, by simp only [hv]; exact hhi⟩

/-- `maxGap` with step `m+1` is the width of the largest sector with at most `m` observations -/
theorem maxGap_greatest {L : List ℚ} (h2 : 2 ≤ L.length) (hs : L.Pairwise (· ≤ ·)) {a : ℚ}
    (hr : ∀ x ∈ L, a ≤ x ∧ x < a + 360) (m : Nat) (hm : m ≤ 1) :
    IsGreatest (Sectors L m)
      (maxGap (L ++ [L.getD 0 0 + 360, L.getD 1 0 + 360]) L.length (m + 1)) := by
  have hL : L ≠ [] := by rintro rfl; simp at h2
  have hmono := per_mono hL hs hr
  obtain ⟨s1, s2, s3⟩ := maxGap_spec h2 (m + 1) (by omega)
  generalize maxGap (L ++ [L.getD 0 0 + 360, L.getD 1 0 + 360]) L.length (m + 1) = r at *
  have hturn : ∀ i < L.length, per L (i + (m + 1 : ℕ)) - per L i ≤ 360 := by
    intro i _
    have h1 : per L (i + (m + 1 : ℕ)) ≤ per L (i + L.length * 1) := by
      apply hmono; push_cast; omega
    rw [per_add hL] at h1
    push_cast at h1 ⊢
    linarith
  have hattain : ∃ i < L.length, r = per L (i + (m + 1 : ℕ)) - per L i := by
    rcases s3 with h | h
    · refine ⟨0, by omega, ?_⟩
      have h1 := s1 0 (by omega)
      have h2 : per L ((0 : ℕ) : ℤ) ≤ per L (((0 : ℕ) : ℤ) + (m + 1 : ℕ)) := by
        apply hmono; push_cast; omega
      rw [h] at h1 ⊢
      linarith
    · exact h
  constructor
  · obtain ⟨i, hi, hri⟩ := hattain
    refine ⟨s2, by rw [hri]; exact hturn i hi, L[i], List.getElem_mem _, ?_⟩
    intro l hnd hin
    -- positions of the members of the list
    let pos : Nat × ℤ → ℤ := fun jk => jk.1 + L.length * jk.2
    have hpos : ∀ jk ∈ l, (i : ℤ) < pos jk ∧ pos jk < i + (m + 1 : ℕ) := by
      intro jk hjk
      obtain ⟨hj, hlo, hhi⟩ := hin jk hjk
      have hv : per L (pos jk) = L[jk.1] + 360 * jk.2 := by
        simp only [pos]; rw [per_add hL, per_nat hj]
      rw [← hv] at hlo hhi
      rw [← per_nat hi] at hlo hhi
      rw [hri] at hhi
      constructor
      · by_contra hc
        have := hmono (not_lt.1 hc); linarith
      · by_contra hc
        have := hmono (not_lt.1 hc); linarith
    have hinj : ∀ x ∈ l, ∀ y ∈ l, pos x = pos y → x = y := by
      intro x hx y hy he
      obtain ⟨hxl, _⟩ := hin x hx
      obtain ⟨hyl, _⟩ := hin y hy
      simp only [pos] at he
      have hn : (0 : ℤ) < L.length := by omega
      have e1 : ((x.1 : ℤ) + L.length * x.2) / L.length = x.2 := by
        rw [Int.add_mul_ediv_left _ _ (by omega), Int.ediv_eq_zero_of_lt (by omega) (by omega)]; simp
      have e2 : ((y.1 : ℤ) + L.length * y.2) / L.length = y.2 := by
        rw [Int.add_mul_ediv_left _ _ (by omega), Int.ediv_eq_zero_of_lt (by omega) (by omega)]; simp
      have e3 : x.2 = y.2 := by rw [← e1, he, e2]
      rw [e3] at he
      exact Prod.ext (by omega) e3
    have hlen : l.length ≤ m := by
      have hnd' : (l.map pos).Nodup := by
        rw [List.nodup_map_iff_inj_on hnd]; exact hinj
      have hm' : m = 0 ∨ m = 1 := by omega
      rcases hm' with rfl | rfl
      · cases l with
        | nil => simp
        | cons x l => have := hpos x (by simp); push_cast at this; omega
      · match l with
        | [] => simp
        | [x] => simp
        | x :: y :: l =>
          have hx := hpos x (by simp)
          have hy := hpos y (by simp)
          push_cast at hx hy
          have : pos x = pos y := by omega
          simp [this] at hnd'
    exact hlen
  · rintro g ⟨hg0, hg1, θ, hθ, hl⟩
    -- last index with this azimuth
    obtain ⟨i, hi, hiv, hnext⟩ : ∃ i, ∃ hi : i < L.length, L[i] = θ ∧ θ < per L (i + 1) := by
      by_contra hc
      push Not at hc
      obtain ⟨j0, hj0, hjv⟩ := List.getElem_of_mem hθ
      have hall : ∀ d, ∀ h : j0 + d < L.length, L[j0 + d] = θ := by
        intro d
        induction d with
        | zero => intro h; exact hjv
        | succ d ih =>
          intro h
          have h1 := ih (by omega)
          have h2 := hc (j0 + d) (by omega) h1
          have : per L (((j0 + d : ℕ) : ℤ) + 1) = L[j0 + (d + 1)] := by
            rw [show (((j0 + d : ℕ) : ℤ) + 1) = ((j0 + (d + 1) : ℕ) : ℤ) from by push_cast; ring,
              per_nat h]
          rw [this] at h2
          have h3 := List.pairwise_iff_getElem.1 hs (j0 + d) (j0 + (d + 1)) (by omega) h (by omega)
          rw [h1] at h3
          linarith
      have hlast := hall (L.length - 1 - j0) (by omega)
      have hidx : j0 + (L.length - 1 - j0) = L.length - 1 := by omega
      have h1 := hc (j0 + (L.length - 1 - j0)) (by omega) hlast
      rw [hidx] at h1
      have h2' : ((L.length - 1 : ℕ) : ℤ) + 1 = ((0 : ℕ) : ℤ) + L.length * 1 := by push_cast; omega
      rw [h2', per_add hL, per_nat (by omega)] at h1
      have h3 := (hr L[0] (List.getElem_mem _)).1
      have h4 := (hr θ hθ).2
      push_cast at h1
      linarith
    by_contra hgr
    push Not at hgr
    have hgap := s1 i hi
    -- the next m+1 observations are all inside the sector
    have hin : ∀ d, d ≤ m → ∃ jk, InSector L θ g jk ∧ (jk.1 : ℤ) + L.length * jk.2 = i + 1 + d := by
      intro d hd
      obtain ⟨j, hj, k, hp, hv⟩ := per_pos hL ((i : ℤ) + 1 + d)
      refine ⟨(j, k), ⟨hj, ?_, ?_⟩, hp.symm⟩
      · rw [← hv]
        exact lt_of_lt_of_le hnext (hmono (by omega))
      · rw [← hv]
        have h1 : per L ((i : ℤ) + 1 + d) ≤ per L (i + (m + 1 : ℕ)) := hmono (by push_cast; omega)
        rw [per_nat hi, hiv] at hgap
        linarith
    have hm' : m = 0 ∨ m = 1 := by omega
    rcases hm' with rfl | rfl
    · obtain ⟨jk, h1, _⟩ := hin 0 le_rfl
      have := hl [jk] (by simp) (by simpa using h1)
      simp at this
    · obtain ⟨jk, h1, e1⟩ := hin 0 (by omega)
      obtain ⟨jk', h1', e1'⟩ := hin 1 le_rfl
      have hne : jk ≠ jk' := by
        rintro rfl; rw [e1] at e1'; push_cast at e1'; omega
      have := hl [jk, jk'] (by simpa using hne) (by simpa using ⟨h1, h1'⟩)
      simp at this

theorem gaps_greatest (azi : List ℚ) (h2 : 2 ≤ azi.length) {a : ℚ}
    (hr : ∀ x ∈ azi, a ≤ x ∧ x < a + 360) :
    IsGreatest (Sectors azi 0) (gaps azi).1 ∧ IsGreatest (Sectors azi 1) (gaps azi).2 := by
  have hp := List.perm_insertionSort (· ≤ ·) azi
  have hlen := hp.length_eq
  have hs : (azi.insertionSort (· ≤ ·)).Pairwise (· ≤ ·) := List.pairwise_insertionSort (· ≤ ·) azi
  have hr' : ∀ x ∈ azi.insertionSort (· ≤ ·), a ≤ x ∧ x < a + 360 :=
    fun x hx => hr x (hp.mem_iff.1 hx)
  have hg : ∀ m, m ≤ 1 → IsGreatest (Sectors azi m)
      (maxGap (azi.insertionSort (· ≤ ·) ++ [(azi.insertionSort (· ≤ ·)).getD 0 0 + 360,
        (azi.insertionSort (· ≤ ·)).getD 1 0 + 360]) azi.length (m + 1)) := by
    intro m hm
    have hgr := maxGap_greatest (by omega) hs hr' m hm
    rw [hlen] at hgr
    have he : Sectors azi m = Sectors (azi.insertionSort (· ≤ ·)) m :=
      Set.Subset.antisymm (sectors_perm hp.symm m) (sectors_perm hp m)
    rw [he]; exact hgr
  unfold gaps
  rw [if_pos h2]
  exact ⟨hg 0 (by omega), hg 1 le_rfl⟩

/-- **C54a.** With at least two used phases, the azimuthal gap is the width of the largest sector
(starting at an observation) that contains no observation.  Azimuths may be given in any range of
one turn. -/
theorem azimuthal_gap_primary (azi : List ℚ) (h2 : 2 ≤ azi.length) {a : ℚ}
    (hr : ∀ x ∈ azi, a ≤ x ∧ x < a + 360) : IsGreatest (Sectors azi 0) (gaps azi).1 :=
  (gaps_greatest azi h2 hr).1

/-- **C54b (partial).** The secondary gap is the width of the largest sector containing at most one
*used phase*.  What is missing: the property speaks of stations, and a station with both a P and an S
phase counts twice (`azimuthal_gap_secondary_counts_phases`). -/
theorem azimuthal_gap_secondary_partial (azi : List ℚ) (h2 : 2 ≤ azi.length) {a : ℚ}
    (hr : ∀ x ∈ azi, a ≤ x ∧ x < a + 360) : IsGreatest (Sectors azi 1) (gaps azi).2 :=
  (gaps_greatest azi h2 hr).2

/-- **C54c.** `0 ≤ primary ≤ secondary ≤ 360` for every list of azimuths. -/
theorem azimuthal_gap_order (azi : List ℚ) {a : ℚ} (hr : ∀ x ∈ azi, a ≤ x ∧ x < a + 360) :
    0 ≤ (gaps azi).1 ∧ (gaps azi).1 ≤ (gaps azi).2 ∧ (gaps azi).2 ≤ 360 := by
  by_cases h2 : 2 ≤ azi.length
  · obtain ⟨hp, hs⟩ := gaps_greatest azi h2 hr
    refine ⟨hp.1.1, ?_, hs.1.2.1⟩
    apply hs.2
    obtain ⟨h0, h1, θ, hθ, hl⟩ := hp.1
    exact ⟨h0, h1, θ, hθ, fun l hnd hin => le_trans (hl l hnd hin) (by omega)⟩
  · unfold gaps; rw [if_neg (by omega)]; norm_num

example : gaps [10, 100, 350] = (250, 340) ∧ ∀ x ∈ ([10, 100, 350] : List ℚ), (0 : ℚ) ≤ x ∧ x < 0 + 360 := by
  constructor
  · norm_num [gaps, maxGap, List.insertionSort, List.orderedInsert, List.range_succ]
  · norm_num

/-- **The secondary gap is wrong when stations have both P and S phases**: with three stations at
0°, 120° and 240°, each with two used phases, 120° is reported, but removing one station (here the
one at 120°) leaves a sector of 240° without stations. -/
theorem azimuthal_gap_secondary_counts_phases :
    (gaps [0, 0, 120, 120, 240, 240]).2 = 120 ∧ (gaps [0, 0, 240, 240]).1 = 240 := by
  constructor <;> norm_num [gaps, maxGap, List.insertionSort, List.orderedInsert, List.range_succ]

end Verif.AzGap
