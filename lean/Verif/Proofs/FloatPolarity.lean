import Verif.Model.FloatXCorr
import Mathlib.Tactic.Ring
import Mathlib.Tactic.Linarith

/-!
# Reversed polarities in the cross-correlation in double precision
-/

set_option linter.unusedSimpArgs false

namespace Verif.FloatXCorr
open Verif.XCorr (read)

/-- a sign -/
def Sign (a : ℚ) : Prop := a = 1 ∨ a = -1

theorem Sign.mul {a b : ℚ} (ha : Sign a) (hb : Sign b) : Sign (a * b) := by
  rcases ha with rfl | rfl <;> rcases hb with rfl | rfl <;> simp [Sign]

theorem Sign.sq {a : ℚ} (ha : Sign a) (x y : ℚ) : a * x * (a * y) = x * y := by
  rcases ha with rfl | rfl <;> ring

def scale (a : ℚ) : Fl ℚ → Fl ℚ
  | .num x => .num (a * x)
  | .inf s => .inf (s ^^ decide (a < 0))
  | .nan => .nan

variable {fl sq : ℚ → ℚ}

theorem Sign.out {a : ℚ} (ha : Sign a) (odd : ∀ x, fl (-x) = -fl x) (x : ℚ) : fl (a * x) = a * fl x := by
  rcases ha with rfl | rfl
  · simp
  · rw [neg_one_mul, odd, neg_one_mul]

theorem read_map (a : ℚ) (l : List ℚ) (i : Int) : read (l.map (a * ·)) i = (read l i).map (a * ·) := by
  unfold XCorr.read
  split
  · rw [List.getElem?_map]
    cases l[i.toNat]? <;> simp [Outcome.map]
  · rfl

def Sums.scale (a b : ℚ) (s : Sums) : Sums := ⟨a * s.sumS, s.sumS2, b * s.sumL, s.sumL2⟩

theorem map_bind {α β γ : Type} (x : Outcome α) (g : α → β) (f : β → Outcome γ) : (x.map g >>= f) = (x >>= fun a => f (g a)) := by
  cases x <;> rfl

theorem bind_map {α β γ : Type} (x : Outcome α) (f : α → Outcome β) (g : β → γ) : (x >>= f).map g = (x >>= fun a => (f a).map g) := by
  cases x <;> rfl

theorem prepLoop_scale {a b : ℚ} (ha : Sign a) (hb : Sign b) (odd : ∀ x, fl (-x) = -fl x) (S L : List ℚ) (base : Int) (n : ℕ) :
    ∀ (k i : ℕ) (s : Sums), prepLoop fl (S.map (a * ·)) (L.map (b * ·)) base n k i (s.scale a b) = (prepLoop fl S L base n k i s).map (Sums.scale a b) := by
  intro k
  induction k with
  | zero => intro i s; rfl
  | succ k ih =>
    intro i s
    unfold prepLoop
    rw [read_map, read_map, map_bind, bind_map]
    congr 1
    funext x
    have e1 : fl ((s.scale a b).sumS + a * x) = a * fl (s.sumS + x) := by
      rw [← ha.out odd]; simp only [Sums.scale]; ring_nf
    simp only [e1, ha.sq]
    split
    · rw [← ih]; rfl
    · rw [map_bind, bind_map]
      congr 1
      funext y
      have e2 : fl ((s.scale a b).sumL + b * y) = b * fl (s.sumL + y) := by
        rw [← hb.out odd]; simp only [Sums.scale]; ring_nf
      simp only [e2, hb.sq]
      rw [← ih]; rfl

theorem dotLoop_scale {a b : ℚ} (ha : Sign a) (hb : Sign b) (odd : ∀ x, fl (-x) = -fl x) (S L : List ℚ) (base : Int) (delay : ℕ) :
    ∀ (k i : ℕ) (acc : ℚ), dotLoop fl (S.map (a * ·)) (L.map (b * ·)) base delay k i (a * b * acc) =
      (dotLoop fl S L base delay k i acc).map (a * b * ·) := by
  intro k
  induction k with
  | zero => intro i s; rfl
  | succ k ih =>
    intro i acc
    unfold dotLoop
    rw [read_map, read_map, map_bind, bind_map]
    congr 1
    funext x
    rw [map_bind, bind_map]
    congr 1
    funext y
    rw [← ih]
    congr 1
    rw [show a * x * (b * y) = a * b * (x * y) by ring, (ha.mul hb).out odd, ← mul_add, (ha.mul hb).out odd]

theorem div_scale {a : ℚ} (ha : Sign a) (x : ℚ) (y : Fl ℚ) : (Fl.num (a * x)).div y = scale a ((Fl.num x).div y) := by
  rcases ha with rfl | rfl
  · cases y <;> simp only [Fl.div, one_mul]
    all_goals
      repeat' split
      all_goals simp [scale, not_lt.2 (zero_le_one : (0 : ℚ) ≤ 1)]
  · cases y with
    | num y =>
      simp only [Fl.div, neg_one_mul, neg_eq_zero]
      by_cases hy : y = 0
      · simp only [hy, if_true]
        by_cases hx : x = 0
        · simp [hx, scale]
        · simp only [hx, if_false, scale, Fl.inf.injEq]
          rcases lt_or_gt_of_ne hx with h | h
          · have : ¬ -x < 0 := by linarith
            simp [h, this]
          · have : ¬ x < 0 := by linarith
            simp [h, this]
      · simp only [hy, if_false, scale, Fl.num.injEq]
        ring
    | inf s => simp [Fl.div, scale]
    | nan => simp [Fl.div, scale]

theorem rounded_scale {a : ℚ} (ha : Sign a) (odd : ∀ x, fl (-x) = -fl x) (v : Fl ℚ) : rounded fl (scale a v) = scale a (rounded fl v) := by
  cases v <;> simp [rounded, scale, ha.out odd]

theorem coefficient_scale {a b : ℚ} (ha : Sign a) (hb : Sign b) (odd : ∀ x, fl (-x) = -fl x) (n : ℕ) (x y p : ℚ) (d1 d2 : Fl ℚ) :
    coefficient fl n (a * x) (b * y) (a * b * p) d1 d2 = scale (a * b) (coefficient fl n x y p d1 d2) := by
  have hab := ha.mul hb
  unfold coefficient
  rw [show (n : ℚ) * (a * b * p) = a * b * (n * p) by ring, show a * x * (b * y) = a * b * (x * y) by ring, hab.out odd, hab.out odd,
    ← mul_sub, hab.out odd, div_scale hab, rounded_scale hab odd]

theorem isFinite_scale (a : ℚ) (v : Fl ℚ) : (scale a v).isFinite = v.isFinite := by cases v <;> rfl

theorem absGt_scale {a : ℚ} (ha : Sign a) (v w : Fl ℚ) : absGt (scale a v) (scale a w) = absGt v w := by
  have h1 : |a| = 1 := by rcases ha with rfl | rfl <;> simp
  cases v <;> cases w <;> simp [absGt, scale, abs_mul, h1]

theorem root_scale {a : ℚ} (ha : Sign a) (n : ℕ) (p x : ℚ) : root fl sq n p (a * x) (a * x) = root fl sq n p x x := by
  unfold root
  rw [ha.sq]

theorem corrLoop_scale {a b : ℚ} (ha : Sign a) (hb : Sign b) (odd : ∀ x, fl (-x) = -fl x) (S L : List ℚ) (base : Int) (n : ℕ)
    (sumS : ℚ) (denomS : Fl ℚ) : ∀ (k d : ℕ) (sumL sumL2 last : ℚ) (best : Int × Fl ℚ),
    corrLoop fl sq (S.map (a * ·)) (L.map (b * ·)) base n (a * sumS) denomS k d (b * sumL) sumL2 (b * last) (best.1, scale (a * b) best.2) =
      (corrLoop fl sq S L base n sumS denomS k d sumL sumL2 last best).map (fun r => (r.1, scale (a * b) r.2)) := by
  intro k
  induction k with
  | zero => intros; rfl
  | succ k ih =>
    intro d sumL sumL2 last best
    unfold corrLoop
    rw [read_map, read_map, map_bind, bind_map]
    congr 1
    funext x
    rw [map_bind, bind_map]
    congr 1
    funext y
    have h0 := dotLoop_scale ha hb odd S L base d n 0 0
    rw [mul_zero] at h0
    rw [h0, map_bind, bind_map]
    congr 1
    funext p
    rw [← mul_sub, hb.out odd, ← mul_add, hb.out odd, hb.sq, hb.sq, root_scale hb, coefficient_scale ha hb odd]
    dsimp only
    rw [isFinite_scale, absGt_scale (ha.mul hb), ← ih]
    congr 1
    split <;> rfl

theorem crossCorrelation_scale {a b : ℚ} (ha : Sign a) (hb : Sign b) (odd : ∀ x, fl (-x) = -fl x) (S L : List ℚ) (base sizeL delayIn : Int) :
    crossCorrelation fl sq (S.map (a * ·)) (L.map (b * ·)) base sizeL delayIn =
      (crossCorrelation fl sq S L base sizeL delayIn).map (fun r => (r.1, scale (a * b) r.2)) := by
  unfold crossCorrelation
  have h := prepLoop_scale ha hb odd S L base S.length S.length 0 ⟨0, 0, 0, 0⟩
  have e : Sums.scale a b ⟨0, 0, 0, 0⟩ = ⟨0, 0, 0, 0⟩ := by simp [Sums.scale]
  rw [e] at h
  simp only [List.length_map]
  rw [h, map_bind, bind_map]
  congr 1
  funext s
  have h2 := corrLoop_scale (sq := sq) ha hb odd S L base S.length s.sumS (root fl sq S.length s.sumS2 s.sumS s.sumS)
    (sizeL - S.length + 1).toNat 0 s.sumL s.sumL2 0 (delayIn, .nan)
  rw [mul_zero] at h2
  simp only [Sums.scale, root_scale ha]
  exact h2

theorem scale_one (v : Fl ℚ) : scale 1 v = v := by cases v <;> simp [scale, not_lt.2 (zero_le_one : (0 : ℚ) ≤ 1)]
theorem scale_neg_one (v : Fl ℚ) : scale (-1) v = v.neg := by cases v <;> simp [scale, Fl.neg]

end Verif.FloatXCorr
