import Mathlib.Data.List.Basic
import Mathlib.Data.List.Nodup

/-!
# Character strings built with separators
-/

namespace Verif

/-- `std::to_string` of an unsigned number -/
def decimal (n : Nat) : List Char := Nat.toDigits 10 n

theorem decimal_inj {a b : Nat} (h : decimal a = decimal b) : a = b := by
  have := congrArg (fun l => Nat.ofDigitChars 10 l 0) h
  simpa [decimal, Nat.ofDigitChars_toDigits] using this

theorem decimal_isDigit {n : Nat} {c : Char} (h : c ∈ decimal n) : c.isDigit = true :=
  Nat.isDigit_of_mem_toDigits (by omega) (by omega) h

theorem notMem_decimal {n : Nat} {c : Char} (h : c.isDigit = false) : c ∉ decimal n := by
  intro hc
  rw [decimal_isDigit hc] at h
  cases h

/-- Text before the first separator is determined. -/
theorem sep_inj {c : Char} {a b a' b' : List Char} (ha : c ∉ a) (ha' : c ∉ a')
    (h : a ++ c :: b = a' ++ c :: b') : a = a' ∧ b = b' := by
  induction a generalizing a' with
  | nil =>
    cases a' with
    | nil => simpa using h
    | cons x a' =>
      simp only [List.nil_append, List.cons_append, List.cons.injEq] at h
      exact absurd (by simp [h.1]) ha'
  | cons y a ih =>
    cases a' with
    | nil =>
      simp only [List.nil_append, List.cons_append, List.cons.injEq] at h
      exact absurd (by simp [h.1]) ha
    | cons x a' =>
      simp only [List.cons_append, List.cons.injEq] at h
      obtain ⟨h1, h2⟩ := ih (fun hc => ha (by simp [hc])) (fun hc => ha' (by simp [hc])) h.2
      exact ⟨by rw [h.1, h1], h2⟩

/-- split at the first separator: `str.find(c)`, then the two substrings -/
def splitFirst (c : Char) : List Char → Option (List Char × List Char)
  | [] => none
  | x :: l => if x = c then some ([], l) else (splitFirst c l).map (fun p => (x :: p.1, p.2))

theorem splitFirst_append {c : Char} {a b : List Char} (ha : c ∉ a) :
    splitFirst c (a ++ c :: b) = some (a, b) := by
  induction a with
  | nil => simp [splitFirst]
  | cons x a ih =>
    have hx : x ≠ c := fun h => ha (by simp [h])
    simp only [List.cons_append, splitFirst, if_neg hx, ih (fun h => ha (by simp [h])), Option.map_some]

end Verif
