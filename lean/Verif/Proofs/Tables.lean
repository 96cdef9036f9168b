import Verif.Spec.Tables
import Verif.Proofs.GridHeader

/-!
# Lemmas about travel-time tables
-/

set_option linter.unusedSimpArgs false

namespace Verif.Tables
open Spec
open Verif.Csv (Str)
open Verif.GridHeader (Num)

/-! ## reading the settings -/

theorem mem_takeWhile' {A : Type} {p : A → Bool} {l : List A} {a : A} (h : a ∈ l.takeWhile p) : p a = true := by
  induction l with
  | nil => simp at h
  | cons b l ih =>
    rw [List.takeWhile_cons] at h
    split at h
    · next hb =>
      rcases List.mem_cons.mp h with rfl | h
      · exact hb
      · exact ih h
    · simp at h

theorem dropWhile_head' {A : Type} {p : A → Bool} {l u : List A} {a : A} (h : l.dropWhile p = a :: u) : p a = false := by
  induction l with
  | nil => simp at h
  | cons b l ih =>
    rw [List.dropWhile_cons] at h
    split at h
    · exact ih h
    · next hb =>
      rw [List.cons.injEq] at h
      rw [← h.1]
      simpa using hb

theorem splitSemi_item {x : Str} (h : ';' ∉ x) : ∀ (cur : Str) (gap : Bool) (s : Str),
    splitSemi cur gap (x ++ s) = if x = [] then splitSemi cur gap s else splitSemi (cur ++ x) false s := by
  induction x with
  | nil => intro cur gap s; simp
  | cons c x ih =>
    intro cur gap s
    have hc : c ≠ ';' := by rintro rfl; simp at h
    rw [List.cons_append, splitSemi, if_neg hc, ih (fun hm => h (List.mem_cons_of_mem _ hm))]
    by_cases hx : x = [] <;> simp [hx]

theorem splitSemi_gap (n : Nat) (s : Str) : splitSemi [] true (List.replicate n ';' ++ s) = splitSemi [] true s := by
  induction n with
  | zero => rfl
  | succ n ih => rw [List.replicate_succ, List.cons_append, splitSemi, if_pos rfl, if_pos rfl, ih]

/-- at the beginning of a part it does not matter what came before -/
theorem splitSemi_start {s : Str} (h : s.head? ≠ some ';') : splitSemi [] true s = splitSemi [] false s := by
  cases s with
  | nil => rfl
  | cons c s =>
    have hc : c ≠ ';' := by simpa using h
    rw [splitSemi, splitSemi, if_neg hc, if_neg hc]

theorem splitSemi_parts {s : Str} {xs : List Str} (h : Parts s xs) : splitSemi [] false s = xs := by
  induction h with
  | @last x hx =>
    have := splitSemi_item hx [] false []
    rw [List.append_nil] at this
    rw [this]
    by_cases h : x = [] <;> simp [h, splitSemi]
  | @more x rest xs n hx hr _ ih =>
    rw [List.append_assoc, splitSemi_item hx, List.replicate_succ, List.cons_append]
    have e : ∀ cur, splitSemi cur false (';' :: (List.replicate n ';' ++ rest)) = cur :: xs := by
      intro cur
      rw [splitSemi, if_pos rfl, if_neg (by simp), splitSemi_gap, splitSemi_start hr, ih]
    by_cases h : x = []
    · rw [if_pos h, e, h]
    · rw [if_neg h, e]; simp

theorem parts_exist (s : Str) : ∃ xs, Parts s xs := by
  suffices H : ∀ n (s : Str), s.length ≤ n → ∃ xs, Parts s xs from H _ s le_rfl
  intro n
  induction n with
  | zero =>
    intro s hs
    have : s = [] := List.length_eq_zero_iff.mp (by omega)
    subst this
    exact ⟨[[]], .last (by simp)⟩
  | succ n ih =>
    intro s hs
    by_cases hm : ';' ∈ s
    · have e1 : s = s.takeWhile (· ≠ ';') ++ s.dropWhile (· ≠ ';') := (List.takeWhile_append_dropWhile).symm
      set x := s.takeWhile (· ≠ ';') with hx
      set t := s.dropWhile (· ≠ ';') with ht
      have hxn : ';' ∉ x := by
        intro hh
        have := mem_takeWhile' hh
        simp at this
      have htne : t ≠ [] := by
        intro hh
        rw [e1, hh, List.append_nil] at hm
        exact hxn hm
      have hthead : ∃ u, t = ';' :: u := by
        cases hu : t with
        | nil => exact absurd hu htne
        | cons c u =>
          have := dropWhile_head' (ht.symm.trans hu)
          simp only [ne_eq, decide_not, Bool.not_eq_false', decide_eq_true_eq] at this
          exact ⟨u, by rw [this]⟩
      have e2 : t = t.takeWhile (· = ';') ++ t.dropWhile (· = ';') := (List.takeWhile_append_dropWhile).symm
      obtain ⟨u, hu⟩ := hthead
      set r := t.dropWhile (· = ';') with hr
      have e3 : t.takeWhile (· = ';') = List.replicate ((t.takeWhile (· = ';')).length - 1 + 1) ';' := by
        have hpos : 0 < (t.takeWhile (· = ';')).length := by rw [hu]; simp
        rw [Nat.sub_add_cancel hpos]
        apply List.eq_replicate_of_mem
        intro c hc
        simpa using mem_takeWhile' hc
      have hrh : r.head? ≠ some ';' := by
        cases hrr : r with
        | nil => simp
        | cons c v =>
          have := dropWhile_head' (hr.symm.trans hrr)
          simp only [decide_eq_false_iff_not] at this
          simpa using this
      have hlen : r.length ≤ n := by
        have h1 : s.length = x.length + t.length := by rw [e1]; simp
        have h2 : t.length = (t.takeWhile (· = ';')).length + r.length := by
          conv_lhs => rw [e2]
          simp
        have h3 : 0 < (t.takeWhile (· = ';')).length := by rw [hu]; simp
        omega
      obtain ⟨xs, hxs⟩ := ih r hlen
      refine ⟨x :: xs, ?_⟩
      have := Parts.more ((t.takeWhile (· = ';')).length - 1) hxn hrh hxs
      rw [← e3, List.append_assoc, ← e2, ← e1] at this
      exact this
    · exact ⟨[s], .last hm⟩

theorem splitSemi_iff (s : Str) (xs : List Str) : splitSemi [] false s = xs ↔ Parts s xs := by
  constructor
  · rintro rfl
    obtain ⟨xs, h⟩ := parts_exist s
    rw [splitSemi_parts h]
    exact h
  · exact splitSemi_parts

theorem openGrids_iff (rnd : ℚ → ℚ) (disk : Disk) (s : Settings) (g : Grids) :
    openGrids rnd disk s = .ok g ↔ Opened rnd disk s g := by
  have hm : (String.ofList s.accessMethod ∈ GridHeader.accessMethods) ↔ Method s.accessMethod := by
    have e : ∀ t : String, String.ofList s.accessMethod = t ↔ s.accessMethod = t.toList := by
      intro t
      constructor
      · intro h; rw [← h]; simp
      · intro h; rw [h]; simp
    simp only [GridHeader.accessMethods, List.mem_cons, List.not_mem_nil, or_false, e, Method]
    tauto
  unfold openGrids Opened
  cases hf : disk.files s.path with
  | none => simp
  | some names =>
    simp only [GridHeader.open_]
    by_cases h : Method s.accessMethod
    · rw [if_pos (hm.mpr h)]
      cases hs : GridHeader.search rnd s.swapBytes s.model (disk.text s.path) (disk.present s.path) {} names with
      | ok ix =>
        simp only [Outcome.map, Outcome.ok.injEq, h, true_and, Option.some.injEq, exists_eq_left', hs]
        constructor
        · rintro rfl; exact ⟨rfl, rfl⟩
        · rintro ⟨h1, h2⟩
          cases g
          simp only at h1 h2
          rw [h1, h2]
      | throws => simp [Outcome.map, h, hs]
      | ub => simp [Outcome.map, h, hs]
    · rw [if_neg (fun hh => h (hm.mp hh))]
      simp [Outcome.map, h]

theorem bind_ok_iff {A B : Type} (x : Outcome A) (f : A → Outcome B) (b : B) : (x >>= f) = .ok b ↔ ∃ a, x = .ok a ∧ f a = .ok b := by
  cases x <;> simp

theorem directory_filename (p : Str) : '/' ∉ filename p ∧ (p = directory p ++ '/' :: filename p ∨ (p = filename p ∧ directory p = [])) := by
  have e : p.reverse = p.reverse.takeWhile (· ≠ '/') ++ p.reverse.dropWhile (· ≠ '/') := (List.takeWhile_append_dropWhile).symm
  refine ⟨?_, ?_⟩
  · unfold filename
    intro h
    rw [List.mem_reverse] at h
    have := mem_takeWhile' h
    simp at this
  · unfold directory filename
    cases hd : p.reverse.dropWhile (· ≠ '/') with
    | nil =>
      right
      rw [hd, List.append_nil] at e
      refine ⟨?_, by simp⟩
      rw [← e, List.reverse_reverse]
    | cons c u =>
      left
      have := dropWhile_head' hd
      simp only [ne_eq, decide_not, Bool.not_eq_false', decide_eq_true_eq] at this
      rw [hd, this] at e
      have e2 := congrArg List.reverse e
      rw [List.reverse_reverse] at e2
      conv_lhs => rw [e2]
      simp

theorem split_unique {a b c d : Str} (h : a ++ '/' :: b = c ++ '/' :: d) (hb : '/' ∉ b) (hd : '/' ∉ d) : a = c ∧ b = d := by
  have h2 := congrArg List.reverse h
  simp only [List.reverse_append, List.reverse_cons, List.append_assoc, List.singleton_append] at h2
  have key : ∀ (x y u v : Str), '/' ∉ x → '/' ∉ y → x ++ '/' :: u = y ++ '/' :: v → x = y ∧ u = v := by
    intro x
    induction x with
    | nil =>
      intro y u v _ hy he
      cases y with
      | nil => simpa using he
      | cons c y => simp only [List.nil_append, List.cons_append, List.cons.injEq] at he; exact absurd (he.1 ▸ List.mem_cons_self) hy
    | cons e x ih =>
      intro y u v hx hy he
      cases y with
      | nil => simp only [List.nil_append, List.cons_append, List.cons.injEq] at he; exact absurd (he.1 ▸ List.mem_cons_self) hx
      | cons c y =>
        simp only [List.cons_append, List.cons.injEq] at he
        obtain ⟨r1, r2⟩ := ih y u v (fun hh => hx (List.mem_cons_of_mem _ hh)) (fun hh => hy (List.mem_cons_of_mem _ hh)) he.2
        exact ⟨by rw [he.1, r1], r2⟩
  obtain ⟨r1, r2⟩ := key _ _ _ _ (by simpa using hb) (by simpa using hd) h2
  exact ⟨List.reverse_injective r2, List.reverse_injective r1⟩

theorem path_unique {p a b : Str} (hb : '/' ∉ b) (h : p = a ++ '/' :: b ∨ (p = b ∧ a = [])) : directory p = a ∧ filename p = b := by
  obtain ⟨h1, h2⟩ := directory_filename p
  rcases h with h | ⟨h, rfl⟩
  · rcases h2 with h2 | ⟨h2, _⟩
    · exact split_unique (h2.symm.trans h) h1 hb
    · rw [← h2, h] at h1; simp at h1
  · rcases h2 with h2 | ⟨h2, h3⟩
    · rw [h2] at h; rw [← h] at hb; simp at hb
    · exact ⟨h3, by rw [← h2, h]⟩

theorem settings_iff (absolute : Str → Str) (cfg : Config) (model : Str) (s : Settings) :
    settings absolute cfg model = some s ↔ Configured absolute cfg model s := by
  unfold settings
  simp only [Option.map_eq_some_iff]
  constructor
  · rintro ⟨p, hp, rfl⟩
    obtain ⟨h1, h2⟩ := directory_filename (absolute p)
    refine ⟨⟨p, hp, h1, h2⟩, ?_, ?_, ?_, ?_⟩
    · unfold key; cases cfg.double _ <;> simp
    · unfold key; cases cfg.bool _ <;> simp
    · unfold key
      cases h : cfg.int ("ttt.NLLGrid.".toList ++ model ++ ".".toList ++ "maxOpenFiles".toList) with
      | none => simp
      | some n => right; exact ⟨n, rfl, by simp only [Option.getD_some]; omega⟩
    · unfold key; cases cfg.string _ <;> simp
  · intro h
    obtain ⟨p, hp, h1, h2⟩ := h.path
    obtain ⟨e1, e2⟩ := path_unique h1 h2
    refine ⟨p, hp, ?_⟩
    cases s
    simp only [Settings.mk.injEq] at *
    refine ⟨e1, e2, ?_, ?_, ?_, ?_⟩
    · rcases h.distance with ⟨h, h'⟩ | h <;> unfold key at h <;> rw [h] <;> simp_all
    · rcases h.swap with ⟨h, h'⟩ | h <;> unfold key at h <;> rw [h] <;> simp_all
    · rcases h.maxOpen with ⟨h, h'⟩ | ⟨n, h, h'⟩
      · unfold key at h; rw [h]; simpa using h'.symm
      · unfold key at h; rw [h]
        simp only [Option.getD_some]
        simp only at h'
        omega
    · rcases h.access with ⟨h, h'⟩ | h <;> unfold key at h <;> rw [h] <;> simp_all

theorem isP_iff (cfg : Config) (model x : Str) : x ∈ pPhases cfg model ↔ IsP cfg model x := by
  unfold pPhases IsP key
  rw [List.append_assoc _ ".".toList]
  show _ ∈ Option.getD (cfg.strings ("ttt.NLLGrid.".toList ++ model ++ (".".toList ++ "P-Phases".toList))) _ ↔ _
  cases cfg.strings ("ttt.NLLGrid.".toList ++ model ++ (".".toList ++ "P-Phases".toList)) <;> simp

theorem isS_iff (cfg : Config) (model x : Str) : x ∈ sPhases cfg model ↔ IsS cfg model x := by
  unfold sPhases IsS key
  rw [List.append_assoc _ ".".toList]
  show _ ∈ Option.getD (cfg.strings ("ttt.NLLGrid.".toList ++ model ++ (".".toList ++ "S-Phases".toList))) _ ↔ _
  cases cfg.strings ("ttt.NLLGrid.".toList ++ model ++ (".".toList ++ "S-Phases".toList)) <;> simp

end Verif.Tables
