import Verif.Spec.WorkingDir
import Verif.Proofs.UtcTime
import Mathlib.Data.Finset.Card
import Mathlib.Data.Finset.Image
import Mathlib.Data.List.Perm.Basic

/-! Lemmas for C114. -/

set_option linter.unusedSimpArgs false

namespace Verif.WorkingDir
open Verif.Utc Calendar

theorem second_eq {now : Int} (h : 0 ≤ now) : toTimeT now = second now := by
  unfold toTimeT second
  exact Int.tdiv_eq_ediv_of_nonneg h

theorem daysUp_ge (n : Nat) : 365 * (n : Int) ≤ daysUp n := by
  induction n with
  | zero => simp [daysUp]
  | succ n ih =>
    have := yearLen_pos (1970 + n)
    simp only [daysUp]
    push_cast
    omega

theorem year_bounds {now : Int} (h : InRange now) : 1970 ≤ (toDate now).date.year ∧ (toDate now).date.year ≤ 9999 := by
  obtain ⟨h0, h1⟩ := h
  have ht := second_eq h0
  have hnn : 0 ≤ second now := by unfold second; omega
  have hge : 1970 ≤ (toDate now).date.year := civil_year_ge (by rw [ht]; omega)
  refine ⟨hge, ?_⟩
  by_contra hc
  have htm := toDate_time now
  rw [ht] at htm
  obtain ⟨u1, u2, u3, u4, u5, u6⟩ := toDate_hms now
  have hv := (civil_spec (toTimeT now / 86400)).1
  have hd : (toDate now).date = civil (toTimeT now / 86400) := rfl
  rw [← hd] at hv
  have hday := hv
  unfold timegm dayNumber daysBeforeYear at htm
  rw [if_pos hge] at htm
  have h2 := daysUp_ge ((toDate now).date.year - 1970).toNat
  have h3 := daysBeforeMonth_nonneg (toDate now).date.year hv.1
  have h4 := hv.2.2.1
  omega

theorem monthLen_le (y : Int) (m : Nat) : monthLen y m ≤ 31 := by
  unfold monthLen
  split <;> omega

/-- the six numbers of the name -/
def digits (f : Fields) : List Char :=
  printInt 4 f.date.year ++ printInt 2 f.date.month ++ printInt 2 f.date.day ++ printInt 2 f.hour ++ printInt 2 f.min ++ printInt 2 f.sec

theorem print_cancel {w : Nat} {a b : Int} {x y : List Char} (ha : 0 ≤ a) (hb : 0 ≤ b) (ha' : a < 10 ^ w) (hb' : b < 10 ^ w)
    (h : printInt w a ++ x = printInt w b ++ y) : a = b ∧ x = y := by
  obtain ⟨m, rfl⟩ := Int.eq_ofNat_of_zero_le ha
  obtain ⟨n, rfl⟩ := Int.eq_ofNat_of_zero_le hb
  have hm : m < 10 ^ w := by exact_mod_cast ha'
  have hn : n < 10 ^ w := by exact_mod_cast hb'
  rw [printInt_nonneg hm, printInt_nonneg hn] at h
  have h1 := takeDigits_pad w m x hm
  have h2 := takeDigits_pad w n y hn
  rw [h, h2] at h1
  simp only [Option.some.injEq, Prod.mk.injEq] at h1
  exact ⟨by rw [h1.1], h1.2.symm⟩

theorem digits_inj {a b : Int} {x y : List Char} (ha : InRange a) (hb : InRange b)
    (h : digits (toDate a) ++ x = digits (toDate b) ++ y) : second a = second b := by
  have ya := year_bounds ha
  have yb := year_bounds hb
  obtain ⟨a1, a2, a3, a4, a5, a6⟩ := toDate_hms a
  obtain ⟨b1, b2, b3, b4, b5, b6⟩ := toDate_hms b
  have va : (toDate a).date.Valid := (civil_spec _).1
  have vb : (toDate b).date.Valid := (civil_spec _).1
  obtain ⟨va1, va2, va3, va4⟩ := va
  obtain ⟨vb1, vb2, vb3, vb4⟩ := vb
  have la := monthLen_le (toDate a).date.year (toDate a).date.month
  have lb := monthLen_le (toDate b).date.year (toDate b).date.month
  unfold digits at h
  simp only [List.append_assoc] at h
  obtain ⟨e1, h⟩ := print_cancel (by omega) (by omega) (by omega) (by omega) h
  obtain ⟨e2, h⟩ := print_cancel (by omega) (by omega) (by omega) (by omega) h
  obtain ⟨e3, h⟩ := print_cancel (by omega) (by omega) (by omega) (by omega) h
  obtain ⟨e4, h⟩ := print_cancel (by omega) (by omega) (by omega) (by omega) h
  obtain ⟨e5, h⟩ := print_cancel (by omega) (by omega) (by omega) (by omega) h
  obtain ⟨e6, h⟩ := print_cancel (by omega) (by omega) (by omega) (by omega) h
  have hd : (toDate a).date = (toDate b).date := by
    revert e1 e2 e3
    generalize (toDate a).date = p
    generalize (toDate b).date = q
    obtain ⟨p1, p2, p3⟩ := p
    obtain ⟨q1, q2, q3⟩ := q
    simp only
    intro e1 e2 e3
    have e2 : p2 = q2 := by exact_mod_cast e2
    rw [e1, e2, e3]
  have ta := toDate_time a
  have tb := toDate_time b
  rw [hd, e4, e5, e6, tb] at ta
  rw [← second_eq ha.1, ← second_eq hb.1, ta]

theorem generate_ok {draw : Nat → Nat} {k : Kind} {now : Int} (h : InRange now) :
    generate draw k now = .ok (k.prefix_ ++ '_' :: (digits (toDate now) ++ '_' :: printNat 4 (draw (second now).toNat))) := by
  have hs := second_eq h.1
  have hnn : 0 ≤ second now := by have := h.1; unfold second; omega
  unfold generate
  simp only
  rw [if_neg (by rw [hs]; have := h.2; omega), hs]
  unfold digits
  rfl

theorem generate_second {draw : Nat → Nat} {k : Kind} {a b : Int} (ha : InRange a) (h : second a = second b) (hb : 0 ≤ b) :
    generate draw k a = generate draw k b := by
  have hb' : InRange b := ⟨hb, h ▸ ha.2⟩
  rw [generate_ok ha, generate_ok hb']
  have : digits (toDate a) = digits (toDate b) := by
    unfold digits toDate
    simp only
    rw [second_eq ha.1, second_eq hb, h]
  rw [this, h]

def firstChar : Kind → Char
  | .multi => 'm'
  | .single => 's'

theorem head_prefix (k : Kind) : k.prefix_.head? = some (firstChar k) := by
  cases k <;> decide +kernel

theorem generate_inj {draw : Nat → Nat} {k k' : Kind} {a b : Int} {n : Name} (ha : InRange a) (hb : InRange b)
    (h : generate draw k a = .ok n) (h' : generate draw k' b = .ok n) : k = k' ∧ second a = second b := by
  rw [generate_ok ha] at h
  rw [generate_ok hb] at h'
  simp only [Outcome.ok.injEq] at h h'
  rw [← h'] at h
  have hk : k = k' := by
    have h1 := congrArg List.head? h
    rw [List.head?_append, List.head?_append, head_prefix, head_prefix] at h1
    cases k <;> cases k' <;> simp [firstChar] at h1 ⊢
  refine ⟨hk, ?_⟩
  subst hk
  have := List.append_cancel_left h
  simp only [List.cons.injEq, true_and] at this
  exact digits_inj ha hb this

/-- what is known of every process -/
def Inv (draw : Nat → Nat) (dirs : List Name) (ops : List Op) (s : State) : Prop :=
  (∀ n ∈ dirs, n ∈ s.dirs) ∧
  ∀ p n, s.phase p = .chosen n ∨ s.phase p = .using n → n ∉ dirs ∧ ∃ k now, Op.try_ p k now ∈ ops ∧ generate draw k now = .ok n

theorem inv_step {draw : Nat → Nat} {dirs : List Name} {ops : List Op} {s s' : State} {o : Op} (hi : Inv draw dirs ops s)
    (h : step draw s o = .ok s') : Inv draw dirs (ops ++ [o]) s' := by
  obtain ⟨h1, h2⟩ := hi
  have keep : ∀ p n, s.phase p = .chosen n ∨ s.phase p = .using n →
      n ∉ dirs ∧ ∃ k now, Op.try_ p k now ∈ ops ++ [o] ∧ generate draw k now = .ok n := by
    intro p n hp
    obtain ⟨a, k, now, b, c⟩ := h2 p n hp
    exact ⟨a, k, now, List.mem_append_left _ b, c⟩
  have same : ∀ t, t = s → Inv draw dirs (ops ++ [o]) t := by
    rintro t rfl
    exact ⟨h1, keep⟩
  have set : ∀ p ph ds, (∀ n ∈ dirs, n ∈ ds) → (∀ n, ph = .chosen n ∨ ph = .using n →
      n ∉ dirs ∧ ∃ k now, Op.try_ p k now ∈ ops ++ [o] ∧ generate draw k now = .ok n) →
      Inv draw dirs (ops ++ [o]) (State.set { s with dirs := ds } p ph) := by
    intro p ph ds hds hph
    refine ⟨hds, fun q n hq => ?_⟩
    simp only [State.set] at hq
    by_cases hqp : q = p
    · subst hqp
      simp only [if_true] at hq
      exact hph n hq
    · rw [if_neg hqp] at hq
      exact keep q n hq
  cases o with
  | try_ p k now =>
    simp only [step] at h
    cases hph : s.phase p with
    | idle =>
      simp only [hph] at h
      cases hg : generate draw k now with
      | ok n =>
        simp only [hg] at h
        by_cases hn : n ∈ s.dirs
        · rw [if_pos hn] at h
          simp only [Outcome.ok.injEq] at h
          exact same _ h.symm
        · rw [if_neg hn] at h
          simp only [Outcome.ok.injEq] at h
          subst h
          refine set p (.chosen n) s.dirs h1 fun m hm => ?_
          rcases hm with hm | hm
          · cases hm
            exact ⟨fun hd => hn (h1 _ hd), k, now, by simp, hg⟩
          · cases hm
      | throws => simp [hg] at h
      | ub => simp [hg] at h
    | _ =>
      simp only [hph, Outcome.ok.injEq] at h
      exact same _ h.symm
  | create p can =>
    simp only [step] at h
    cases hph : s.phase p with
    | chosen n =>
      simp only [hph] at h
      have hn := keep p n (Or.inl hph)
      have hus : ∀ m, Phase.using n = .chosen m ∨ Phase.using n = .using m →
          m ∉ dirs ∧ ∃ k now, Op.try_ p k now ∈ ops ++ [.create p can] ∧ generate draw k now = .ok m := by
        rintro m (hm | hm)
        · cases hm
        · cases hm
          exact hn
      split at h
      · simp only [Outcome.ok.injEq] at h
        subst h
        exact set p _ s.dirs h1 hus
      · split at h
        · simp only [Outcome.ok.injEq] at h
          subst h
          exact set p _ (n :: s.dirs) (fun m hm => List.mem_cons_of_mem _ (h1 m hm)) hus
        · simp only [Outcome.ok.injEq] at h
          subst h
          exact set p _ s.dirs h1 (by simp)
    | _ =>
      simp only [hph, Outcome.ok.injEq] at h
      exact same _ h.symm
  | finish p =>
    simp only [step] at h
    cases hph : s.phase p with
    | idle =>
      simp only [hph, Outcome.ok.injEq] at h
      exact same _ h.symm
    | chosen n =>
      simp only [hph, Outcome.ok.injEq] at h
      exact same _ h.symm
    | _ =>
      simp only [hph, Outcome.ok.injEq] at h
      subst h
      exact set p .idle s.dirs h1 (by simp)

theorem inv_run {draw : Nat → Nat} {dirs : List Name} (ops done : List Op) {s s' : State} (hi : Inv draw dirs done s)
    (h : run draw s ops = .ok s') : Inv draw dirs (done ++ ops) s' := by
  induction ops generalizing s done with
  | nil =>
    simp only [run, Outcome.ok.injEq] at h
    subst h
    simpa using hi
  | cons o ops ih =>
    unfold run at h
    cases ho : step draw s o with
    | ok s1 =>
      simp only [ho] at h
      have := ih (done ++ [o]) (inv_step hi ho) h
      simpa using this
    | throws => simp [ho] at h
    | ub => simp [ho] at h

theorem inv_start (draw : Nat → Nat) (dirs : List Name) : Inv draw dirs [] (start dirs) :=
  ⟨fun _ h => h, fun p n h => by simp [start] at h⟩

end Verif.WorkingDir
