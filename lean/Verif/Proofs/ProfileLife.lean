import Verif.Spec.ProfileLife
import Mathlib.Data.List.Infix
import Mathlib.Data.List.Induction
import Mathlib.Tactic.Common

/-!
# Lemmas on the life of a profile
-/

set_option linter.unusedSimpArgs false

namespace Verif.ProfileLife
open Verif.Catalog Verif.Configuration Spec
open Verif.Csv (Str)
open Verif.Daemon (Num)

theorem isEmpty_iff {c : Catalog Num} : Daemon.isEmpty c = true ↔ NoContent c := by
  unfold Daemon.isEmpty NoContent
  simp only [Bool.and_eq_true, List.isEmpty_iff, and_assoc]

theorem readNamed_ok {rnd : ℚ → ℚ} {load : Bool} {u : Event Num} {v : Phase Num} {files : Str → Option Str} {s e p : Str}
    {cat : Catalog Num} : CatalogFile.readNamed rnd load u v files s e p = .ok cat ↔
      ∃ station event phase, files s = some station ∧ files e = some event ∧ files p = some phase ∧
        CatalogFile.read rnd load u v { station, event, phase } = .ok cat := by
  unfold CatalogFile.readNamed
  constructor
  · intro h
    split at h
    · rename_i a b c ha hb hc
      exact ⟨a, b, c, ha, hb, hc, h⟩
    · cases h
  · rintro ⟨a, b, c, ha, hb, hc, h⟩
    rw [ha, hb, hc]
    exact h

theorem loadCatalog_iff {w : World} {p : Profile} {alt cat : Catalog Num} : loadCatalog w p alt = .ok cat ↔ Source w p alt cat := by
  unfold loadCatalog
  constructor
  · intro h
    split at h
    · rename_i he
      cases h
      exact .alternative (fun hn => by rw [isEmpty_iff.2 hn] at he; cases he)
    · rename_i he
      have hn : NoContent alt := isEmpty_iff.1 (by simpa using he)
      split at h
      · rename_i hp
        cases hf : w.files p.eventIDFile.toList with
        | none => rw [hf] at h; cases h
        | some text =>
          rw [hf] at h
          cases hc : SeisComP.addIdFile w.base.source w.base.inventory w.base.rawEvent w.base.rawPhase (some text) (Catalog.init, []) with
          | ok r => rw [hc] at h; cases h; exact .ids hn hp hf (m := r.2) hc
          | throws => rw [hc] at h; cases h
          | ub => rw [hc] at h; cases h
      · rename_i hp
        obtain ⟨a, b, c, ha, hb, hc, h⟩ := readNamed_ok.1 h
        exact .files hn (by simpa using hp) ha hb hc h
  · intro h
    cases h with
    | alternative h => rw [if_pos (by simpa using fun hn => h (isEmpty_iff.1 hn))]
    | ids h hp hf hc =>
      rw [if_neg (by simpa using isEmpty_iff.2 h), if_pos hp, hf, hc]
      rfl
    | files h hp hs he hph hc =>
      rw [if_neg (by simpa using isEmpty_iff.2 h), if_neg (by simpa using hp)]
      exact readNamed_ok.2 ⟨_, _, _, hs, he, hph, hc⟩

theorem meanUncertainty_eq : meanUncertainty = fun ph => halfWay ph.lowerUncertainty ph.upperUncertainty := by
  funext ph
  unfold meanUncertainty halfWay
  cases ph.lowerUncertainty <;> cases ph.upperUncertainty <;> try rfl
  simp only [Option.some.injEq]
  ring

theorem bgCat_eq (cat : Catalog Num) (cfg : DDConfig) (t : Tables.Table) (url : Str) :
    (newDD cat cfg t url).bgCat = cat.fillProcessingInfo .catalog cfg.validPphases cfg.validSphases
      (fun ph => .num (Catalog.computePickWeight (halfWay ph.lowerUncertainty ph.upperUncertainty) cfg.pickUncertaintyClasses)) := by
  unfold newDD
  rw [meanUncertainty_eq]

theorem loadDD_iff {w : World} {cfg : CacheConfig} {p : Profile} {alt : Catalog Num} {dd : DD} :
    loadDD w cfg p alt = .ok dd ↔ MadeFrom w cfg p alt dd := by
  unfold loadDD
  constructor
  · intro h
    cases hc : loadCatalog w p alt with
    | throws => rw [hc] at h; cases h
    | ub => rw [hc] at h; cases h
    | ok cat =>
      rw [hc] at h
      simp only [Outcome.bind_ok] at h
      cases ht : Tables.table w.rnd w.tables p.tttType.toList p.tttModel.toList with
      | throws => rw [ht] at h; cases h
      | ub => rw [ht] at h; cases h
      | ok t =>
        rw [ht] at h
        simp only [Outcome.bind_ok] at h
        split at h
        · rename_i hu
          split at h
          · rename_i hd
            cases h
            exact ⟨⟨cat, loadCatalog_iff.1 hc, bgCat_eq cat p.ddCfg t w.url⟩, ht, rfl, rfl, fun h => (by rw [hu] at h; cases h), fun _ => ⟨rfl, hd⟩⟩
          · cases h
        · rename_i hu
          cases h
          exact ⟨⟨cat, loadCatalog_iff.1 hc, bgCat_eq cat p.ddCfg t w.url⟩, ht, rfl, rfl, fun _ => rfl, fun h => absurd h hu⟩
  · rintro ⟨⟨cat, hs, hb⟩, ht, ho, hu, hn, hc⟩
    obtain ⟨c, b, t, u, k⟩ := dd
    simp only at hb ht ho hu hn hc
    subst ho hu
    rw [← bgCat_eq _ _ t w.url] at hb
    subst hb
    rw [loadCatalog_iff.2 hs, ht]
    simp only [Outcome.bind_ok]
    cases h : cfg.cacheWaveforms with
    | true =>
      obtain ⟨h1, h2⟩ := hc h
      subst h1
      rw [if_pos rfl, if_pos h2]
      rfl
    | false =>
      have h1 := hn h
      subst h1
      rw [if_neg (by decide)]
      rfl

/-- the state of the object and the flag agree -/
def Agrees (s : State) : Prop := s.loaded = s.dd.isSome

theorem step_dd {p : Profile} {s s' : State} {op : Op} (ha : Agrees s) (h : step p s op = .ok s') : Agrees s' ∧
    (match op with
     | .load w cfg _ alt => (∀ dd, s.dd = some dd → s'.dd = some dd) ∧
        (s.dd = none → ∀ dd, s'.dd = some dd ↔ MadeFrom w cfg p alt dd)
     | .unload _ => s'.dd = none
     | .perform _ _ => s'.dd = s.dd) := by
  unfold Agrees at ha
  cases op with
  | unload now => cases h; exact ⟨rfl, rfl⟩
  | perform now task =>
    simp only [step] at h
    cases hp : perform now task s with
    | throws => rw [hp] at h; cases h
    | ub => rw [hp] at h; cases h
    | ok r =>
      rw [hp] at h
      cases h
      unfold perform at hp
      split at hp
      · cases task <;> cases hp <;> exact ⟨ha, rfl⟩
      · cases hd : s.dd with
        | none => rw [hd] at hp; cases hp
        | some dd => rw [hd] at hp; cases hp; exact ⟨by rw [hd] at ha; simpa [Agrees] using ha, rfl⟩
  | load w cfg now alt =>
    simp only [step, State.load] at h
    cases hl : s.loaded with
    | true =>
      rw [if_pos hl] at h
      cases h
      refine ⟨ha, fun dd hd => hd, fun hd => ?_⟩
      rw [hl, hd] at ha
      cases ha
    | false =>
      rw [if_neg (by rw [hl]; decide)] at h
      rw [hl] at ha
      cases hd : s.dd with
      | some dd => rw [hd] at ha; cases ha
      | none =>
        cases hdd : loadDD w cfg p alt with
        | ub => rw [hdd] at h; cases h
        | throws =>
          rw [hdd] at h
          cases h
          refine ⟨rfl, fun dd hd => (by cases hd), fun _ dd => ⟨fun h => (by cases h), fun h => ?_⟩⟩
          rw [loadDD_iff.2 h] at hdd
          cases hdd
        | ok d =>
          rw [hdd] at h
          cases h
          refine ⟨rfl, fun dd hd => (by cases hd), fun _ dd => ⟨fun h => ?_, fun h => ?_⟩⟩
          · cases h; exact loadDD_iff.1 hdd
          · rw [loadDD_iff.2 h] at hdd; cases hdd; rfl

/-- no loading that could succeed since the profile was last unloaded -/
def Unloaded (p : Profile) (ops : List Op) : Prop :=
  ∃ before since, ops = before ++ since ∧ (before = [] ∨ ∃ b t, before = b ++ [Op.unload t]) ∧ ∀ op ∈ since, Idle p op

theorem run_snoc (p : Profile) (start : Int) (ops : List Op) (op : Op) :
    run p start (ops ++ [op]) = (run p start ops >>= fun s => step p s op) := by
  unfold run
  rw [List.foldlM_append]
  congr 1
  funext s
  rw [List.foldlM_cons]
  cases step p s op <;> rfl

theorem run_agrees {p : Profile} {start : Int} : ∀ (ops : List Op) {s : State}, run p start ops = .ok s →
    Agrees s ∧ (s.dd = none → Unloaded p ops) ∧ (∀ dd, s.dd = some dd → Loaded p ops dd) := by
  intro ops
  induction ops using List.reverseRecOn with
  | nil =>
    intro s h
    cases h
    exact ⟨rfl, fun _ => ⟨[], [], rfl, .inl rfl, by simp⟩, fun dd h => (by cases h)⟩
  | append_singleton ops op ih =>
    intro s h
    rw [run_snoc] at h
    cases hr : run p start ops with
    | throws => rw [hr] at h; cases h
    | ub => rw [hr] at h; cases h
    | ok s0 =>
      rw [hr] at h
      simp only [Outcome.bind_ok] at h
      obtain ⟨i1, i2, i3⟩ := ih hr
      obtain ⟨a1, a2⟩ := step_dd i1 h
      refine ⟨a1, ?_⟩
      cases op with
      | unload now =>
        simp only at a2
        exact ⟨fun _ => ⟨ops ++ [.unload now], [], by simp, .inr ⟨ops, now, rfl⟩, by simp⟩, fun dd hd => by rw [a2] at hd; cases hd⟩
      | perform now task =>
        simp only at a2
        refine ⟨fun hn => ?_, fun dd hd => ?_⟩
        · obtain ⟨b, si, h1, h2, h3⟩ := i2 (a2 ▸ hn)
          refine ⟨b, si ++ [.perform now task], by rw [h1, List.append_assoc], h2, fun op ho => ?_⟩
          rcases List.mem_append.1 ho with ho | ho
          · exact h3 op ho
          · rw [List.mem_singleton.1 ho]; trivial
        · obtain ⟨b, si, w, cfg, n, alt, la, h1, h2, h3, h4, h5⟩ := i3 dd (a2 ▸ hd)
          refine ⟨b, si, w, cfg, n, alt, la ++ [.perform now task], by rw [h1]; simp, h2, h3, h4, fun op ho => ?_⟩
          rcases List.mem_append.1 ho with ho | ho
          · exact h5 op ho
          · rw [List.mem_singleton.1 ho]; exact fun h => h
      | load w cfg now alt =>
        simp only at a2
        obtain ⟨b1, b2⟩ := a2
        cases h0 : s0.dd with
        | some dd0 =>
          have := b1 dd0 h0
          refine ⟨fun hn => (by rw [this] at hn; cases hn), fun dd hd => ?_⟩
          rw [this] at hd
          cases hd
          obtain ⟨b, si, w', cfg', n, alt', la, h1, h2, h3, h4, h5⟩ := i3 dd0 h0
          refine ⟨b, si, w', cfg', n, alt', la ++ [.load w cfg now alt], by rw [h1]; simp, h2, h3, h4, fun op ho => ?_⟩
          rcases List.mem_append.1 ho with ho | ho
          · exact h5 op ho
          · rw [List.mem_singleton.1 ho]; exact fun h => h
        | none =>
          obtain ⟨b, si, h1, h2, h3⟩ := i2 h0
          refine ⟨fun hn => ⟨b, si ++ [.load w cfg now alt], by rw [h1, List.append_assoc], h2, fun op ho => ?_⟩, fun dd hd => ?_⟩
          · rcases List.mem_append.1 ho with ho | ho
            · exact h3 op ho
            · rw [List.mem_singleton.1 ho]
              intro dd hd
              rw [(b2 h0 dd).2 hd] at hn
              cases hn
          · exact ⟨b, si, w, cfg, now, alt, [], by rw [h1], h2, h3, (b2 h0 dd).1 hd, by simp⟩

theorem run_append {p : Profile} {start : Int} {a b : List Op} {s : State} (h : run p start (a ++ b) = .ok s) :
    ∃ s0, run p start a = .ok s0 ∧ b.foldlM (step p) s0 = .ok s := by
  unfold run at h
  rw [List.foldlM_append] at h
  cases hr : a.foldlM (step p) (State.init start) with
  | throws => rw [hr] at h; cases h
  | ub => rw [hr] at h; cases h
  | ok s0 => rw [hr] at h; exact ⟨s0, hr, h⟩

theorem idle_none {p : Profile} : ∀ (ops : List Op) {s s' : State}, Agrees s → s.dd = none → (∀ op ∈ ops, Idle p op) →
    ops.foldlM (step p) s = .ok s' → Agrees s' ∧ s'.dd = none := by
  intro ops
  induction ops with
  | nil => intro s s' ha hd _ h; cases h; exact ⟨ha, hd⟩
  | cons op ops ih =>
    intro s s' ha hd hi h
    rw [List.foldlM_cons] at h
    cases hs : step p s op with
    | throws => rw [hs] at h; cases h
    | ub => rw [hs] at h; cases h
    | ok s1 =>
      rw [hs] at h
      simp only [Outcome.bind_ok] at h
      obtain ⟨a1, a2⟩ := step_dd ha hs
      refine ih a1 ?_ (fun op ho => hi op (List.mem_cons_of_mem _ ho)) h
      have := hi op (by simp)
      cases op with
      | unload now => exact a2
      | perform now task => simp only at a2; rw [a2, hd]
      | load w cfg now alt =>
        simp only at a2
        cases h1 : s1.dd with
        | none => rfl
        | some dd => exact absurd ((a2.2 hd dd).1 h1) (this dd)

theorem later_some {p : Profile} {dd : DD} : ∀ (ops : List Op) {s s' : State}, Agrees s → s.dd = some dd → (∀ op ∈ ops, ¬ IsUnload op) →
    ops.foldlM (step p) s = .ok s' → s'.dd = some dd := by
  intro ops
  induction ops with
  | nil => intro s s' ha hd _ h; cases h; exact hd
  | cons op ops ih =>
    intro s s' ha hd hi h
    rw [List.foldlM_cons] at h
    cases hs : step p s op with
    | throws => rw [hs] at h; cases h
    | ub => rw [hs] at h; cases h
    | ok s1 =>
      rw [hs] at h
      simp only [Outcome.bind_ok] at h
      obtain ⟨a1, a2⟩ := step_dd ha hs
      refine ih a1 ?_ (fun op ho => hi op (List.mem_cons_of_mem _ ho)) h
      have := hi op (by simp)
      cases op with
      | unload now => exact absurd trivial this
      | perform now task => simp only at a2; rw [a2, hd]
      | load w cfg now alt => exact a2.1 dd hd

theorem loaded_run {p : Profile} {start : Int} {ops : List Op} {s : State} {dd : DD} (h : run p start ops = .ok s) (hl : Loaded p ops dd) :
    s.dd = some dd := by
  obtain ⟨b, si, w, cfg, n, alt, la, rfl, h2, h3, h4, h5⟩ := hl
  rw [List.append_assoc] at h
  obtain ⟨s0, k1, k2⟩ := run_append h
  have hb : Agrees s0 ∧ s0.dd = none := by
    refine ⟨(run_agrees _ k1).1, ?_⟩
    rcases h2 with rfl | ⟨b', t, rfl⟩
    · cases k1; rfl
    · rw [run_snoc] at k1
      cases hr : run p start b' with
      | throws => rw [hr] at k1; cases k1
      | ub => rw [hr] at k1; cases k1
      | ok s1 => rw [hr] at k1; cases k1; rfl
  rw [List.foldlM_append] at k2
  cases hsi : si.foldlM (step p) s0 with
  | throws => rw [hsi] at k2; cases k2
  | ub => rw [hsi] at k2; cases k2
  | ok s1 =>
    rw [hsi] at k2
    simp only [Outcome.bind_ok, List.foldlM_cons] at k2
    obtain ⟨c1, c2⟩ := idle_none si hb.1 hb.2 h3 hsi
    cases hst : step p s1 (.load w cfg n alt) with
    | throws => rw [hst] at k2; cases k2
    | ub => rw [hst] at k2; cases k2
    | ok s2 =>
      rw [hst] at k2
      obtain ⟨a1, a2⟩ := step_dd c1 hst
      exact later_some la a1 ((a2.2 c2 dd).2 h4) h5 k2

end Verif.ProfileLife
