import Verif.Proofs.ClusterFiles
import Verif.Proofs.ClusterAlike
import Verif.Props.XCorrCache

/-!
# Auxiliary lemmas for C99: clusters read from files and their relocation
-/

set_option linter.unusedSimpArgs false

namespace Verif.ClusterFiles
open Verif.Catalog Verif.Relocate Verif.PairFile
open Verif.Csv (Str)

variable {K : Type} [Field K] [LinearOrder K]

theorem mem_phases {n : Neighbours} (h : n.ids.Nodup) (sp : StaPhase) (b : Nat) : (sp, b) ∈ n.phases ↔ sp ∈ n.phasesOf b := by
  have := mem_pairsOf h n.refId b sp
  unfold pairsOf at this
  simp only [List.mem_map, Prod.mk.injEq, true_and] at this
  rw [← this]
  constructor
  · intro h; exact ⟨(sp, b), h, rfl, rfl⟩
  · rintro ⟨⟨sp', b'⟩, h1, rfl, rfl⟩; exact h1

theorem nodup_phases {n : Neighbours} (h : n.ids.Nodup) (hp : ∀ b, (n.phasesOf b).Nodup) : n.phases.Nodup := by
  unfold Neighbours.phases
  have hmem : ∀ kv ∈ n.nbs, kv.2.Nodup := by
    intro kv hkv
    have := hp kv.1
    unfold Neighbours.phasesOf at this
    rwa [AMap.find?_of_mem h hkv] at this
  have hk : n.nbs.keys.Nodup := h
  clear hp h
  generalize n.nbs = l at hmem hk
  induction l with
  | nil => simp
  | cons kv l ih =>
    rw [List.flatMap_cons, List.nodup_append]
    have hk' : kv.1 ∉ l.map (·.1) ∧ (l.map (·.1)).Nodup := List.nodup_cons.1 hk
    refine ⟨(hmem kv (by simp)).map (fun a b h => by simpa using h), ih (fun x hx => hmem x (by simp [hx])) hk'.2, ?_⟩
    rintro ⟨sp, b⟩ h1 ⟨sp', b'⟩ h2 e
    obtain ⟨_, _, e1⟩ := List.mem_map.1 h1
    obtain ⟨kv', hkv', h3⟩ := List.mem_flatMap.1 h2
    obtain ⟨_, _, e2⟩ := List.mem_map.1 h3
    simp only [Prod.mk.injEq] at e1 e2 e
    apply hk'.1
    rw [e1.2, e.2, ← e2.2]
    exact List.mem_map_of_mem hkv'

theorem alikeNb {n m : Neighbours} (hr : n.refId = m.refId) (hn : n.ids.Nodup) (hm : m.ids.Nodup) (pn : ∀ b, (n.phasesOf b).Nodup)
    (pm : ∀ b, (m.phasesOf b).Nodup) (h : ∀ b, (b ∈ n.ids ↔ b ∈ m.ids) ∧ ∀ sp, sp ∈ n.phasesOf b ↔ sp ∈ m.phasesOf b) : AlikeNb n m := by
  refine ⟨hr, (List.perm_ext_iff_of_nodup hn hm).2 (fun b => (h b).1), ?_, ?_⟩
  · refine (List.perm_ext_iff_of_nodup (nodup_phases hn pn) (nodup_phases hm pm)).2 ?_
    rintro ⟨sp, b⟩
    rw [mem_phases hn, mem_phases hm]
    exact (h b).2 sp
  · intro b sp
    unfold Neighbours.hasPhase
    rw [decide_eq_decide]
    exact (h b).2 sp

theorem same_alike {order : Order} (ho : ∀ m, (order m).Perm m) (hb : ByEvents order) {c d : AMap Nat Neighbours} (hc : Proper c)
    (hd : Proper d) (h : Same c d) : List.Forall₂ AlikeEntry (order c) (order d) := by
  have hk := hb c d hc hd h
  have hoc : ∀ kv ∈ order c, c.find? kv.1 = some kv.2 := fun kv hkv => AMap.find?_of_mem hc.unique ((ho c).subset hkv)
  have hod : ∀ kv ∈ order d, d.find? kv.1 = some kv.2 := fun kv hkv => AMap.find?_of_mem hd.unique ((ho d).subset hkv)
  generalize order c = l at hk hoc
  generalize order d = l' at hk hod
  induction l generalizing l' with
  | nil =>
    cases l' with
    | nil => exact .nil
    | cons _ _ => cases hk
  | cons kv l ih =>
    cases l' with
    | nil => cases hk
    | cons kv' l' =>
      simp only [List.map_cons, List.cons.injEq] at hk
      refine .cons ⟨hk.1, ?_⟩ (ih (fun x hx => hoc x (by simp [hx])) l' hk.2 (fun x hx => hod x (by simp [hx])))
      have h1 := hoc kv (by simp)
      have h2 := hod kv' (by simp)
      rw [← hk.1] at h2
      obtain ⟨h3, h4⟩ := h.pairs _ _ _ h1 h2
      exact alikeNb h3 (hc.ids _ _ h1) (hd.ids _ _ h2) (hc.phases _ _ h1) (hd.phases _ _ h2) h4

theorem Found.noSelf {order : Order} (ho : ∀ m, (order m).Perm m) {bg : Catalog K} {c : AMap Nat Neighbours} (h : Found bg c) :
    NoSelf (order c) := by
  intro kv hkv hm
  have hf : c.find? kv.1 = some kv.2 := AMap.find?_of_mem h.proper.unique ((ho c).subset hkv)
  have hr := h.proper.key _ _ hf
  rw [hr] at hm
  exact (h.inside kv.1 kv.1 ⟨kv.2, hf, hm⟩).2 rfl

/-! ## the file of correlation results -/

theorem readRows_inv (rnd : ℚ → ℚ) {stations : AMap String (Station K)} : ∀ (rows : List (AMap Str Str)) (c r : XCorr.Cache),
    (∃ f, XCorr.History c f) → XCorrFile.readRows rnd stations rows c = .ok r → ∃ f, XCorr.History r f
  | [], c, r, h1, h => by cases h; exact h1
  | row :: rows, c, r, h1, h => by
    unfold XCorrFile.readRows at h
    cases hr : XCorrFile.readEntry rnd stations c row with
    | throws => rw [hr] at h; cases h
    | ub => rw [hr] at h; cases h
    | ok c' =>
      rw [hr] at h
      suffices H : ∃ f, XCorr.History c' f from readRows_inv rnd rows c' r H h
      unfold XCorrFile.readEntry at hr
      obtain ⟨_, -, hr⟩ := Outcome.bind_eq_ok.1 hr
      obtain ⟨_, -, hr⟩ := Outcome.bind_eq_ok.1 hr
      obtain ⟨_, -, hr⟩ := Outcome.bind_eq_ok.1 hr
      obtain ⟨_, -, hr⟩ := Outcome.bind_eq_ok.1 hr
      obtain ⟨_, -, hr⟩ := Outcome.bind_eq_ok.1 hr
      obtain ⟨_, -, hr⟩ := Outcome.bind_eq_ok.1 hr
      obtain ⟨_, -, hr⟩ := Outcome.bind_eq_ok.1 hr
      obtain ⟨_, -, hr⟩ := Outcome.bind_eq_ok.1 hr
      obtain ⟨_, -, hr⟩ := Outcome.bind_eq_ok.1 hr
      split at hr
      · cases hr
      · cases hr
        obtain ⟨f, hf⟩ := h1
        exact ⟨_, hf.add _ _ _ _ _⟩

theorem readEntries_inv (rnd : ℚ → ℚ) {stations : AMap String (Station K)} {text : Str} {r : XCorr.Cache}
    (h : XCorrFile.readEntries rnd stations text = .ok r) : ∃ f, XCorr.History r f := by
  unfold XCorrFile.readEntries at h
  split at h
  · exact readRows_inv rnd _ _ _ ⟨_, XCorr.History.new⟩ h
  · cases h
  · cases h

end Verif.ClusterFiles
