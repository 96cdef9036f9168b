import Verif.Proofs.RelocateTotalMulti
import Verif.Proofs.SingleEvent
import Verif.Props.SingleEvent
import Verif.Props.Selection

/-! Helper lemmas for C101: single-event relocations end normally. -/

set_option linter.unusedSectionVars false
set_option linter.unusedSimpArgs false

namespace Verif.Relocate
open Verif.Catalog Verif.Solver

variable {K : Type} [Field K] [LinearOrder K]

theorem singleEventCatalog_total {bg evCat : Catalog K} (hb : bg.Sound) (he : evCat.Sound) {evId : Nat} {e : Event K}
    (hev : evCat.events.find? evId = some e) {nb : Neighbours} (hn : nb.ids.Nodup)
    (hin : ∀ k ∈ nb.ids, (bg.events.find? k).isSome = true) (hroom : uintMod - 1 ∉ nb.ids) :
    ∃ cat newId, singleEventCatalog bg evCat evId nb = .ok (cat, newId) := by
  obtain ⟨c, g1, g2⟩ := copy_spec hb init_sound nb.ids hn hin (by intro k _; simp [Catalog.init])
  have g1' : toCatalog nb bg = .ok c := g1
  have hlt : c.maxKey + 1 < uintMod := by
    have h1 : c.maxKey ≤ uintMod - 2 := by
      apply Catalog.foldl_max_le
      · omega
      · intro x hx
        rw [← AMap.find?_isSome, Option.isSome_iff_exists] at hx
        obtain ⟨e, he'⟩ := hx
        have h3 := (g2.sound.eventKey x e he').2
        have : x ≠ uintMod - 1 := by
          rintro rfl
          rw [g2.events, if_neg hroom] at he'
          simp [Catalog.init] at he'
        omega
    unfold uintMod at *; omega
  obtain ⟨a1, -⟩ := Catalog.addEvent_false c e hlt
  obtain ⟨c', k1, -⟩ := Catalog.addFrom_ok he.toWF he.phaseStation hev a1 rfl
  refine ⟨c', c.maxKey + 1, ?_⟩
  unfold singleEventCatalog
  rw [g1', Outcome.bind_ok, k1]

theorem relocateSingleEvent_total {s : SingleArgs K} {bg evCat : Catalog K} {evId : Nat} {nb : Neighbours} (hb : bg.Sound)
    (hbn : NoAt bg) (he : evCat.Sound) (hen : NoAt evCat) {e : Event K} (hev : evCat.events.find? evId = some e)
    (hn : nb.ids.Nodup) (hin : ∀ k ∈ nb.ids, (bg.events.find? k).isSome = true) (hroom : uintMod - 1 ∉ nb.ids)
    (hfit : 28 * nb.phases.length ≤ IdToIndex.uintMod) (hmin : s.minNumNeigh ≤ 34)
    (hpairs : ∀ sp n, (sp, n) ∈ nb.phases → n ∈ nb.ids ∧ (∃ p, IsPick evCat evId sp p) ∧ ∃ p, IsPick bg n sp p)
    (hthr : ∀ sp n, (sp, n) ∈ nb.phases → ∀ p, IsPick evCat evId sp p → (s.minCoef p.procType).isSome = true)
    (hxc : ∀ c cl, ∃ xc, s.xcorr c cl = .ok xc) (hsol : Prepares s.sol) :
    ∃ r, relocateSingleEvent s bg evCat evId nb = .ok r := by
  unfold relocateSingleEvent
  split
  · rw [if_pos (by omega)]; exact ⟨_, rfl⟩
  · obtain ⟨cat, newId, hc⟩ := singleEventCatalog_total hb he hev hn hin hroom
    obtain ⟨e', g1, g2, g3, g4, g5, g6, g7⟩ := singleEventCatalog_spec hb he hn hin hroom hc
    obtain ⟨xc, hx⟩ := hxc cat [(newId, { nb with refId := newId })]
    have hnc : NoAt cat := by
      intro k p hp
      by_cases h1 : k = newId
      · subst h1
        rw [g6] at hp
        obtain ⟨q, hq, rfl⟩ := List.mem_map.1 hp
        exact hen _ q hq
      · by_cases h2 : k ∈ nb.ids
        · rw [g5 k h2] at hp; exact hbn _ p hp
        · rw [g7 k h1 h2] at hp; cases hp
    have hnew : ∀ sp p, IsPick cat newId sp p ↔ ∃ q, IsPick evCat evId sp q ∧ p = { q with eventId := newId } := by
      intro sp p
      unfold IsPick
      rw [g6]
      constructor
      · rintro ⟨h1, h2, h3⟩
        obtain ⟨q, hq, rfl⟩ := List.mem_map.1 h1
        exact ⟨q, ⟨hq, h2, h3⟩, rfl⟩
      · rintro ⟨q, ⟨h1, h2, h3⟩, rfl⟩
        exact ⟨List.mem_map.2 ⟨q, h1, rfl⟩, h2, h3⟩
    obtain ⟨r, hr⟩ := relocate_total (a := s.toArgs xc nb newId) (cat := cat)
      ⟨⟨by simp [SingleArgs.toArgs], by simp [SingleArgs.toArgs]⟩, by simpa [SingleArgs.toArgs, Neighbours.phases] using hfit⟩ g2 hnc
      ⟨by
        intro kv hkv
        simp only [SingleArgs.toArgs, List.mem_singleton] at hkv
        subst hkv
        rw [g4, if_pos rfl]; rfl, by
        intro kv hkv sp n hsp
        simp only [SingleArgs.toArgs, List.mem_singleton] at hkv
        subst hkv
        obtain ⟨h1, ⟨p, hp⟩, q, hq1, hq2, hq3⟩ := hpairs sp n hsp
        refine ⟨⟨_, (hnew sp _).2 ⟨p, hp, rfl⟩⟩, q, ?_, hq2, hq3⟩
        rw [g5 n h1]; exact hq1, by
        intro kv hkv sp n hsp p hp
        simp only [SingleArgs.toArgs, List.mem_singleton] at hkv
        subst hkv
        obtain ⟨q, hq, rfl⟩ := (hnew sp p).1 hp
        exact hthr sp n hsp q hq⟩ hsol
    refine ⟨r, ?_⟩
    rw [hc, Outcome.bind_ok]
    simp only [hx, Outcome.bind_ok]
    exact hr

end Verif.Relocate
