import Verif.Proofs.RenumberSelect
import Verif.Props.Selection
import Verif.Model.SingleEvent

/-! Lemmas about single-event relocation when the events have other numbers. -/

set_option linter.unusedSectionVars false
set_option linter.unusedSimpArgs false

namespace Verif.Renumber
open Verif.Catalog Verif.Relocate Verif.Selection
open Verif.TimeShift (foldlM_map_comm)

variable {K : Type} [Field K] [LinearOrder K] {r f : Nat → Nat}

theorem fill_ren (hr : StrictMono r) {c : Catalog K} (src : Source) (vp vs : List String) (w : K → K → K) :
    (catalog r c).fillProcessingInfo src vp vs (fun p => w p.lowerUncertainty p.upperUncertainty) =
      catalog r (c.fillProcessingInfo src vp vs (fun p => w p.lowerUncertainty p.upperUncertainty)) := by
  have h : ((catalog r c).fillProcessingInfo src vp vs (fun p => w p.lowerUncertainty p.upperUncertainty)).phases =
      (catalog r (c.fillProcessingInfo src vp vs (fun p => w p.lowerUncertainty p.upperUncertainty))).phases := by
    rw [cat_phases]
    unfold Catalog.fillProcessingInfo
    simp only [cat_sorted hr, List.flatMap_map, List.map_flatMap, e_id, cat_phasesOf hr, List.map_map]
    rfl
  have h' : ∀ a b : Catalog K, a.stations = b.stations → a.events = b.events → a.phases = b.phases → a = b := by
    rintro ⟨_, _, _⟩ ⟨_, _, _⟩ rfl rfl rfl; rfl
  exact h' _ _ rfl rfl h

theorem toCatalog_ren (hr : StrictMono r) (nb : Neighbours) (cat : Catalog K) :
    toCatalog (neighbours r nb) (catalog r cat) = (toCatalog nb cat).map (catalog r) := by
  unfold toCatalog
  rw [nb_ids, List.foldlM_map]
  refine foldlM_map_comm (γ := Unit) (catalog r) _ _ (fun c k => ?_) nb.ids Catalog.init
  unfold copyStep
  rw [cat_addFrom hr]
  generalize c.addFrom k cat true = x
  obtain ⟨c', out⟩ := x
  cases out <;> rfl

theorem copyPhases_two (sts : AMap String (Station K)) (newId : Nat) :
    ∀ (ps : List (Phase K)) (c : Catalog K),
      Catalog.copyPhases sts (f newId) (catalog f c) (ps.map (phase r)) =
        ((catalog f (Catalog.copyPhases sts newId c ps).1), (Catalog.copyPhases sts newId c ps).2)
  | [], c => rfl
  | p :: ps, c => by
    rw [List.map_cons]
    simp only [Catalog.copyPhases]
    unfold Catalog.copyPhase
    rw [show (phase r p).stationId = p.stationId from rfl]
    cases sts.find? p.stationId with
    | none => rfl
    | some s =>
      have : ((catalog f c).addStation s).addPhase { phase r p with eventId := f newId } =
          catalog f ((c.addStation s).addPhase { p with eventId := newId }) := by
        rw [cat_addStation, ← cat_addPhase]; rfl
      have ih := copyPhases_two sts newId ps ((c.addStation s).addPhase { p with eventId := newId })
      rw [← this] at ih
      exact ih

theorem addFrom_new (hr : StrictMono r) (hf : StrictMono f) (c o : Catalog K) (k : Nat)
    (hid : ((catalog f c).maxKey + 1) % uintMod = f ((c.maxKey + 1) % uintMod)) :
    (catalog f c).addFrom (r k) (catalog r o) false = (catalog f (c.addFrom k o false).1, (c.addFrom k o false).2.map f) := by
  unfold Catalog.addFrom
  rw [cat_find hr]
  cases ho : o.events.find? k with
  | none => rfl
  | some e =>
    simp only [Option.map_some, Catalog.addEvent, if_false, hid, Bool.false_eq_true, e_id]
    generalize (c.maxKey + 1) % uintMod = n
    have h2 : (⟨(catalog f c).stations, (catalog f c).events.set (f n) { event r e with id := f n }, (catalog f c).phases⟩ : Catalog K) =
        catalog f { c with events := c.events.set n { e with id := n } } := by
      have := set_mapBoth hf.injective (event f) n { e with id := n } c.events
      rw [cat_events]
      exact (Catalog.mk.injEq ..).mpr ⟨rfl, this, rfl⟩
    simp only [cat_phasesOf hr]
    have h3 := copyPhases_two (r := r) (f := f) o.stations n (o.phasesOf e.id) { c with events := c.events.set n { e with id := n } }
    rw [← h2] at h3
    rw [cat_stations, h3]
    generalize Catalog.copyPhases o.stations n { c with events := c.events.set n { e with id := n } } (o.phasesOf e.id) = x
    obtain ⟨c', x⟩ := x
    cases x <;> rfl

theorem foldl_max_map (hr : StrictMono r) : ∀ (l : List Nat) (a : Nat), (l.map r).foldl max (r a) = r (l.foldl max a)
  | [], _ => rfl
  | b :: l, a => by
    rw [List.map_cons, List.foldl_cons, List.foldl_cons, ← hr.monotone.map_max]
    exact foldl_max_map hr l _

/-- A numbering that agrees with `r` on the events of a catalog, and for which the next free numbers correspond. -/
theorem exists_extended (hr : StrictMono r) {c : Catalog K} (hc : c.Sound) (h1 : ∀ k ∈ c.events.keys, k + 1 < uintMod ∧ r k + 1 < uintMod) :
    ∃ f : Nat → Nat, StrictMono f ∧ (∀ k ∈ c.events.keys, f k = r k) ∧ catalog f c = catalog r c ∧
      ((catalog f c).maxKey + 1) % uintMod = f ((c.maxKey + 1) % uintMod) := by
  have hkeys : (catalog r c).events.keys = c.events.keys.map r := by
    rw [cat_events]; unfold AMap.keys; rw [List.map_map, List.map_map]; rfl
  have hcong : ∀ f : Nat → Nat, (∀ k ∈ c.events.keys, f k = r k) → catalog f c = catalog r c := by
    intro f hf
    refine (Catalog.mk.injEq ..).mpr ⟨rfl, List.map_congr_left (fun kv hkv => ?_), List.map_congr_left (fun kp hkp => ?_)⟩
    · have hk := AMap.mem_keys_of_mem hkv
      have hid := (hc.eventKey _ _ (AMap.find?_of_mem hc.eventsUnique (show (kv.1, kv.2) ∈ c.events from hkv))).1
      simp only [event, hid, hf _ hk]
    · have hk := AMap.find?_isSome.1 (hc.phaseEvent kp hkp)
      simp only [phase, hc.phaseKey kp hkp, hf _ hk]
  cases hk : c.events.keys with
  | nil =>
    have hnil : ∀ k ∈ c.events.keys, (id : Nat → Nat) k = r k := by rw [hk]; simp
    refine ⟨id, strictMono_id, by simp, hcong id hnil, ?_⟩
    rw [hcong id hnil]
    unfold Catalog.maxKey
    rw [hkeys, hk]
    rfl
  | cons a l =>
    have hM : (catalog r c).maxKey = r c.maxKey := by
      unfold Catalog.maxKey
      rw [hkeys, hk, List.map_cons, List.foldl_cons, List.foldl_cons, Nat.zero_max, Nat.zero_max]
      exact foldl_max_map hr l a
    have hle : ∀ k ∈ c.events.keys, k ≤ c.maxKey := by
      intro k hk
      obtain ⟨e, hke⟩ := Option.isSome_iff_exists.1 (AMap.find?_isSome.2 hk)
      exact Catalog.le_maxKey hke
    have hmem : c.maxKey ∈ c.events.keys := by
      have hfold : ∀ (l : List Nat) (a : Nat), l.foldl max a ∈ a :: l := by
        intro l
        induction l with
        | nil => intro a; simp
        | cons b l ih =>
          intro a
          rw [List.foldl_cons]
          have := ih (max a b)
          rcases max_choice a b with h | h <;> rw [h] at this ⊢ <;> simp at this ⊢ <;> tauto
      unfold Catalog.maxKey
      rw [hk, List.foldl_cons, Nat.zero_max]
      exact hfold l a
    obtain ⟨b1, b2⟩ := h1 _ hmem
    generalize c.maxKey = M at *
    have hf : ∀ k ∈ c.events.keys, (fun n => if n ≤ M then r n else r M + (n - M)) k = r k := fun k hk => if_pos (hle k hk)
    refine ⟨fun n => if n ≤ M then r n else r M + (n - M), ?_, hk ▸ hf, hcong _ hf, ?_⟩
    · intro x y hxy
      simp only []
      by_cases hx : x ≤ M
      · by_cases hy : y ≤ M
        · rw [if_pos hx, if_pos hy]; exact hr hxy
        · rw [if_pos hx, if_neg hy]
          have := hr.monotone hx
          omega
      · rw [if_neg hx, if_neg (by omega)]
        omega
    · rw [hcong _ hf, hM, Nat.mod_eq_of_lt b1, Nat.mod_eq_of_lt b2]
      simp only []
      rw [if_neg (by omega)]
      omega

theorem singleEventCatalog_ren (hr : StrictMono r) {bg evCat : Catalog K} (hb : bg.Sound) {nb : Neighbours} (hn : nb.ids.Nodup)
    (hi : ∀ i ∈ nb.ids, (bg.events.find? i).isSome = true ∧ i + 1 < uintMod ∧ r i + 1 < uintMod) (evId : Nat) :
    ∃ f : Nat → Nat, StrictMono f ∧ (∀ i ∈ nb.ids, f i = r i) ∧
      singleEventCatalog (catalog r bg) (catalog r evCat) (r evId) (neighbours r nb) =
        (singleEventCatalog bg evCat evId nb).map (fun x => (catalog f x.1, f x.2)) := by
  obtain ⟨c, h1, h2⟩ := copy_spec hb init_sound nb.ids hn (fun k hk => (hi k hk).1) (fun _ _ => rfl)
  have h1' : toCatalog nb bg = .ok c := h1
  have hkeys : ∀ k, k ∈ c.events.keys ↔ k ∈ nb.ids := by
    intro k
    rw [← AMap.find?_isSome, h2.events]
    by_cases hk : k ∈ nb.ids
    · rw [if_pos hk]
      exact ⟨fun _ => hk, fun _ => (hi k hk).1⟩
    · rw [if_neg hk]
      exact ⟨fun h => by simp [Catalog.init] at h, fun h => absurd h hk⟩
  obtain ⟨f, hf, e1, e2, e3⟩ := exists_extended hr h2.sound (fun k hk => (hi k ((hkeys k).1 hk)).2)
  refine ⟨f, hf, fun i h => e1 i ((hkeys i).2 h), ?_⟩
  unfold singleEventCatalog
  rw [toCatalog_ren hr, h1']
  simp only [Outcome.map, Outcome.bind_ok]
  rw [← e2, addFrom_new hr hf c evCat evId e3]
  generalize c.addFrom evId evCat false = x
  obtain ⟨c', out⟩ := x
  cases out <;> rfl

end Verif.Renumber
