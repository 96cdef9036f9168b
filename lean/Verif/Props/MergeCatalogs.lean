import Verif.Spec.CommandLine
import Verif.Props.Catalog
import Verif.Props.CatalogFile
import Verif.Props.CatalogText
import Verif.Props.CommandLine

/-!
# C91: merging catalogs
-/

set_option linter.unusedSimpArgs false

namespace Verif.CommandLine
open Verif.Catalog Verif.Daemon Spec
open Verif.Csv (Str)

/-- one step of the loop -/
def mergeStep (keep : Bool) (out c : Catalog Num) : Outcome (Catalog Num) :=
  match out.addAll c keep with
  | (out, .ok ()) => .ok out
  | (_, .throws) => .throws
  | (_, .ub) => .ub

theorem mergeLoop_eq {rnd : ℚ → ℚ} {u : Event Num} {v : Phase Num} {files : Str → Option Str} (keep : Bool) {names : List Str}
    {cats : List (Catalog Num)} (h : CatalogsOf rnd u v files names cats) : ∀ out, mergeLoop rnd u v files keep names out =
      cats.foldlM (mergeStep keep) out := by
  induction h with
  | nil => intro out; rfl
  | cons ha hb hc h t ih =>
    intro out
    rw [mergeLoop, CatalogFile.readNamed, ha, hb, hc]
    simp only [h]
    simp only [Outcome.bind_ok, List.foldlM_cons]
    unfold mergeStep
    generalize Catalog.addAll _ _ _ = r
    obtain ⟨o, x⟩ := r
    cases x with
    | ok x => exact ih o
    | throws => rfl
    | ub => rfl

theorem catalogsOf_length {rnd : ℚ → ℚ} {u : Event Num} {v : Phase Num} {files : Str → Option Str} {names : List Str}
    {cats : List (Catalog Num)} (h : CatalogsOf rnd u v files names cats) : names.length = 3 * cats.length := by
  induction h with
  | nil => rfl
  | cons ha hb hc h t ih => simp only [List.length_cons, ih]; omega

/-- what is read from files has its phases at stations it has; the phases may be of unknown events -/
theorem catalogsOf_placed {rnd : ℚ → ℚ} {u : Event Num} {v : Phase Num} {files : Str → Option Str} {names : List Str}
    {cats : List (Catalog Num)} (h : CatalogsOf rnd u v files names cats) : ∀ c ∈ cats, Catalog.Placed c := by
  induction h with
  | nil => intro c hc; cases hc
  | cons ha hb hc h t ih =>
    intro d hd
    rcases List.mem_cons.1 hd with rfl | hd
    · obtain ⟨sr, er, pr, ss, es, ps, -, -, -, h1, h2⟩ := CatalogFile.read_iff.1 h
      have := Catalog.WF.ofRows (fun e he => by
        obtain ⟨row, -, hr⟩ := CatalogFile.forall₂_right h1.events e he
        obtain ⟨s, -, hs⟩ := hr.id
        obtain ⟨neg, n, -, -, hn⟩ := hs
        rw [hn]
        exact Nat.mod_lt _ (by decide)) h2
      exact ⟨this.1, this.2⟩
    · exact ih d hd

theorem sound_init : Catalog.Sound (Catalog.init : Catalog Num) where
  toWF := Catalog.WF.init
  phaseEvent := by intro kp h; cases h
  phaseStation := by intro kp h; cases h

theorem merge_keep_loop (cats : List (Catalog Num)) (hs : ∀ c ∈ cats, Catalog.Placed c) :
    ∃ r, cats.foldlM (mergeStep true) Catalog.init = .ok r ∧ MergedKeepingIds cats r := by
  induction cats using List.reverseRecOn with
  | nil => exact ⟨_, rfl, sound_init, fun _ => rfl, fun _ => rfl, by intro s st h; cases h⟩
  | append_singleton cats c ih =>
    obtain ⟨a, h1, h2⟩ := ih (fun d hd => hs d (by simp [hd]))
    obtain ⟨r, g1, g2, g3, g4, g5, g6⟩ := Catalog.catalog_merge_keep_ids h2.sound (hs c (by simp))
    refine ⟨r, ?_, g2, ?_, ?_, ?_⟩
    · rw [foldlM_snoc, h1]
      simp only [Outcome.bind_ok, mergeStep, g1]
    · intro k
      rw [g3, h2.events, List.findSome?_append]
      simp
    · intro k
      rw [g4, h2.events, h2.phases, List.find?_append]
      cases hf : cats.find? (fun c => (c.events.find? k).isSome) with
      | some d =>
        have : (cats.findSome? (fun c => c.events.find? k)).isSome := by
          rw [List.findSome?_isSome_iff]
          exact ⟨d, List.mem_of_find?_eq_some hf, by simpa using List.find?_some hf⟩
        rw [if_pos this]; rfl
      | none =>
        have hn : cats.findSome? (fun c => c.events.find? k) = none := by
          rw [List.findSome?_eq_none_iff]
          intro x hx
          have := List.find?_eq_none.1 hf x hx
          simpa using this
        rw [hn]
        cases hc : c.events.find? k with
        | some e => simp [hc]
        | none => simp [hc]
    · intro s st h
      cases ha : a.stations.find? s with
      | some st' =>
        rw [g5 s st' ha] at h
        cases h
        obtain ⟨d, hd, hd'⟩ := h2.stations s st ha
        exact ⟨d, by simp [hd], hd'⟩
      | none =>
        rw [g6 s ha] at h
        split at h
        · rename_i hx
          obtain ⟨kp, k1, -, k2, k3⟩ := hx
          exact ⟨c, by simp, h, kp, k1, k2, k3⟩
        · cases h

theorem merge_new_loop (cats : List (Catalog Num)) (hs : ∀ c ∈ cats, Catalog.Placed c)
    (hroom : (cats.map (·.events.length)).sum < uintMod) :
    ∃ r ren, cats.foldlM (mergeStep false) Catalog.init = .ok r ∧ MergedWithNewIds cats ren r ∧
      ∀ k, (r.events.find? k).isSome → k ≤ (cats.map (·.events.length)).sum := by
  induction cats using List.reverseRecOn with
  | nil =>
    refine ⟨_, fun _ k => k, rfl, ⟨sound_init, by simp, by simp, ?_, ?_⟩, ?_⟩
    · intro n h; cases h
    · intro s st h; cases h
    · intro n h; cases h
  | append_singleton cats c ih =>
    simp only [List.map_append, List.map_cons, List.map_nil, List.sum_append, List.sum_cons, List.sum_nil, Nat.add_zero] at hroom ⊢
    obtain ⟨a, ren, h1, h2, h3⟩ := ih (fun d hd => hs d (by simp [hd])) (by omega)
    obtain ⟨r, ren', g1, g2, g3, g4, g5, g6, g7, g8, g9, g10⟩ := Catalog.catalog_merge_new_ids h2.sound (hs c (by simp))
      (fun k hk => by have := h3 k hk; omega) (by omega)
    have hidx : ∀ (i : Nat) d, (cats ++ [c])[i]? = some d → (i < cats.length ∧ cats[i]? = some d) ∨ (i = cats.length ∧ d = c) := by
      intro i d hi
      by_cases hlt : i < cats.length
      · rw [List.getElem?_append_left hlt] at hi
        exact .inl ⟨hlt, hi⟩
      · have hle : i < (cats ++ [c]).length := (List.getElem?_eq_some_iff.1 hi).1
        have : i = cats.length := by simp at hle; omega
        subst this
        rw [List.getElem?_append_right (by omega)] at hi
        simp at hi
        exact .inr ⟨rfl, hi.symm⟩
    refine ⟨r, fun i k => if i = cats.length then ren' k else ren i k, ?_, ⟨g2, ?_, ?_, ?_, ?_⟩, ?_⟩
    · rw [foldlM_snoc, h1]
      simp only [Outcome.bind_ok, mergeStep, g1]
    · intro i d k e hi hk
      rcases hidx i d hi with ⟨hlt, hi⟩ | ⟨rfl, rfl⟩
      · rw [if_neg (by omega)]
        obtain ⟨k1, k2⟩ := h2.all i d k e hi hk
        obtain ⟨k3, k4⟩ := g5 _ _ k1
        exact ⟨k3, k4.trans k2⟩
      · rw [if_pos rfl]
        exact g6 k e hk
    · intro i j d d' k l hi hj hk hl he
      have hold : ∀ i d k, cats[i]? = some d → (d.events.find? k).isSome → (a.events.find? (ren i k)).isSome := by
        intro i d k hi hk
        obtain ⟨e, hk⟩ := Option.isSome_iff_exists.1 hk
        rw [(h2.all i d k e hi hk).1]; rfl
      rcases hidx i d hi with ⟨hlt, hi'⟩ | ⟨hi', hd⟩ <;> rcases hidx j d' hj with ⟨hlt', hj'⟩ | ⟨hj', hd'⟩
      · rw [if_neg (by omega), if_neg (by omega)] at he
        exact h2.distinct i j d d' k l hi' hj' hk hl he
      · rw [if_neg (by omega), if_pos hj'] at he
        have := hold i d k hi' hk
        rw [hd'] at hl
        rw [he, g3 l hl] at this; cases this
      · rw [if_pos hi', if_neg (by omega)] at he
        have := hold j d' l hj' hl
        rw [hd] at hk
        rw [← he, g3 k hk] at this; cases this
      · rw [if_pos hi', if_pos hj'] at he
        rw [hd] at hk
        rw [hd'] at hl
        exact ⟨hi'.trans hj'.symm, g4 k l hk hl he⟩
    · intro n hn
      rcases g7 n hn with h | ⟨k, hk, rfl⟩
      · obtain ⟨i, d, k, hi, hk, rfl⟩ := h2.only n h
        have hlt := (List.getElem?_eq_some_iff.1 hi).1
        exact ⟨i, d, k, by rw [List.getElem?_append_left hlt]; exact hi, hk, by rw [if_neg (by omega)]⟩
      · exact ⟨cats.length, c, k, by simp, hk, by simp⟩
    · intro s st h
      cases ha : a.stations.find? s with
      | some st' =>
        rw [g8 s st' ha] at h
        cases h
        obtain ⟨d, hd, hd'⟩ := h2.stations s st ha
        exact ⟨d, by simp [hd], hd'⟩
      | none =>
        rw [g9 s ha] at h
        split at h
        · rename_i hx
          obtain ⟨kp, k1, k2, k3⟩ := hx
          exact ⟨c, by simp, h, kp, k1, k2, k3⟩
        · cases h
    · exact g10 _ h3

/-- **C91a** Merging catalogs keeping the ids: the result has all events of all catalogs, those with the same id once, as in the
first of these catalogs, with exactly their phases and with the stations these need. -/
theorem merge_keeping_ids {rnd : ℚ → ℚ} {u : Event Num} {v : Phase Num} {files : Str → Option Str} {o : Options} {names : List Str}
    {cats : List (Catalog Num)} (hne : names ≠ []) (hn : ∀ x ∈ names, Item x) (ho : o.mergeCatalogs = commaSeparated names)
    (hc : CatalogsOf rnd u v files names cats) (hk : o.keepid = true) :
    ∃ r, mergeCatalogs rnd u v files o = .ok (some r) ∧ MergedKeepingIds cats r := by
  obtain ⟨r, h1, h2⟩ := merge_keep_loop cats (catalogsOf_placed hc)
  refine ⟨r, ?_, h2⟩
  unfold mergeCatalogs
  simp only
  rw [ho, tokens_commaSeparated hne hn, catalogsOf_length hc, if_neg (by simp), hk, mergeLoop_eq true hc, h1]
  rfl

/-- **C91b** Merging catalogs with new ids: the result has every event of every catalog exactly once, with an id of its own, with
exactly its phases and with the stations these need. -/
theorem merge_with_new_ids {rnd : ℚ → ℚ} {u : Event Num} {v : Phase Num} {files : Str → Option Str} {o : Options} {names : List Str}
    {cats : List (Catalog Num)} (hne : names ≠ []) (hn : ∀ x ∈ names, Item x) (ho : o.mergeCatalogs = commaSeparated names)
    (hc : CatalogsOf rnd u v files names cats) (hk : o.keepid = false)
    (hroom : (cats.map (·.events.length)).sum < uintMod) :
    ∃ r ren, mergeCatalogs rnd u v files o = .ok (some r) ∧ MergedWithNewIds cats ren r := by
  obtain ⟨r, ren, h1, h2, -⟩ := merge_new_loop cats (catalogsOf_placed hc) hroom
  refine ⟨r, ren, ?_, h2⟩
  unfold mergeCatalogs
  simp only
  rw [ho, tokens_commaSeparated hne hn, catalogsOf_length hc, if_neg (by simp), hk, mergeLoop_eq false hc, h1]
  rfl

/-- **C91c** A number of files that is not a multiple of three is refused. -/
theorem merge_needs_triplets (rnd : ℚ → ℚ) (u : Event Num) (v : Phase Num) (files : Str → Option Str) {o : Options} {names : List Str}
    (hne : names ≠ []) (hn : ∀ x ∈ names, Item x) (ho : o.mergeCatalogs = commaSeparated names) (h3 : ¬ 3 ∣ names.length) :
    mergeCatalogs rnd u v files o = .ok none := by
  unfold mergeCatalogs
  simp only
  rw [ho, tokens_commaSeparated hne hn, if_pos (by omega)]

theorem mergeLoop_append {rnd : ℚ → ℚ} {u : Event Num} {v : Phase Num} {files : Str → Option Str} (keep : Bool) {names : List Str}
    {cats : List (Catalog Num)} (h : CatalogsOf rnd u v files names cats) (rest : List Str) : ∀ out,
      mergeLoop rnd u v files keep (names ++ rest) out = (do
        let r ← cats.foldlM (mergeStep keep) out
        mergeLoop rnd u v files keep rest r) := by
  induction h with
  | nil => intro out; rfl
  | cons ha hb hc h t ih =>
    intro out
    rw [List.cons_append, List.cons_append, List.cons_append, mergeLoop, CatalogFile.readNamed, ha, hb, hc]
    simp only [h]
    simp only [Outcome.bind_ok, List.foldlM_cons]
    unfold mergeStep
    generalize Catalog.addAll _ _ _ = r
    obtain ⟨o, x⟩ := r
    cases x with
    | ok x => exact ih o
    | throws => rfl
    | ub => rfl

/-- **C91e** A file that does not exist stops the merging with an exception, after the catalogs before it were read. -/
theorem merge_missing_file {rnd : ℚ → ℚ} {u : Event Num} {v : Phase Num} {files : Str → Option Str} {o : Options} {names rest : List Str}
    {cats : List (Catalog Num)} {a b c : Str} (hn : ∀ x ∈ names ++ a :: b :: c :: rest, Item x)
    (ho : o.mergeCatalogs = commaSeparated (names ++ a :: b :: c :: rest)) (h3 : 3 ∣ rest.length)
    (hc : CatalogsOf rnd u v files names cats) (hroom : (cats.map (·.events.length)).sum < uintMod)
    (hm : files a = none ∨ files b = none ∨ files c = none) : mergeCatalogs rnd u v files o = .throws := by
  have hr : ∃ r, cats.foldlM (mergeStep o.keepid) Catalog.init = .ok r := by
    cases hk : o.keepid with
    | true => obtain ⟨r, h1, -⟩ := merge_keep_loop cats (catalogsOf_placed hc); exact ⟨r, h1⟩
    | false => obtain ⟨r, -, h1, -⟩ := merge_new_loop cats (catalogsOf_placed hc) hroom; exact ⟨r, h1⟩
  obtain ⟨r, hr⟩ := hr
  have hread : CatalogFile.readNamed rnd true u v files a b c = .throws := by
    unfold CatalogFile.readNamed
    rcases hm with h | h | h
    · rw [h]
    · rw [h]; cases files a <;> rfl
    · rw [h]; cases files a <;> cases files b <;> rfl
  unfold mergeCatalogs
  simp only
  rw [ho, tokens_commaSeparated (by simp) hn, if_neg (by
    rw [List.length_append, catalogsOf_length hc]
    simp only [List.length_cons]
    omega), mergeLoop_append _ hc, hr]
  simp only [Outcome.bind_ok]
  rw [mergeLoop, hread]
  rfl

/-- a catalog that can be written and in which the event of a relocated phase is relocated -/
structure Complete (c : Catalog Num) : Prop where
  writable : CatalogFile.Writable c
  relocated : ∀ kp ∈ c.phases, kp.2.isRelocated = true → ∃ e, c.events.find? kp.1 = some e ∧ e.isRelocated = true

theorem complete_of {cats : List (Catalog Num)} {r : Catalog Num} (hs : Catalog.Sound r) (hst : StationsOf cats r)
    (hev : ∀ k e, r.events.find? k = some e → ∃ c ∈ cats, ∃ k' e', c.events.find? k' = some e' ∧ e = { e' with id := k } ∧
      r.phasesOf k = (c.phasesOf k').map (fun p => { p with eventId := k })) (hc : ∀ c ∈ cats, Complete c) : Complete r := by
  have hph : ∀ kp ∈ r.phases, ∃ c ∈ cats, ∃ k' e' p, c.events.find? k' = some e' ∧ r.events.find? kp.1 = some { e' with id := kp.1 } ∧
      (k', p) ∈ c.phases ∧ kp.2 = { p with eventId := kp.1 } := by
    intro kp hkp
    obtain ⟨e, he⟩ := Option.isSome_iff_exists.1 (hs.phaseEvent kp hkp)
    obtain ⟨c, hcm, k', e', g1, g2, g3⟩ := hev kp.1 e he
    have hm : kp.2 ∈ r.phasesOf kp.1 := Catalog.mem_phasesOf.2 hkp
    rw [g3] at hm
    obtain ⟨p, hp, hp'⟩ := List.mem_map.1 hm
    exact ⟨c, hcm, k', e', p, g1, by rw [he, g2], Catalog.mem_phasesOf.1 hp, hp'.symm⟩
  have hrel : ∀ kp ∈ r.phases, kp.2.isRelocated = true → ∃ e, r.events.find? kp.1 = some e ∧ e.isRelocated = true := by
    intro kp hkp hr
    obtain ⟨c, hcm, k', e', p, g1, g2, g3, g4⟩ := hph kp hkp
    refine ⟨_, g2, ?_⟩
    rw [g4] at hr
    obtain ⟨e, h1, h2⟩ := (hc c hcm).relocated (k', p) g3 hr
    simp only at h1
    rw [g1] at h1
    cases h1
    exact h2
  refine ⟨⟨hs.toWF, ?_, ?_, ?_, ?_, ?_, ?_, ?_, ?_, ?_, ?_⟩, hrel⟩
  · intro id s h
    obtain ⟨c, hcm, h', -⟩ := hst id s h
    exact (hc c hcm).writable.station id s h'
  · intro id e h
    obtain ⟨c, hcm, k', e', g1, g2, -⟩ := hev id e h
    rw [g2]
    exact (hc c hcm).writable.event k' e' g1
  · intro id s h
    obtain ⟨c, hcm, h', -⟩ := hst id s h
    exact (hc c hcm).writable.stationNumbers id s h'
  · intro id e h
    obtain ⟨c, hcm, k', e', g1, g2, -⟩ := hev id e h
    rw [g2]
    exact (hc c hcm).writable.eventNumbers k' e' g1
  · intro kp hkp
    obtain ⟨c, hcm, k', e', p, -, -, g3, g4⟩ := hph kp hkp
    rw [g4]
    exact (hc c hcm).writable.phaseNumbers _ g3
  · intro kp hkp
    obtain ⟨e, he⟩ := Option.isSome_iff_exists.1 (hs.phaseEvent kp hkp)
    exact (hs.eventKey _ _ he).2
  · intro kp hkp
    obtain ⟨c, hcm, k', e', p, -, -, g3, g4⟩ := hph kp hkp
    rw [g4]
    exact (hc c hcm).writable.phaseTime _ g3
  · intro kp hkp
    obtain ⟨c, hcm, k', e', p, -, -, g3, g4⟩ := hph kp hkp
    rw [g4]
    exact (hc c hcm).writable.phaseText _ g3
  · intro kp hkp
    obtain ⟨c, hcm, k', e', p, -, -, g3, g4⟩ := hph kp hkp
    refine ⟨hs.phaseStation kp hkp, ?_⟩
    rw [g4]
    exact ((hc c hcm).writable.phaseStation _ g3).2
  · rintro ⟨kp, hkp, hr⟩
    obtain ⟨e, h1, h2⟩ := hrel kp hkp hr
    exact ⟨_, e, h1, h2⟩

/-- **C91d** The files that are written are read as the merged catalog, up to the digits that are written, if this holds for the
given catalogs. -/
theorem merged_files_read_back {cats : List (Catalog Num)} {r : Catalog Num}
    (h : MergedKeepingIds cats r ∨ ∃ ren, MergedWithNewIds cats ren r) (hc : ∀ c ∈ cats, Complete c)
    (rnd : ℚ → ℚ) (u : Event Num) (v : Phase Num) {phases : List (Nat × Phase Num)} (hp : phases.Perm r.phases)
    {stations : List (String × Station Num)} (hst : stations.Perm r.stations) :
    ∃ r', CatalogFile.read rnd true u v (CatalogFile.write r phases stations) = .ok r' ∧
      (∀ id, Option.Rel (CatalogFile.Spec.StationRead rnd) (r.stations.find? id) (r'.stations.find? id)) ∧
      (∀ id, Option.Rel (CatalogFile.Spec.EventRead rnd true) (r.events.find? id) (r'.events.find? id)) ∧
      ∃ l, l.Perm r.phases ∧
        List.Forall₂ (fun kp kp' => kp'.1 = kp.1 ∧ CatalogFile.Spec.PhaseRead rnd true kp.2 kp'.2) l r'.phases := by
  have hcomp : Complete r := by
    rcases h with h | ⟨ren, h⟩
    · refine complete_of h.sound h.stations ?_ hc
      intro k e he
      have h1 := he
      rw [h.events] at h1
      have h2 := h.phases k
      cases hf : cats.find? (fun c => (c.events.find? k).isSome) with
      | none =>
        have : cats.findSome? (fun c => c.events.find? k) = none := by
          rw [List.findSome?_eq_none_iff]
          intro x hx
          have := List.find?_eq_none.1 hf x hx
          simpa using this
        rw [this] at h1; cases h1
      | some d =>
        have hd := List.mem_of_find?_eq_some hf
        rw [hf] at h2
        have hdk : d.events.find? k = some e := by
          obtain ⟨pre, post, hsplit, hpre⟩ := (List.find?_eq_some_iff_append.1 hf).2
          rw [hsplit, List.findSome?_append] at h1
          have hnone : pre.findSome? (fun c => c.events.find? k) = none := by
            rw [List.findSome?_eq_none_iff]
            intro x hx
            have := hpre x hx
            simpa using this
          rw [hnone] at h1
          have hsome := (List.find?_eq_some_iff_append.1 hf).1
          obtain ⟨e', he'⟩ := Option.isSome_iff_exists.1 hsome
          simp [List.findSome?_cons, he'] at h1
          rw [he', h1]
        refine ⟨d, hd, k, e, hdk, ?_, ?_⟩
        · have := ((hc d hd).writable.wf.eventKey k e hdk).1
          rw [← this]
        · rw [h2]
          show d.phasesOf k = _
          conv_lhs => rw [← List.map_id (d.phasesOf k)]
          apply List.map_congr_left
          intro p hp'
          have := (hc d hd).writable.wf.phaseKey _ (Catalog.mem_phasesOf.1 hp')
          simp only at this
          rw [← this]; rfl
    · refine complete_of h.sound h.stations ?_ hc
      intro n e he
      obtain ⟨i, c, k, hi, hk, rfl⟩ := h.only n (by rw [he]; rfl)
      obtain ⟨e', hk⟩ := Option.isSome_iff_exists.1 hk
      obtain ⟨g1, g2⟩ := h.all i c k e' hi hk
      rw [he] at g1
      exact ⟨c, List.mem_of_getElem? hi, k, e', hk, Option.some.inj g1, g2⟩
  exact CatalogFile.catalog_file_round_trip rnd true u v hcomp.writable hp hst

namespace MergeExample
open CatalogFile.Example (cat ev ph)

/-- a test that a catalog is consistent -/
def check (c : Catalog Num) : Bool :=
  decide (c.stations.map (·.1)).Nodup && decide (c.events.map (·.1)).Nodup &&
  c.stations.all (fun kv => kv.2.id = kv.1 && Catalog.stationIdOf kv.2.networkCode kv.2.stationCode kv.2.locationCode = kv.1) &&
  c.events.all (fun kv => kv.2.id = kv.1 && kv.1 < uintMod) && c.phases.all (fun kp => kp.2.eventId = kp.1) &&
  c.phases.all (fun kp => (c.events.find? kp.1).isSome && (c.stations.find? kp.2.stationId).isSome)

theorem sound_of_check {c : Catalog Num} (h : check c = true) : Catalog.Sound c := by
  unfold check at h
  simp only [Bool.and_eq_true, decide_eq_true_eq, List.all_eq_true] at h
  obtain ⟨⟨⟨⟨⟨h1, h2⟩, h3⟩, h4⟩, h5⟩, h6⟩ := h
  exact ⟨⟨h1, fun id s hs => h3 (id, s) (AMap.mem_of_find? hs), h2, fun id e he => h4 (id, e) (AMap.mem_of_find? he), h5⟩,
    fun kp hkp => (h6 kp hkp).1, fun kp hkp => (h6 kp hkp).2⟩

/-- the files of a catalog with one station and two events -/
def written : CatalogFile.Files := CatalogFile.write cat cat.phases cat.stations
def files (name : Str) : Option Str :=
  if name = "s".toList then some written.station else if name = "e".toList then some written.event
  else if name = "p".toList then some written.phase else none
def names : List Str := ["s".toList, "e".toList, "p".toList, "s".toList, "e".toList, "p".toList]
def options (keep : Bool) : Options := { mergeCatalogs := "s,e,p,s,e,p".toList, keepid := keep }

/-- the ids of the events and of the events of the phases -/
def ids : Outcome (Option (Catalog Num)) → List Nat × List Nat
  | .ok (some r) => (r.eventsSorted.map Prod.fst, r.phases.map Prod.fst)
  | _ => ([], [])

/-- the catalog merged with itself -/
example : ids (mergeCatalogs id (ev 0 false) (ph 0 false) files (options true)) = ([2, 7], [2, 7]) ∧
    ids (mergeCatalogs id (ev 0 false) (ph 0 false) files (options false)) = ([1, 2, 3, 4], [1, 2, 3, 4]) := by decide +kernel

/-- the hypotheses of `merge_missing_file` are met: the second catalog has no file of events -/
example : (mergeCatalogs id (ev 0 false) (ph 0 false) files { mergeCatalogs := "s,e,p,s,x,p".toList } matches .throws) = true ∧
    (∀ x ∈ names.take 3 ++ ["s".toList, "x".toList, "p".toList], Item x) ∧ files "x".toList = none ∧
    "s,e,p,s,x,p".toList = commaSeparated (names.take 3 ++ ["s".toList, "x".toList, "p".toList]) := by
  refine ⟨by decide +kernel, ?_, by decide +kernel, by decide +kernel⟩
  intro x hx
  simp only [names, List.take, List.cons_append, List.nil_append, List.mem_cons, List.not_mem_nil, or_false] at hx
  rcases hx with rfl | rfl | rfl | rfl | rfl | rfl <;> exact ⟨by decide +kernel, by decide +kernel⟩

/-- the hypotheses of `merge_keeping_ids` and `merge_with_new_ids` are met -/
example : names ≠ [] ∧ (∀ x ∈ names, Item x) ∧ (∀ keep, (options keep).mergeCatalogs = commaSeparated names) ∧
    ∃ cats, CatalogsOf id (ev 0 false) (ph 0 false) files names cats ∧ (cats.map (·.events.length)).sum = 4 := by
  refine ⟨by simp [names], ?_, fun keep => (by decide +kernel : "s,e,p,s,e,p".toList = commaSeparated names), ?_⟩
  · intro x hx
    simp only [names, List.mem_cons, List.not_mem_nil, or_false] at hx
    rcases hx with rfl | rfl | rfl | rfl | rfl | rfl <;> exact ⟨by decide +kernel, by decide +kernel⟩
  · have hc : (CatalogFile.read id true (ev 0 false) (ph 0 false) written >>= fun c =>
        .ok c.events.length) = Outcome.ok 2 := by decide +kernel
    obtain ⟨c, hc, hc'⟩ := bind_eq_ok hc
    have h2 : c.events.length = 2 := Outcome.ok.inj hc'
    exact ⟨[c, c], .cons rfl rfl rfl hc (.cons rfl rfl rfl hc .nil), by simp [h2]⟩

/-- the hypotheses of `merged_files_read_back` are met -/
example : ∃ r, MergedKeepingIds [cat, cat] r ∧ ∀ c ∈ [cat, cat], Complete c := by
  have hs : ∀ c ∈ [cat, cat], Catalog.Placed c := by
    intro c hc
    have : c = cat := by simpa using hc
    rw [this]
    exact (sound_of_check (by decide +kernel)).placed
  obtain ⟨r, -, h⟩ := merge_keep_loop [cat, cat] hs
  refine ⟨r, h, ?_⟩
  intro c hc
  have : c = cat := by simpa using hc
  rw [this]
  refine ⟨CatalogFile.Example.writable, ?_⟩
  intro kp hkp hr
  simp only [cat, List.mem_cons, List.not_mem_nil, or_false] at hkp
  rcases hkp with rfl | rfl
  · exact ⟨ev 7 true, by decide +kernel, rfl⟩
  · cases hr

end MergeExample

end Verif.CommandLine
