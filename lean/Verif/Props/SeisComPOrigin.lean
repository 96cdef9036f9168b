import Verif.Props.SeisComP
import Verif.Props.AzGap
import Verif.Props.Stats
import Verif.Proofs.Relocate

/-!
# C77: the origin made from a relocated event
-/

set_option linter.unusedSimpArgs false

namespace Verif.SeisComP
open Verif.Catalog Verif.Catalog.Catalog Spec

/-! ## longitudes and azimuths -/

theorem fmod_range {x : ℚ} (h : 0 ≤ x) : 0 ≤ fmod x 360 ∧ fmod x 360 < 360 ∧ ∃ n : ℤ, fmod x 360 = x + 360 * n := by
  unfold fmod
  rw [if_pos (by positivity)]
  have h1 := Int.floor_le (x / 360)
  have h2 := Int.lt_floor_add_one (x / 360)
  refine ⟨by linarith [(by ring : 360 * (x / 360) = x)], by linarith [(by ring : 360 * (x / 360) = x)], -⌊x / 360⌋, by push_cast; ring⟩

theorem fmod_bound (x : ℚ) : -360 < fmod x 360 ∧ fmod x 360 < 360 ∧ ∃ n : ℤ, fmod x 360 = x + 360 * n := by
  by_cases h : 0 ≤ x
  · obtain ⟨h1, h2, h3⟩ := fmod_range h
    exact ⟨by linarith, h2, h3⟩
  · unfold fmod
    rw [if_neg (by intro hn; exact h (by linarith [(by ring : 360 * (x / 360) = x)]))]
    have h1 := Int.le_ceil (x / 360)
    have h2 := Int.ceil_lt_add_one (x / 360)
    refine ⟨by linarith [(by ring : 360 * (x / 360) = x)], by linarith [(by ring : 360 * (x / 360) = x)], -⌈x / 360⌉, by push_cast; ring⟩

theorem normalizeLon_spec (lon : ℚ) : ∃ r, normalizeLon (.num lon) = .num r ∧ -180 ≤ r ∧ r < 180 ∧ ∃ n : ℤ, r = lon + 360 * n := by
  obtain ⟨h1, h2, n, h3⟩ := fmod_bound (lon + 180)
  obtain ⟨h4, h5, m, h6⟩ := fmod_range (x := fmod (lon + 180) 360 + 360) (by linarith)
  refine ⟨_, rfl, by linarith, by linarith, n + m + 1, ?_⟩
  rw [h6, h3]; push_cast; ring

theorem normalizeAz_spec (az : ℚ) : (∃ n : ℤ, normalizeAz az = az + 360 * n) ∧
    (-360 ≤ az → az < 720 → 0 ≤ normalizeAz az ∧ normalizeAz az < 360) := by
  unfold normalizeAz
  split
  · exact ⟨⟨1, by push_cast; ring⟩, fun h _ => ⟨by linarith, by linarith⟩⟩
  · split
    · exact ⟨⟨-1, by push_cast; ring⟩, fun _ h => ⟨by linarith, by linarith⟩⟩
    · exact ⟨⟨0, by push_cast; ring⟩, fun _ _ => ⟨by linarith, by linarith⟩⟩

/-! ## picks -/

variable {q : Option Query} {cch : Option ObjCache} {ep : Option EventParameters}

theorem searchPick_ofAll (org : Option Origin) (ph : Phase Num) :
    searchPick (DataSource.ofAll q cch ep) org ph = .ok ((sourcePicks cch ep org).find? (fun p => SamePick ph p)) := by
  cases org with
  | none => rfl
  | some org =>
    unfold searchPick sourcePicks
    simp only [Option.map_some, Option.getD_some]
    induction org.arrivals with
    | nil => rfl
    | cons a as ih =>
      unfold existingPick
      rw [getPick_ofAll]
      simp only [Outcome.bind_ok]
      cases hp : pickOf cch ep a.pickID with
      | none => simp only [ih, picked, List.filterMap_cons, hp, Option.map_none]
      | some p =>
        simp only [picked, List.filterMap_cons, hp, Option.map_some, List.map_cons, List.find?_cons]
        by_cases h : SamePick ph p
        · exact (if_pos h).trans (by simp [h])
        · refine (if_neg h).trans ?_
          simp only [h, decide_false]; exact ih

/-- ids are looked up by public id, and generated ids are new -/
structure Ids (cch : Option ObjCache) (ep : Option EventParameters) (fresh : Nat → String) : Prop where
  publicID : ∀ id p, pickOf cch ep id = some p → p.publicID = id
  new : ∀ n, pickOf cch ep (fresh n) = none
  injective : Function.Injective fresh

/-- the phases have different times or channels -/
def Different (a b : Phase Num) : Prop :=
  ¬ (a.time = b.time ∧ a.networkCode = b.networkCode ∧ a.stationCode = b.stationCode ∧ a.locationCode = b.locationCode ∧
    a.channelCode = b.channelCode)

instance (a b : Phase Num) : Decidable (Different a b) := by unfold Different; infer_instance

theorem sourcePicks_known {fresh : Nat → String} (h : Ids cch ep fresh) {org : Option Origin} {p : Pick} (hp : p ∈ sourcePicks cch ep org) :
    pickOf cch ep p.publicID = some p := by
  unfold sourcePicks picked at hp
  obtain ⟨x, hx, rfl⟩ := List.mem_map.1 hp
  obtain ⟨a, -, ha⟩ := List.mem_filterMap.1 hx
  obtain ⟨p, hk, rfl⟩ := Option.map_eq_some_iff.1 ha
  show pickOf cch ep p.publicID = some p
  rw [h.publicID _ _ hk]; exact hk

theorem finite?_spec (x : Num) : IfFinite x (finite? x) := by
  cases x with
  | num a => exact ⟨fun _ _ => rfl, fun h => absurd rfl (h a)⟩
  | inf _ => exact ⟨fun a h => (by cases h), fun _ => rfl⟩
  | nan => exact ⟨fun a h => (by cases h), fun _ => rfl⟩

/-- what the loop collects, from the phases and their arrivals and picks -/
structure Collected (includeExisting : Bool) (cch : Option ObjCache) (ep : Option EventParameters) (delazi : Station Num → ℚ × ℚ)
    (stations : AMap String (Station Num)) (phases : List (Phase Num)) (l : List (Arrival × Pick)) (s s' : Conv) : Prop where
  arrivals : s'.arrivals = l.foldl (fun as x => addNew as x.1) s.arrivals
  picks : s'.picks = s.picks ++ (l.map Prod.snd).filter (fun p => includeExisting || (pickOf cch ep p.publicID).isNone)
  usedPhaseCount : s'.usedPhaseCount = s.usedPhaseCount + (phases.filter (·.isRelocated)).length
  staDistances : s'.staDistances = s.staDistances ++ (phases.filter (·.isRelocated)).filterMap
    (fun ph => (stations.find? ph.stationId).map (fun st => (delazi st).1))
  azi : s'.azi = s.azi ++ (phases.filter (·.isRelocated)).filterMap
    (fun ph => (stations.find? ph.stationId).map (fun st => (delazi st).2))
  associated : s'.associatedStations = (phases.map (fun ph => ph.networkCode ++ "." ++ ph.stationCode)).foldl insertSet s.associatedStations
  used : s'.usedStations = ((phases.filter (·.isRelocated)).map (·.stationId)).foldl insertSet s.usedStations

/-- generated ids are numbered by the picks collected so far -/
def Generated (cch : Option ObjCache) (ep : Option EventParameters) (fresh : Nat → String) (n : Nat) (x : Arrival × Pick) : Prop :=
  pickOf cch ep x.2.publicID = none → ∃ k, n ≤ k ∧ x.2.publicID = fresh k

theorem convertPhase_spec {fresh : Nat → String} (hid : Ids cch ep fresh) {stations : AMap String (Station Num)} {org : Option Origin}
    {inc : Bool} {delazi : Station Num → ℚ × ℚ} (ph : Phase Num) (hst : (stations.find? ph.stationId).isSome) (s : Conv) :
    ∃ s' x, convertPhase (DataSource.ofAll q cch ep) stations org inc fresh delazi s ph = .ok s' ∧
      Converted cch ep org delazi stations ph x ∧ Collected inc cch ep delazi stations [ph] [x] s s' ∧
      (pickOf cch ep x.2.publicID = none → x.2.publicID = fresh s.picks.length) := by
  obtain ⟨st, hst⟩ := Option.isSome_iff_exists.1 hst
  unfold convertPhase
  rw [searchPick_ofAll]
  simp only [Outcome.bind_ok, hst]
  obtain ⟨az1, az2⟩ := normalizeAz_spec (delazi st).2
  cases hf : (sourcePicks cch ep org).find? (fun p => SamePick ph p) with
  | some p =>
    have hmem := List.mem_of_find?_eq_some hf
    have hsame : SamePick ph p := by simpa using List.find?_some hf
    have hk := sourcePicks_known hid hmem
    simp only
    refine ⟨_, (⟨p.publicID, ph.type, some (if ph.isRelocated then ph.weight else .num 0), some ph.isRelocated,
      some (if ph.isRelocated then ph.finalResidual else .num 0), some (.num (normalizeAz (delazi st).2)), some (.num (delazi st).1)⟩, p),
      rfl, ⟨rfl, hsame, .inl hmem, rfl, rfl, fun h => by simp [h], fun h => by simp [h],
        fun s' h => by rw [hst] at h; cases h; rfl, fun s' h => by rw [hst] at h; cases h; exact ⟨_, rfl, az1, az2⟩⟩, ?_,
      fun h => by rw [hk] at h; cases h⟩
    constructor <;> cases hr : ph.isRelocated <;> cases inc <;> simp [hr, hk, hst]
  | none =>
    rw [List.find?_eq_none] at hf
    have hnew := hid.new s.picks.length
    simp only
    refine ⟨_, (⟨fresh s.picks.length, ph.type, some (if ph.isRelocated then ph.weight else .num 0), some ph.isRelocated,
      some (if ph.isRelocated then ph.finalResidual else .num 0), some (.num (normalizeAz (delazi st).2)), some (.num (delazi st).1)⟩,
      newPick (fresh s.picks.length) ph),
      rfl, ⟨rfl, ⟨rfl, rfl, rfl, rfl, rfl⟩, .inr ⟨fun p hp => by simpa using hf p hp, hnew, rfl, rfl, finite?_spec _, finite?_spec _⟩,
        rfl, rfl, fun h => by simp [h], fun h => by simp [h],
        fun s' h => by rw [hst] at h; cases h; rfl, fun s' h => by rw [hst] at h; cases h; exact ⟨_, rfl, az1, az2⟩⟩, ?_, fun _ => rfl⟩
    constructor <;> cases hr : ph.isRelocated <;> cases inc <;> simp [hr, hst, newPick, hnew]

theorem convertPhases_spec {fresh : Nat → String} (hid : Ids cch ep fresh) {stations : AMap String (Station Num)} {org : Option Origin}
    {inc : Bool} {delazi : Station Num → ℚ × ℚ} : ∀ (phases : List (Phase Num)),
    (∀ ph ∈ phases, (stations.find? ph.stationId).isSome) → ∀ s : Conv,
    ∃ s' l, convertPhases (DataSource.ofAll q cch ep) stations org inc fresh delazi phases s = .ok s' ∧
      List.Forall₂ (Converted cch ep org delazi stations) phases l ∧ Collected inc cch ep delazi stations phases l s s' ∧
      (∀ x ∈ l, Generated cch ep fresh s.picks.length x) ∧
      l.Pairwise (fun x y => pickOf cch ep x.2.publicID = none → x.2.publicID ≠ y.2.publicID)
  | [], _, s => ⟨s, [], rfl, .nil, by constructor <;> simp, by simp, .nil⟩
  | ph :: phases, hst, s => by
    obtain ⟨s1, x, h1, h2, h3, h4⟩ := convertPhase_spec (q := q) hid (org := org) (inc := inc) (delazi := delazi) ph (hst ph (by simp)) s
    obtain ⟨s', l, k1, k2, k3, k4, k5⟩ := convertPhases_spec hid (org := org) (inc := inc) (delazi := delazi) phases (fun p hp => hst p (List.mem_cons_of_mem _ hp)) s1
    have hlen : s.picks.length ≤ s1.picks.length := by rw [h3.picks]; simp
    have hlt : pickOf cch ep x.2.publicID = none → s.picks.length < s1.picks.length := by
      intro hn; rw [h3.picks]; simp [hn]
    refine ⟨s', x :: l, ?_, .cons h2 k2, ?_, ?_, ?_⟩
    · unfold convertPhases
      rw [h1]
      exact k1
    · refine ⟨?_, ?_, ?_, ?_, ?_, ?_, ?_⟩
      · rw [k3.arrivals, h3.arrivals]; rfl
      · rw [k3.picks, h3.picks, List.append_assoc, ← List.filter_append]; rfl
      · rw [k3.usedPhaseCount, h3.usedPhaseCount, Nat.add_assoc, ← List.length_append, ← List.filter_append]; rfl
      · rw [k3.staDistances, h3.staDistances, List.append_assoc, ← List.filterMap_append, ← List.filter_append]; rfl
      · rw [k3.azi, h3.azi, List.append_assoc, ← List.filterMap_append, ← List.filter_append]; rfl
      · rw [k3.associated, h3.associated, ← List.foldl_append, ← List.map_append]; rfl
      · rw [k3.used, h3.used, ← List.foldl_append, ← List.map_append, ← List.filter_append]; rfl
    · intro y hy
      rcases List.mem_cons.1 hy with rfl | hy
      · exact fun hn => ⟨_, le_refl _, h4 hn⟩
      · intro hn
        obtain ⟨k, hk, e⟩ := k4 y hy hn
        exact ⟨k, le_trans hlen hk, e⟩
    · refine List.pairwise_cons.2 ⟨?_, k5⟩
      intro y hy hn he
      obtain ⟨k, hk, e⟩ := k4 y hy (by rw [← he]; exact hn)
      rw [h4 hn, e] at he
      have := hid.injective he
      have := hlt hn
      omega

theorem foldl_addNew {l : List (Arrival × Pick)} (h : (l.map (fun x => x.1.pickID)).Nodup) :
    ∀ as : List Arrival, (∀ a ∈ as, ∀ x ∈ l, a.pickID ≠ x.1.pickID) → l.foldl (fun as x => addNew as x.1) as = as ++ l.map Prod.fst := by
  induction l with
  | nil => intro as _; simp
  | cons x l ih =>
    intro as has
    simp only [List.map_cons, List.nodup_cons] at h
    simp only [List.foldl_cons]
    have : addNew as x.1 = as ++ [x.1] := by
      unfold addNew
      rw [if_neg]
      simp only [List.any_eq_true, decide_eq_true_eq, not_exists, not_and]
      exact fun a ha => has a ha x (by simp)
    rw [this, ih h.2]
    · simp
    · intro a ha y hy
      rcases List.mem_append.1 ha with ha | ha
      · exact has a ha y (List.mem_cons_of_mem _ hy)
      · rw [List.mem_singleton.1 ha]
        intro he
        exact h.1 (List.mem_map.2 ⟨y, hy, he.symm⟩)

theorem foldl_insertSet : ∀ (l s : List String), s.Nodup → ((l.foldl insertSet s).Nodup ∧ (l.foldl insertSet s).toFinset = s.toFinset ∪ l.toFinset)
  | [], s, h => ⟨h, by simp⟩
  | x :: l, s, h => by
    have h' : (insertSet s x).Nodup ∧ (insertSet s x).toFinset = insert x s.toFinset := by
      unfold insertSet
      by_cases hx : x ∈ s
      · rw [if_pos hx]; exact ⟨h, by simp [hx]⟩
      · rw [if_neg hx]
        refine ⟨List.nodup_append.2 ⟨h, by simp, by rintro a ha b hb rfl; exact hx (by simpa using (List.mem_singleton.1 hb) ▸ ha)⟩, ?_⟩
        ext y; simp [or_comm]
    obtain ⟨h1, h2⟩ := foldl_insertSet l (insertSet s x) h'.1
    refine ⟨h1, ?_⟩
    rw [List.foldl_cons, h2, h'.2]
    ext y; simp

theorem insertSet_card (l : List String) : (l.foldl insertSet []).length = distinct l := by
  obtain ⟨h1, h2⟩ := foldl_insertSet l [] (by simp)
  unfold distinct
  rw [← List.toFinset_card_of_nodup h1, h2]; simp

/-- The quality of the origin: `d` and `az` are the distances and azimuths of the used phases. -/
structure QualityOf (event : Event Num) (phases : List (Phase Num)) (d az : List ℚ) (q : Quality) : Prop where
  associatedPhaseCount : q.associatedPhaseCount = phases.length
  usedPhaseCount : q.usedPhaseCount = (phases.filter (·.isRelocated)).length
  associatedStationCount : q.associatedStationCount = distinct (phases.map (fun ph => ph.networkCode ++ "." ++ ph.stationCode))
  usedStationCount : q.usedStationCount = distinct ((phases.filter (·.isRelocated)).map (·.stationId))
  standardError : q.standardError = if event.isRelocated then event.finalRms else .num 0
  minimumDistance : IsLeast {x | x ∈ d} q.minimumDistance
  maximumDistance : IsGreatest {x | x ∈ d} q.maximumDistance
  medianDistance : 2 * d.countP (fun x => x < q.medianDistance) ≤ d.length ∧ 2 * d.countP (fun x => q.medianDistance < x) ≤ d.length
  gap : ∀ a, 2 ≤ az.length → (∀ x ∈ az, a ≤ x ∧ x < a + 360) →
    IsGreatest (AzGap.Sectors az 0) q.azimuthalGap ∧ IsGreatest (AzGap.Sectors az 1) q.secondaryAzimuthalGap
  onePhase : az.length < 2 → q.azimuthalGap = 360 ∧ q.secondaryAzimuthalGap = 360

theorem forall₂_mem {A B : Type} {R : A → B → Prop} {l : List A} {m : List B} (h : List.Forall₂ R l m) {b : B} (hb : b ∈ m) :
    ∃ a ∈ l, R a b := by
  induction h with
  | nil => cases hb
  | cons hr _ ih =>
    rcases List.mem_cons.1 hb with rfl | hb
    · exact ⟨_, by simp, hr⟩
    · obtain ⟨a, ha, hh⟩ := ih hb
      exact ⟨a, List.mem_cons_of_mem _ ha, hh⟩

theorem forall₂_pairwise {A B : Type} {R : A → B → Prop} {S : A → A → Prop} {T : B → B → Prop} (h : ∀ a a' b b', R a b → R a' b' → S a a' → T b b') :
    ∀ {l : List A} {m : List B}, List.Forall₂ R l m → l.Pairwise S → m.Pairwise T
  | _, _, .nil, _ => .nil
  | _, _, .cons hr hl, hp => by
    rw [List.pairwise_cons] at hp ⊢
    refine ⟨?_, forall₂_pairwise h hl hp.2⟩
    intro b' hb'
    obtain ⟨a', ha', hr'⟩ := forall₂_mem hl hb'
    exact h _ _ _ _ hr hr' (hp.1 a' ha')

/-- **C77** The origin made from a catalog with one relocated event: its time and depth are those of the event, its
longitude the same point between -180 and 180.  If no two phases have the same time and channel it has one arrival per
phase, in order, with the weight and residual of the relocation, the distance and the azimuth of the station, and a pick with
the time and channel of the phase: one of the source origin if there is any, otherwise a new one.  All new picks, and no
others unless asked for, are returned.  The quality counts phases and stations and has the distances and gaps of the used
phases. -/
theorem origin_from_event {fresh : Nat → String} (hid : Ids cch ep fresh) {cat : Catalog Num} (hs : Sound cat) {key : Nat} {event : Event Num}
    (hev : cat.events = [(key, event)]) {phases : List (Phase Num)} (hph : phases.Perm (cat.phasesOf event.id))
    (hdiff : phases.Pairwise Different) (hused : ∃ ph ∈ phases, ph.isRelocated = true) (org : Option Origin)
    (author agencyID methodID earthModelID : String) (inc : Bool) (delazi : Event Num → Station Num → ℚ × ℚ) (nth : NthElement (id : ℚ → ℚ)) :
    ∃ new picks l, convertOrigin (DataSource.ofAll q cch ep) cat phases org author agencyID methodID earthModelID inc fresh delazi nth =
        .ok (new, picks) ∧
      (new.author = author ∧ new.agencyID = agencyID ∧ new.methodID = methodID ∧ new.earthModelID = earthModelID) ∧
      (new.time = event.time ∧ new.latitude = event.latitude ∧ new.depth = event.depth) ∧
      (∀ lon, event.longitude = .num lon → ∃ r, new.longitude = .num r ∧ -180 ≤ r ∧ r < 180 ∧ ∃ n : ℤ, r = lon + 360 * n) ∧
      new.sourceOrigin = org.map (·.publicID) ∧
      List.Forall₂ (Converted cch ep org (delazi event) cat.stations) phases l ∧
      new.arrivals = l.map Prod.fst ∧
      picks = (l.map Prod.snd).filter (fun p => inc || (pickOf cch ep p.publicID).isNone) ∧
      QualityOf event phases
        ((phases.filter (·.isRelocated)).filterMap (fun ph => (cat.stations.find? ph.stationId).map (fun s => (delazi event s).1)))
        ((phases.filter (·.isRelocated)).filterMap (fun ph => (cat.stations.find? ph.stationId).map (fun s => (delazi event s).2)))
        new.quality := by
  have hsorted : cat.eventsSorted = [(key, event)] := by
    unfold eventsSorted; rw [hev]; rfl
  have hst : ∀ ph ∈ phases, (cat.stations.find? ph.stationId).isSome := by
    intro ph hp
    have := hph.mem_iff.1 hp
    unfold phasesOf at this
    obtain ⟨kp, hk, rfl⟩ := List.mem_map.1 this
    exact hs.phaseStation kp (List.mem_of_mem_filter hk)
  obtain ⟨s', l, h1, h2, h3, h4, h5⟩ := convertPhases_spec (q := q) (ep := ep) (cch := cch) hid (org := org) (inc := inc) (delazi := delazi event) phases hst {}
  have hnd : (l.map (fun x => x.1.pickID)).Nodup := by
    have hd : l.Pairwise (fun x y => pickOf cch ep x.2.publicID ≠ none → x.2.publicID ≠ y.2.publicID) := by
      refine forall₂_pairwise ?_ h2 hdiff
      intro a a' x y hx hy hne hk he
      have hx' : pickOf cch ep x.2.publicID = some x.2 := by
        rcases hx.pick with h | h
        · exact sourcePicks_known hid h
        · exact absurd h.2.1 hk
      have hy' : pickOf cch ep y.2.publicID = some y.2 := by
        rcases hy.pick with h | h
        · exact sourcePicks_known hid h
        · exact absurd (he ▸ h.2.1) hk
      have hxy : x.2 = y.2 := by
        rw [he, hy'] at hx'; exact (Option.some.inj hx').symm
      obtain ⟨a1, a2, a3, a4, a5⟩ := hx.same
      obtain ⟨b1, b2, b3, b4, b5⟩ := hy.same
      rw [← hxy] at b1 b2 b3 b4 b5
      exact hne ⟨a1.trans b1.symm, a2.trans b2.symm, a3.trans b3.symm, a4.trans b4.symm, a5.trans b5.symm⟩
    have hp : l.Pairwise (fun x y => x.2.publicID ≠ y.2.publicID) := by
      refine (hd.and h5).imp ?_
      intro x y hxy
      by_cases hn : pickOf cch ep x.2.publicID = none
      · exact hxy.2 hn
      · exact hxy.1 hn
    have he : l.map (fun x => x.1.pickID) = l.map (fun x => x.2.publicID) := by
      apply List.map_congr_left
      intro x hx
      obtain ⟨_, _, hr⟩ := forall₂_mem h2 hx
      exact hr.pickID
    rw [he, List.Nodup, List.pairwise_map]
    exact hp
  have harr : s'.arrivals = l.map Prod.fst := by
    rw [h3.arrivals]
    rw [foldl_addNew hnd]
    · rfl
    · intro a ha; cases ha
  have hdist : s'.staDistances = (phases.filter (·.isRelocated)).filterMap (fun ph => (cat.stations.find? ph.stationId).map (fun s => (delazi event s).1)) := by
    rw [h3.staDistances]; rfl
  have hazi : s'.azi = (phases.filter (·.isRelocated)).filterMap (fun ph => (cat.stations.find? ph.stationId).map (fun s => (delazi event s).2)) := by
    rw [h3.azi]; rfl
  have hne : s'.staDistances ≠ [] := by
    obtain ⟨ph, hp, hr⟩ := hused
    obtain ⟨st, hst⟩ := Option.isSome_iff_exists.1 (hst ph hp)
    rw [hdist]
    apply List.ne_nil_of_mem (a := (delazi event st).1)
    rw [List.mem_filterMap]
    exact ⟨ph, List.mem_filter.2 ⟨hp, hr⟩, by rw [hst]; rfl⟩
  rw [← hdist, ← hazi]
  unfold convertOrigin
  rw [hsorted]
  simp only [h1, Outcome.bind_ok]
  cases hd : s'.staDistances with
  | nil => exact absurd hd hne
  | cons d ds =>
    simp only
    obtain ⟨m1, m2, m3⟩ := Stats.minElement_spec ds d
    obtain ⟨g1, g2, g3⟩ := Stats.maxElement_spec ds d
    refine ⟨_, _, l, rfl, ⟨rfl, rfl, rfl, rfl⟩, ⟨rfl, rfl, rfl⟩, ?_, rfl, h2, harr, ?_, ?_, ?_, ?_, ?_, rfl, ?_, ?_, ?_, ?_, ?_⟩
    · intro lon hlon
      rw [hlon]
      exact normalizeLon_spec lon
    · rw [h3.picks]; rfl
    · simp only [harr, List.length_map]
      exact h2.length_eq.symm
    · simp only; rw [h3.usedPhaseCount]; simp
    · simp only; rw [h3.associated]; exact insertSet_card _
    · simp only; rw [h3.used]; exact insertSet_card _
    · refine ⟨?_, ?_⟩
      · rcases m1 with h | h
        · simp [h]
        · simp [h]
      · intro x hx
        rcases List.mem_cons.1 hx with rfl | hx
        · exact m2
        · exact m3 x hx
    · refine ⟨?_, ?_⟩
      · rcases g1 with h | h
        · simp [h]
        · simp [h]
      · intro x hx
        rcases List.mem_cons.1 hx with rfl | hx
        · exact g2
        · exact g3 x hx
    · exact Stats.median_splits nth (d :: ds)
    · intro a h hr
      exact AzGap.gaps_greatest _ h hr
    · intro h
      simp only
      unfold AzGap.gaps
      rw [if_neg (by omega)]
      exact ⟨rfl, rfl⟩

/-- **C77b** There and back: when the phases of the relocated event have the times and channels of those that an origin was
given when it was added to a catalog, no new pick is made, and every arrival of the new origin refers to a pick of the old one. -/
theorem relocation_reuses_picks {fresh : Nat → String} (hid : Ids cch ep fresh) {inv : Inventory} {known : AMap String (Station Num)}
    {cat₀ : Catalog Num} {o : Origin} {id : Nat} (hadd : OriginAdded q cch ep inv known o id cat₀)
    {cat : Catalog Num} (hs : Sound cat) {key : Nat} {event : Event Num}
    (hev : cat.events = [(key, event)]) {phases : List (Phase Num)} (hph : phases.Perm (cat.phasesOf event.id))
    (hsame : ∀ ph ∈ phases, ∃ p ∈ cat₀.phasesOf id, ¬ Different ph p)
    (hdiff : phases.Pairwise Different) (hused : ∃ ph ∈ phases, ph.isRelocated = true)
    (author agencyID methodID earthModelID : String) (delazi : Event Num → Station Num → ℚ × ℚ) (nth : NthElement (_root_.id : ℚ → ℚ)) :
    ∃ new, convertOrigin (DataSource.ofAll q cch ep) cat phases (some o) author agencyID methodID earthModelID false fresh delazi nth =
        .ok (new, []) ∧ ∀ a ∈ new.arrivals, a.pickID ∈ o.arrivals.map (·.pickID) := by
  obtain ⟨new, picks, l, h1, -, -, -, -, h2, h3, h4, -⟩ := origin_from_event (q := q) hid hs hev hph hdiff hused (some o) author agencyID
    methodID earthModelID false delazi nth
  have hsrc : ∀ x ∈ l, x.2 ∈ sourcePicks cch ep (some o) := by
    intro x hx
    obtain ⟨ph, hp, hc⟩ := forall₂_mem h2 hx
    rcases hc.pick with h | h
    · exact h
    · exfalso
      obtain ⟨p, hp0, hsm⟩ := hsame ph hp
      obtain ⟨m, m1, m2, -, -⟩ := hadd.phases
      obtain ⟨y, hy, hyp⟩ : ∃ y ∈ m, PhaseFrom id y p := by
        obtain ⟨y, hy, h⟩ := forall₂_mem m2 hp0
        exact ⟨y, hy, h⟩
      have hmem : y.2 ∈ sourcePicks cch ep (some o) := List.mem_map.2 ⟨y, m1.subset hy, rfl⟩
      unfold Different at hsm
      obtain ⟨a1, a2, a3, a4, a5⟩ := not_not.1 hsm
      obtain ⟨b1, b2, b3, b4⟩ := hyp.codes
      exact h.1 y.2 hmem ⟨a1.trans hyp.time, a2.trans b1, a3.trans b2, a4.trans b3, a5.trans b4⟩
  have hp : picks = [] := by
    rw [h4, List.filter_eq_nil_iff]
    intro p hp
    obtain ⟨x, hx, rfl⟩ := List.mem_map.1 hp
    simp [sourcePicks_known hid (hsrc x hx)]
  subst hp
  refine ⟨new, h1, ?_⟩
  intro a ha
  rw [h3] at ha
  obtain ⟨x, hx, rfl⟩ := List.mem_map.1 ha
  obtain ⟨ph, -, hc⟩ := forall₂_mem h2 hx
  have := hsrc x hx
  unfold sourcePicks picked at this
  obtain ⟨y, hy, he⟩ := List.mem_map.1 this
  obtain ⟨b, hb, hbp⟩ := List.mem_filterMap.1 hy
  obtain ⟨p, hk, rfl⟩ := Option.map_eq_some_iff.1 hbp
  rw [hc.pickID, ← he]
  show p.publicID ∈ _
  rw [hid.publicID _ _ hk]
  exact List.mem_map.2 ⟨b, hb, rfl⟩

/-! ## findings and examples -/

/-- an event none of whose phases was used cannot be converted: the nearest of no stations is read -/
theorem no_used_phase_ub {fresh : Nat → String} (hid : Ids cch ep fresh) {cat : Catalog Num} (hs : Sound cat) {key : Nat} {event : Event Num}
    (hev : cat.events = [(key, event)]) {phases : List (Phase Num)} (hph : phases.Perm (cat.phasesOf event.id))
    (hused : ∀ ph ∈ phases, ph.isRelocated = false) (org : Option Origin)
    (author agencyID methodID earthModelID : String) (inc : Bool) (delazi : Event Num → Station Num → ℚ × ℚ) (nth : NthElement (id : ℚ → ℚ)) :
    convertOrigin (DataSource.ofAll q cch ep) cat phases org author agencyID methodID earthModelID inc fresh delazi nth = .ub := by
  have hst : ∀ ph ∈ phases, (cat.stations.find? ph.stationId).isSome := by
    intro ph hp
    have := hph.mem_iff.1 hp
    unfold phasesOf at this
    obtain ⟨kp, hk, rfl⟩ := List.mem_map.1 this
    exact hs.phaseStation kp (List.mem_of_mem_filter hk)
  obtain ⟨s', l, h1, -, h3, -⟩ := convertPhases_spec (q := q) (ep := ep) (cch := cch) hid (org := org) (inc := inc) (delazi := delazi event) phases hst {}
  have hsorted : cat.eventsSorted = [(key, event)] := by
    unfold eventsSorted; rw [hev]; rfl
  have he : phases.filter (·.isRelocated) = [] := by
    rw [List.filter_eq_nil_iff]
    intro ph hp
    simp [hused ph hp]
  have hd : s'.staDistances = [] := by
    rw [h3.staDistances, he]; rfl
  unfold convertOrigin
  rw [hsorted]
  simp only [h1, Outcome.bind_ok, hd]

namespace Example

/-- a relocated event with a P and an S phase at two stations -/
def ev : Event Num := ⟨1, 500, .num 46, .num 190, .num 7, .num 2, true, .nan, .num (1 / 100)⟩

def ph (type station : String) (time : Int) (used : Bool) : Phase Num :=
  { v with
    eventId := 1, stationId := "CH." ++ station ++ ".", time := time, type := type, networkCode := "CH", stationCode := station,
    channelCode := "HHZ", isRelocated := used, weight := .num (1 / 2), finalResidual := .num (1 / 50) }

def sta (code : String) : Station Num := ⟨"CH." ++ code ++ ".", .num 46, .num 8, .num 0, "CH", code, ""⟩

def relocated (phases : List (Phase Num)) : Catalog Num :=
  ⟨[("CH.AAA.", sta "AAA"), ("CH.BBB.", sta "BBB")], [(1, ev)], phases.map (fun p => (1, p))⟩

def fresh (n : Nat) : String := "new" ++ String.ofList (List.replicate n 'x')

theorem ids : Ids (some Example.cch) (some Example.ep) fresh where
  publicID := by
    intro id p h
    unfold pickOf Example.cch Example.ep picks at h
    simp only [Option.bind_some] at h
    repeat' split at h
    all_goals first | (cases h; rfl) | cases h
  new := by
    intro n
    have hne : ∀ s : String, s.toList.head? ≠ some 'n' → fresh n ≠ s := by
      intro s hs he
      rw [← he] at hs
      simp [fresh] at hs
    have h4 : fresh n ≠ "noweight" := by
      intro he
      have := congrArg (fun s : String => s.toList[1]?) he
      simp [fresh] at this
    unfold pickOf Example.cch Example.ep picks
    simp [hne "m" (by decide), hne "unused" (by decide), h4, hne "elsewhere" (by decide)]
  injective := by
    intro a b h
    unfold fresh at h
    have := congrArg (fun s : String => s.toList.length) h
    simpa using this

def delazi (_ : Event Num) (s : Station Num) : ℚ × ℚ := if s.stationCode = "AAA" then (1, 350) else (3, -20)

/-- three phases: the manual pick of `org` at AAA, an S phase at AAA without pick, and one at BBB that is not used -/
def phases : List (Phase Num) := [ph "P" "AAA" 1000000 true, ph "S" "AAA" 2000000 true, ph "P" "BBB" 3000000 false]

theorem relocated_sound : Sound (relocated phases) where
  toWF := (((((WF.init (D := Num)).setEvent ev (by decide)).addStation (sta "BBB")).addStation (sta "AAA")).foldl_addPhase phases)
  phaseEvent := by decide +kernel
  phaseStation := by decide +kernel

/-- the hypotheses of `origin_from_event` are met -/
example (org : Option Origin) (inc : Bool) := origin_from_event (q := none) ids relocated_sound (key := 1) rfl (phases := phases) (by decide +kernel)
  (by decide +kernel) ⟨ph "P" "AAA" 1000000 true, by decide +kernel, rfl⟩ org "me" "SED" "RTDD" "model" inc delazi (NthElement.sorting (id : ℚ → ℚ))

def converted (phases : List (Phase Num)) := convertOrigin (DataSource.ofAll none (some Example.cch) (some Example.ep)) (relocated phases) phases (some org)
  "me" "SED" "RTDD" "model" false fresh delazi (NthElement.sorting (id : ℚ → ℚ))

/-- what comes out: the pick at AAA is reused, the two others are new, and the longitude is between -180 and 180 -/
example : (converted phases >>= fun r => .ok (r.1.arrivals.map (·.pickID))) = Outcome.ok ["m", "new", "newx"] ∧
    (converted phases >>= fun r => .ok (r.2.map (·.time))) = Outcome.ok [2000000, 3000000] ∧
    (converted phases >>= fun r => .ok r.1.longitude) = Outcome.ok (.num (-170)) ∧
    (converted phases >>= fun r => .ok r.1.quality) =
      Outcome.ok ⟨3, 2, 2, 1, .num (1 / 100), 1, 1, 1, 360, 360⟩ := by decide +kernel

/-- the phases that `org` was given -/
def back : List (Phase Num) := [ph "P" "AAA" 1000000 true, ph "P" "BBB" 1000000 false]

theorem back_sound : Sound (relocated back) where
  toWF := (((((WF.init (D := Num)).setEvent ev (by decide)).addStation (sta "BBB")).addStation (sta "AAA")).foldl_addPhase back)
  phaseEvent := by decide +kernel
  phaseStation := by decide +kernel

/-- the hypotheses of `relocation_reuses_picks` are met by the origin added in `res` -/
example : ∃ cat₀ id, OriginAdded none (some Example.cch) (some Example.ep) inv cat.stations org id cat₀ ∧
    ∀ p ∈ back, ∃ p' ∈ cat₀.phasesOf id, ¬ Different p p' := by
  cases hr : res with
  | throws =>
    have : (res >>= fun r => .ok r.2.keys) = Outcome.ok [8] := by decide +kernel
    rw [hr] at this; cases this
  | ub =>
    have : (res >>= fun r => .ok r.2.keys) = Outcome.ok [8] := by decide +kernel
    rw [hr] at this; cases this
  | ok r =>
    obtain ⟨-, ids, -, h1, -, h2, h3⟩ := add_origins _ cat_sound (by decide) hr
    have hl : ([{ org with publicID := "empty", arrivals := [] }, org].map (loaded none)).filter (fun org => org.arrivals ≠ []) = [org] := by
      decide +kernel
    rw [hl] at h3
    cases h3 with
    | @cons id _ ids' _ h4 h5 =>
      cases h5
      have hk : (res >>= fun r => .ok r.1.events.keys) = Outcome.ok [8, 7] := by decide +kernel
      rw [hr] at hk
      simp only [Outcome.bind_ok, Outcome.ok.injEq] at hk
      obtain ⟨e, he, -⟩ := h4.2.event
      have hmem : id ∈ r.1.events.keys := by rw [← AMap.find?_isSome, he]; rfl
      rw [hk] at hmem
      have hid : id = 8 := by
        rcases List.mem_cons.1 hmem with h | h
        · exact h
        · have h7 : id = 7 := by simpa using h
          have := h1 id (by simp)
          rw [h7] at this
          exact absurd this (by decide)
      subst hid
      refine ⟨r.1, 8, h4.2, ?_⟩
      have hb : (res >>= fun r => .ok (decide (∀ p ∈ back, ∃ p' ∈ r.1.phasesOf 8, ¬ Different p p'))) = Outcome.ok true := by decide +kernel
      rw [hr] at hb
      simpa using hb

/-- a P and an S phase with the same time and channel share the pick, so that the arrival of the second is lost although
both are counted as used -/
theorem shared_pick_loses_arrival :
    (converted [ph "P" "AAA" 1000000 true, ph "S" "AAA" 1000000 true] >>= fun r =>
      .ok (r.1.arrivals.map (·.phase), r.1.quality.usedPhaseCount)) = Outcome.ok (["P"], 2) := by decide +kernel

end Example

end Verif.SeisComP
