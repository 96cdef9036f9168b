import Verif.Props.DaemonRun
import Verif.Props.SeisComPOrigin

/-!
# C80 to C82: concrete histories, and what does not hold
-/

set_option linter.unusedSimpArgs false

namespace Verif.Daemon
open Verif.Catalog Spec

namespace Example
open SeisComP.Example (u v inv org ep cch fresh delazi)

def clustering : ClusteringOptions := ⟨4, 40, 4, 0, 5, .num 0, .num 80, .num 5, .num 10⟩
def xphase : XcorrPhase := ⟨.num (1 / 2), .num (-1), .num 1, .num 1, .num 1, ["Z"]⟩
def xcorr : XcorrOptions := ⟨true, .num 0, .num 80, .num 10, xphase, xphase⟩

/-- two profiles, for the south and for everywhere -/
def south : Profile := ⟨"south", "RTDD", "LOCSAT", "iasp91", "Pg", "", fun lat _ => lat = .num (-10), clustering, xcorr⟩
def all : Profile := { south with name := "all", inside := fun _ _ => true }

/-- A relocation that moves the depth to `depth` and uses all phases. The initial rms tells with which options it was done. -/
def moved (depth : ℚ) (c : Catalog Num) (x : XcorrOptions) : Catalog Num :=
  { c with
    events := c.events.map (fun kv => (kv.1,
      { kv.2 with depth := .num depth, isRelocated := true, startRms := .num (if x.enable then 2 else 1), finalRms := .num (1 / 10) })),
    phases := c.phases.map (fun kv => (kv.1, { kv.2 with isRelocated := true, weight := .num 1, finalResidual := .num (1 / 100) })) }

def dd (depth : ℚ) : DD := ⟨[], fun c _ _ x => .ok (moved depth c x)⟩

/-- everything works: there is a database, everything is found and every profile can be loaded -/
def world : World where
  query := some ⟨fun _ => [], fun _ => none⟩
  preferredOf := fun _ => some "o1"
  origins := fun id => if id = "o1" then some ⟨org, some false, some "me", "SED"⟩ else none
  cache := cch
  eventParameters := some ep
  inventory := inv
  load := fun _ => some (dd 7)
  blocked := fun _ => false
  connected := true
  rawEvent := u
  rawPhase := v
  order := id
  fresh := fresh
  delazi := delazi
  nth := NthElement.sorting (id : ℚ → ℚ)
  afterMove := fun _ => Catalog.init

def cfg : Config where
  onlyPreferredOrigin := false
  allowAutomaticOrigin := true
  allowManualOrigin := false
  acceptedOriginAuthors := ["me", "you"]
  profileTimeAlive := 60
  forceProcessing := false
  testMode := false
  forceProfile := ""
  author := "scrtdd"
  agencyID := "SED"
  sched := ⟨[0, 10], 1⟩

def origin : Origin := ⟨org, some false, some "me", "SED"⟩

def arrives (t : Int) (o : Origin) : Op := .add t t (.origin o) world

def history : List Op := [arrives 100 origin, .tick 101 world, .reload 102 "all", .tick 105 { world with load := fun _ => some (dd 9) },
  .tick 112 world, .tick 180 world]

/-- The origin is relocated when it arrives and again ten seconds later, with what was loaded after the request. More than a
minute after their last use the memory of both profiles is freed. -/
example : (run cfg [south, all] 0 history >>= fun s => .ok s.sched.started) = Outcome.ok [(100, "o1"), (112, "o1")] ∧
    (run cfg [south, all] 0 history >>= fun s => .ok (s.sent.map (·.1.depth))) = Outcome.ok [.num 7, .num 9] ∧
    (run cfg [south, all] 0 history >>= fun s => .ok (s.stored.map (·.1.depth))) = Outcome.ok [.num 7, .num 9] ∧
    (run cfg [south, all] 0 history >>= fun s => .ok (s.sent.map (fun x => x.1.arrivals.map (·.phase)))) =
      Outcome.ok [["Pg", "Pg"], ["Pg", "Pg"]] ∧
    (run cfg [south, all] 0 history >>= fun s => .ok (s.profs.map (·.2.loaded))) = Outcome.ok [true, true] ∧
    (run cfg [south, all] 0 history >>= fun s => .ok s.freed) = Outcome.ok [(180, "south"), (180, "all")] := by decide +kernel

/-- the result of a computation that does not fail -/
theorem ok_of {A : Type} {x : Outcome A} (h : (x >>= fun _ => .ok ()) = Outcome.ok ()) : ∃ a, x = .ok a := by
  cases x with
  | ok a => exact ⟨a, rfl⟩
  | throws => cases h
  | ub => cases h

/-- the history, and every part of it, meets the hypotheses of `run_history`, `run_scheduler`, `profile_moment`, `profile_reload`,
`profile_freed` and `test_mode_sends_nothing` -/
example (n : Nat) (hn : n ≤ 6) : (∃ s, run cfg [south, all] 0 (history.take n) = .ok s) ∧
    ∃ s, run { cfg with testMode := true } [south, all] 0 (history.take n) = .ok s := by
  have h : n = 0 ∨ n = 1 ∨ n = 2 ∨ n = 3 ∨ n = 4 ∨ n = 5 ∨ n = 6 := by omega
  rcases h with rfl | rfl | rfl | rfl | rfl | rfl | rfl <;> exact ⟨ok_of (by decide +kernel), ok_of (by decide +kernel)⟩

/-- Request number 102 is one to reload the second profile and not the first. -/
example : Reloads [south, all] 1 (.reload 102 "all") ∧ ¬ Reloads [south, all] 0 (.reload 102 "all") := by
  constructor
  · refine ⟨by decide, ⟨all, rfl, rfl⟩, ?_⟩
    intro j hj p hp
    have : j = 0 := by omega
    subst this
    cases hp
    decide
  · rintro ⟨-, ⟨p, hp, hn⟩, -⟩
    cases hp
    exact absurd hn (by decide)

/-- the hypotheses of `profile_fresh` and `profile_kept` are met by the second profile after the reload -/
example : ∃ s s' a d, run cfg [south, all] 0 (history.take 4) = .ok s ∧ run cfg [south, all] 0 (history.take 4 ++ history.drop 4) = .ok s' ∧
    s.profs[1]? = some (all, a) ∧ a.dd = some d ∧ ∀ op ∈ history.drop 4, ¬ Reloads [south, all] 1 op := by
  obtain ⟨s, hs⟩ : ∃ s, run cfg [south, all] 0 (history.take 4) = .ok s := ok_of (by decide +kernel)
  obtain ⟨s', hs'⟩ : ∃ s, run cfg [south, all] 0 (history.take 4 ++ history.drop 4) = .ok s := ok_of (by decide +kernel)
  have h3 : ∃ s, run cfg [south, all] 0 (history.take 3) = .ok s := ok_of (by decide +kernel)
  obtain ⟨s3, h3⟩ := h3
  obtain ⟨a, b, -, h2, h4⟩ := profile_moment (op := .tick 105 { world with load := fun _ => some (dd 9) }) h3 hs rfl (i := 1) (p := all) rfl
  refine ⟨s, s', b, ?_⟩
  have hd : ∃ d, b.dd = some d := by
    cases hl : a.loaded with
    | true =>
      obtain ⟨k1, -⟩ := h4.1 hl
      have := (run_inv hs).consistent _ (List.mem_of_getElem? h2)
      simp only at this
      rw [k1] at this
      exact Option.isSome_iff_exists.1 this.symm
    | false => exact ⟨_, by rw [(h4.2 hl).1 _ rfl]⟩
  obtain ⟨d, hd⟩ := hd
  refine ⟨d, hs, hs', h2, hd, ?_⟩
  intro op hop
  simp [history] at hop
  rcases hop with rfl | rfl <;> exact id

/-! ### one job -/

def fresh0 : List (Profile × ProfileState) := [(south, ⟨false, none, 0⟩), (all, ⟨false, none, 0⟩)]

theorem job_origin : Job cfg world (.origin origin) fresh0 origin 1 := by
  refine ⟨rfl, .inr ⟨fun _ => rfl, by decide, by decide, .inr ⟨"me", by decide, rfl⟩, rfl⟩, ⟨(all, ⟨false, none, 0⟩), rfl, ?_⟩, ?_⟩
  · unfold Fits; rw [if_pos (by decide)]; rfl
  · intro j hj ps hps
    have : j = 0 := by omega
    subst this
    cases hps
    unfold Fits
    rw [if_pos (by decide)]
    decide

/-- the event with its phases, as it is given to the relocation -/
def prepared : Outcome (Catalog Num) := singleEvent world (dd 7) origin >>= fun r => .ok (renamePhases all r.2 r.1)

theorem prepared_ok : ∃ cat, prepared = .ok cat ∧ Prepared world all (dd 7) origin false cat ∧ cat.events ≠ [] := by
  obtain ⟨cat, hc⟩ : ∃ cat, prepared = .ok cat := ok_of (by decide +kernel)
  have hc' := hc
  unfold prepared at hc'
  obtain ⟨⟨c0, m⟩, h1, h2⟩ := bind_eq_ok hc'
  obtain ⟨h3, ids, h4⟩ := singleEvent_ok h1
  have hm : m = false := by
    have : some false = some m := h3
    exact (Option.some.inj this).symm
  subst hm
  cases h2
  obtain ⟨g1, g2, g3⟩ := renamePhases_spec all false c0
  refine ⟨_, hc, ⟨rfl, c0, ids, h4, g1, g2, g3⟩, ?_⟩
  have hl : (prepared >>= fun c => .ok c.events.length) = Outcome.ok 1 := by decide +kernel
  rw [hc] at hl
  intro hn
  simp only [Outcome.bind_ok, hn] at hl
  cases hl

/-- the hypotheses of `two_steps_result`, and so of `two_steps`, are met -/
theorem steps_ok : ∃ cat r1 r2, prepared = .ok cat ∧ TwoSteps all (dd 7) false cat r1 r2 ∧ Proper r1 ∧ Proper r2 ∧
    twoSteps world all (dd 7) false cat = .ok r2 ∧ isEmpty r2 = false ∧ ∃ x, MadeFrom cfg world all origin r2 x := by
  obtain ⟨cat, hc, hp, hne⟩ := prepared_ok
  have hne' : ∀ c : Catalog Num, c.events ≠ [] → ∀ x, (moved 7 c x).events ≠ [] := by
    intro c h x hn
    exact h (List.map_eq_nil_iff.1 hn)
  have hnot : ∀ c : Catalog Num, c.events ≠ [] → isEmpty c = false := by
    intro c h
    unfold isEmpty
    rw [List.isEmpty_eq_false_iff.2 h]
    simp
  have hst : TwoSteps all (dd 7) false cat (moved 7 cat { xcorr with enable := false }) (moved 7 (moved 7 cat { xcorr with enable := false }) xcorr) := by
    refine ⟨rfl, ?_⟩
    rw [if_neg (by rw [hnot _ (hne' _ hne _)]; simp)]
    rfl
  have hr := two_steps_result (w := world) (fun _ => rfl) hne hst (fun _ => hne' _ hne _) (fun _ => hne' _ (hne' _ hne _) _)
  refine ⟨cat, _, _, hc, hst, fun _ => hne' _ hne _, fun _ => hne' _ (hne' _ hne _) _, hr, hnot _ (hne' _ (hne' _ hne _) _), ?_⟩
  obtain ⟨k, e, hk⟩ := eventsSorted_head (hne' _ (hne' _ hne { xcorr with enable := false }) xcorr)
  have hconv : ∃ x, (prepared >>= fun cat => twoSteps world all (dd 7) false cat >>= fun r => firstEvent r >>= fun ev =>
      SeisComP.convertOrigin world.source r (world.order (r.phasesOf ev.id)) (some origin.org) cfg.author cfg.agencyID all.methodID
        (all.tttType ++ ":" ++ all.tttModel) false world.fresh world.delazi world.nth) = .ok x := ok_of (by decide +kernel)
  obtain ⟨x, hx⟩ := hconv
  rw [hc] at hx
  simp only [Outcome.bind_ok] at hx
  rw [hr] at hx
  simp only [Outcome.bind_ok] at hx
  rw [firstEvent_of_head hk] at hx
  exact ⟨x, k, e, hk, hx⟩

/-- the hypotheses of `job_succeeds`, and so of `job_result`, are met -/
example (now : Int) : ∃ x, startProcess cfg world now (.origin origin) fresh0 =
    .ok (true, fresh0.set 1 (all, ⟨true, some (dd 7), now⟩), some x) := by
  obtain ⟨cat, r1, r2, hc, hst, h1, h2, -, he, x, hx⟩ := steps_ok
  obtain ⟨cat', hc', hp, hne⟩ := prepared_ok
  rw [hc] at hc'
  cases hc'
  exact ⟨x, job_succeeds (.inl rfl) job_origin (p := all) (s := ⟨false, none, 0⟩) rfl (.inr ⟨rfl, rfl⟩) hp hne (fun _ => rfl) hst h1 h2
    (.inr ⟨x, he, hx, rfl⟩)⟩

/-- the hypotheses of `nothing_to_do` are met: manual origins are not wanted -/
example (now : Int) : startProcess cfg world now (.origin { origin with manual := some true }) fresh0 = .ok (false, fresh0, none) := by
  apply nothing_to_do (.inl rfl)
  rintro ⟨o, i, rfl, hw, -⟩
  rcases hw with hw | ⟨-, hw, -⟩
  · cases hw
  · cases hw rfl

/-- the hypotheses of `run_never_stops_partial` are met: however often and whenever the origin arrives and profiles are reloaded -/
example (start : Int) (ops : List Op) (hops : ∀ op ∈ ops, (∃ t, op = arrives t origin) ∨ (∃ now, op = .tick now world) ∨ ∃ now name, op = .reload now name) :
    ∃ s, run cfg [south, all] start ops = .ok s := by
  have hworld : ∀ op ∈ ops, ∀ now w, moment op = some (now, w) → w = world := by
    intro op hop now w hm
    rcases hops op hop with ⟨t, rfl⟩ | ⟨n, rfl⟩ | ⟨n, name, rfl⟩ <;> cases hm <;> rfl
  apply run_never_stops_partial
  rintro pre op post now w obj he hm ⟨t, n, w', hadd⟩
  have hw := hworld op (by rw [he]; simp) now w hm
  subst hw
  have hsub : ∀ o ∈ pre ++ [op], o ∈ ops := by
    intro o ho
    rw [he]
    rcases List.mem_append.1 ho with h | h
    · simp [h]
    · rw [List.mem_singleton.1 h]; simp
  have hobj : obj = .origin origin := by
    rcases hops _ (hsub _ hadd) with ⟨t', h⟩ | ⟨n', h⟩ | ⟨n', name, h⟩ <;> cases h
    rfl
  subst hobj
  refine ⟨.inl rfl, fun _ => rfl, ?_⟩
  rintro o i p d rfl - hfit ⟨pre', op', post', now', w'', q, hl1, hl2, hl3, hl4, -⟩
  have hw := hworld op' (hsub _ (by rw [hl1]; simp)) now' w'' hl2
  subst hw
  cases hl4
  have hi : i = 1 := by
    rcases i with _ | _ | i
    · have h0 := hfit.2.1
      have := hfit.1
      cases this
      unfold Fits at h0
      rw [if_pos (by decide)] at h0
      exact absurd h0 (by decide)
    · rfl
    · have := hfit.1
      simp at this
  subst hi
  have hp := hfit.1
  cases hp
  obtain ⟨cat, r1, r2, hc, hst, h1, h2, -, he, hx⟩ := steps_ok
  obtain ⟨cat', hc', hp, hne⟩ := prepared_ok
  rw [hc] at hc'
  cases hc'
  exact ⟨false, cat, r1, r2, hp, hne, hst, h1, h2, fun _ => hx⟩

/-! ### what does not hold -/

/-- An origin without evaluation mode passes the filters as an automatic one, but its relocation throws an exception that
nobody catches: the application stops. -/
theorem no_evaluation_mode_stops : Wanted cfg world (.origin { origin with manual := none }) { origin with manual := none } ∧
    run cfg [south, all] 0 [arrives 100 { origin with manual := none }] = .throws := by
  constructor
  · exact .inr ⟨fun _ => rfl, by decide, by decide, .inr ⟨"me", by decide, rfl⟩, rfl⟩
  · have h : (match run cfg [south, all] 0 [arrives 100 { origin with manual := none }] with | .throws => true | _ => false) = true := by
      decide +kernel
    split at h
    · assumption
    · cases h

/-- The same for an origin without depth. -/
theorem no_depth_stops : run cfg [south, all] 0 [arrives 100 { origin with org := { org with depth := none } }] = .throws := by
  have h : (match run cfg [south, all] 0 [arrives 100 { origin with org := { org with depth := none } }] with | .throws => true | _ => false) = true := by
    decide +kernel
  split at h
  · assumption
  · cases h

/-- An origin without arrivals gives a catalog without events, whose first event is used. -/
theorem no_arrivals_ub : run cfg [south, all] 0 [arrives 100 { origin with org := { org with arrivals := [] } }] = .ub := by
  have h : (match run cfg [south, all] 0 [arrives 100 { origin with org := { org with arrivals := [] } }] with | .ub => true | _ => false) = true := by
    decide +kernel
  split at h
  · assumption
  · cases h

/-- Without database, no origin can be processed at all: the null pointer is used. This is independent of the origin and of
the configuration, as long as the job is started. -/
theorem no_database_ub (cfg : Config) (w : World) (now : Int) (o : Origin) (profs : List (Profile × ProfileState)) (h : w.query = none) :
    startProcess cfg w now (.origin o) profs = .ub := by
  unfold startProcess originOf
  rw [h]
  rfl

/-- An event that arrives again, with another preferred origin, while its first process is waiting: the old preferred origin
is relocated, and the new one never. -/
def second : Origin := { origin with org := { org with publicID := "o2", depth := some (.num 30) } }
def world2 : World :=
  { world with origins := fun id => if id = "o1" then some origin else if id = "o2" then some second else none }
def cfg2 : Config := { cfg with onlyPreferredOrigin := true, sched := ⟨[10], 1⟩ }

theorem old_preferred_origin : (run cfg2 [all] 0 [.add 100 100 (.event ⟨"ev", "o1"⟩) world2, .add 105 105 (.event ⟨"ev", "o2"⟩) world2,
      .tick 115 world2, .tick 116 world2, .tick 200 world2] >>= fun s => .ok (s.sched.started, s.sent.map (·.1.sourceOrigin))) =
    Outcome.ok ([(115, "ev")], [some "o1"]) := by decide +kernel

/-- The initial rms of the published event is that of the second step although the first one relocated the event, because the
result of the first step was moved from; and it depends on what the library leaves in it. -/
theorem start_rms_lost :
    (prepared >>= fun cat => twoSteps world all (dd 7) false cat >>= fun r => .ok (r.events.map (·.2.startRms))) = Outcome.ok [.num 2] ∧
    (prepared >>= fun cat => twoSteps { world with afterMove := id } all (dd 7) false cat >>= fun r => .ok (r.events.map (·.2.startRms))) =
      Outcome.ok [.num 1] := by decide +kernel

/-- When only the second step fails, the result of the first is lost: nothing is published. -/
theorem first_step_lost : ∃ d : DD, (∀ c, d.relocate c false { clustering with minEvStaToInterEvRatio := .num 1 } { xcorr with enable := false } =
      .ok (moved 7 c { xcorr with enable := false })) ∧
    (run cfg [all] 0 [.add 100 100 (.origin origin) { world with load := fun _ => some d }] >>= fun s => .ok (s.sched.started, s.sent.length)) =
      Outcome.ok ([(100, "o1")], 0) :=
  ⟨⟨[], fun c _ _ x => .ok (if x.enable then Catalog.init else moved 7 c x)⟩, fun _ => rfl, by decide +kernel⟩

/-- All profiles are loaded when an origin arrives, not only the one that is used. -/
theorem all_profiles_loaded : (run cfg [south, all] 0 [arrives 100 origin] >>= fun s => .ok (s.profs.map (fun p => (p.1.name, p.2.loaded)))) =
    Outcome.ok [("south", true), ("all", true)] := by decide +kernel

end Example
end Verif.Daemon
