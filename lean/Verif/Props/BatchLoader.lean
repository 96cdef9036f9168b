import Verif.Spec.Waveform
import Verif.Props.Trace

set_option linter.unusedSimpArgs false

/-!
# C39: the batch loader, C40: longer windows

A history is a list of `Batch.Op`s.  `Batch.calls` lists the calls of the data source made in a history, each
with the requests passed to it.
-/

namespace Verif.Waveform
open Verif.Catalog (Phase Event Station)
variable {α : Type}

namespace Batch

/-- what a user of the batch loader can do; for `load` with what the source would deliver at that moment -/
inductive Op (α : Type) where
  | get (tw : TimeWindow) (stream : String)
  | request (tw : TimeWindow) (stream : String)
  | load (source : List (String × TimeWindow) → List (Reply α))

/-- state after an operation (an exception of `request` leaves it unchanged) and call of the source -/
def step (order : List (Trace α) → List (Trace α)) (b : Batch α) : Op α → Batch α × Option (List (String × TimeWindow))
  | .get tw stream =>
    match b.get order tw stream with
    | .ok r => (r.2, none)
    | _ => (b, none)
  | .request tw stream =>
    match b.request tw stream with
    | .ok b => (b, none)
    | _ => (b, none)
  | .load source => b.load source

/-- state after a history -/
def after (order : List (Trace α) → List (Trace α)) (b : Batch α) : List (Op α) → Batch α
  | [] => b
  | o :: h => after order (b.step order o).1 h

/-- the calls of the source in a history -/
def calls (order : List (Trace α) → List (Trace α)) (b : Batch α) : List (Op α) → List (List (String × TimeWindow))
  | [] => []
  | o :: h => (b.step order o).2.toList ++ calls order (b.step order o).1 h

/-- what is asked for by an operation that is not `load` -/
def Op.asks : Op α → Option (String × TimeWindow)
  | .get tw stream => some (stream, tw)
  | .request tw stream => some (stream, tw)
  | .load _ => none

/-- what the source delivers, in the order of delivery -/
def delivered (replies : List (Reply α)) : List (String × Trace α) :=
  replies.filterMap (fun r => match r with
    | .traceLoaded stream _ t => some (stream, t)
    | .traceFailed _ _ => none)

theorem foldl_reply (rs : List (Reply α)) (b : Batch α) :
    (rs.foldl reply b).traces = (delivered rs).reverse ++ b.traces ∧ (rs.foldl reply b).requests = b.requests ∧
      (rs.foldl reply b).loaded = b.loaded := by
  induction rs generalizing b with
  | nil => exact ⟨rfl, rfl, rfl⟩
  | cons r rs ih =>
    obtain ⟨h1, h2, h3⟩ := ih (reply b r)
    rw [List.foldl_cons, h1, h2, h3]
    cases r <;> simp [reply, delivered]

theorem step_loaded (order : List (Trace α) → List (Trace α)) {b : Batch α} (h : b.loaded = true) (o : Op α) :
    b.step order o = (b, none) := by
  cases o with
  | get tw stream =>
    unfold step get
    rw [h]
    simp only [Bool.not_true, Bool.false_eq_true, if_false]
    cases findTrace tw (order ((b.traces.filter (fun x => x.1 = stream)).map (·.2))) <;> rfl
  | request tw stream => unfold step request; rw [h]; rfl
  | load source => unfold step load; rw [h]; rfl

theorem after_loaded (order : List (Trace α) → List (Trace α)) {b : Batch α} (h : b.loaded = true) (hist : List (Op α)) :
    b.after order hist = b ∧ b.calls order hist = [] := by
  induction hist with
  | nil => exact ⟨rfl, rfl⟩
  | cons o hist ih =>
    unfold after calls
    rw [step_loaded order h o]
    exact ⟨ih.1, by simpa using ih.2⟩

theorem after_append (order : List (Trace α) → List (Trace α)) (b : Batch α) (h h' : List (Op α)) :
    b.after order (h ++ h') = (b.after order h).after order h' := by
  induction h generalizing b with
  | nil => rfl
  | cons o h ih => exact ih _

theorem calls_append (order : List (Trace α) → List (Trace α)) (b : Batch α) (h h' : List (Op α)) :
    b.calls order (h ++ h') = b.calls order h ++ (b.after order h).calls order h' := by
  induction h generalizing b with
  | nil => rfl
  | cons o h ih => simp only [List.cons_append, calls, after, ih, List.append_assoc]

theorem step_ask (order : List (Trace α) → List (Trace α)) {b : Batch α} (h : b.loaded = false) {o : Op α}
    {x : String × TimeWindow} (ho : o.asks = some x) :
    b.step order o = ({ b with requests := if x ∈ b.requests then b.requests else x :: b.requests }, none) := by
  cases o with
  | get tw stream =>
    injection ho with ho; subst ho
    unfold step get request
    rw [h]
    by_cases hm : (stream, tw) ∈ b.requests <;> simp [hm, h, Outcome.map]
    · cases b; simp_all
  | request tw stream =>
    injection ho with ho; subst ho
    unfold step request
    rw [h]
    by_cases hm : (stream, tw) ∈ b.requests <;> simp [hm, h]
    · cases b; simp_all
  | load source => cases ho

/-- the state before the first `load` -/
theorem after_asks (order : List (Trace α) → List (Trace α)) (asks : List (Op α)) (ha : ∀ o ∈ asks, o.asks ≠ none) (b : Batch α)
    (hl : b.loaded = false) (hn : b.requests.Nodup) :
    (b.after order asks).loaded = false ∧ (b.after order asks).requests.Nodup ∧
    (∀ x, x ∈ (b.after order asks).requests ↔ x ∈ b.requests ∨ ∃ o ∈ asks, o.asks = some x) ∧
    (b.after order asks).traces = b.traces ∧ b.calls order asks = [] := by
  induction asks generalizing b with
  | nil => simp [after, calls, hl, hn]
  | cons o asks ih =>
    obtain ⟨x, hx⟩ := Option.ne_none_iff_exists'.1 (ha o (by simp))
    have hs := step_ask order hl hx
    unfold after calls
    rw [hs]
    obtain ⟨i1, i2, i3, i4, i5⟩ := ih (fun o ho => ha o (by simp [ho]))
      { b with requests := if x ∈ b.requests then b.requests else x :: b.requests } hl
      (by simp only; split
          · exact hn
          · rename_i hm; exact List.nodup_cons.2 ⟨hm, hn⟩)
    refine ⟨i1, i2, fun y => ?_, i4, by simpa using i5⟩
    rw [i3]
    simp only [List.mem_cons, exists_eq_or_imp, hx, Option.some.injEq]
    by_cases hm : x ∈ b.requests
    · simp only [hm, if_true]
      constructor
      · rintro (h | h) <;> tauto
      · rintro (h | h | h)
        · exact Or.inl h
        · subst h; exact Or.inl hm
        · exact Or.inr h
    · simp only [hm, if_false, List.mem_cons]
      constructor
      · rintro ((h | h) | h)
        · exact Or.inr (Or.inl h.symm)
        · exact Or.inl h
        · exact Or.inr (Or.inr h)
      · rintro (h | h | h)
        · exact Or.inl (Or.inr h)
        · exact Or.inl (Or.inl h.symm)
        · exact Or.inr h

/-- **C39a.** In every history of a batch loader — any requests, the first `load`, then anything, `load`s
included — the data source is called at most once; that call contains every waveform asked for before the
`load` exactly once and nothing else, and there is no call if nothing was asked for.  Afterwards the loader
holds what that call delivered. -/
theorem batch_requests_once (order : List (Trace α) → List (Trace α)) (asks : List (Op α)) (ha : ∀ o ∈ asks, o.asks ≠ none)
    (source : List (String × TimeWindow) → List (Reply α)) (rest : List (Op α)) :
    ∃ requests : List (String × TimeWindow), requests.Nodup ∧ (∀ x, x ∈ requests ↔ ∃ o ∈ asks, o.asks = some x) ∧
      init.calls order (asks ++ .load source :: rest) = (if requests = [] then [] else [requests]) ∧
      (init.after order (asks ++ .load source :: rest)).loaded = true ∧
      (init.after order (asks ++ .load source :: rest)).traces =
        (if requests = [] then [] else (delivered (source requests)).reverse) := by
  obtain ⟨h1, h2, h3, h4, h5⟩ := after_asks order asks ha (init : Batch α) rfl (by simp [init])
  refine ⟨(init.after order asks).requests, h2, fun x => by rw [h3]; simp [init], ?_⟩
  rw [after_append, calls_append, h5]
  generalize init.after order asks = b at *
  simp only [after, calls, step, load, h1, Bool.false_eq_true, if_false, List.nil_append]
  by_cases he : b.requests = []
  · simp only [he, List.length_nil, lt_self_iff_false, if_false, if_true, Option.toList_none, List.nil_append]
    have := after_loaded order (b := { b with loaded := true }) rfl rest
    rw [he] at this
    rw [this.1, this.2]
    exact ⟨rfl, rfl, h4⟩
  · have hp : 0 < b.requests.length := List.length_pos_iff.2 he
    simp only [he, hp, if_true, if_false, Option.toList_some]
    obtain ⟨f1, f2, f3⟩ := foldl_reply (source b.requests) b
    have := after_loaded order (b := { (source b.requests).foldl reply b with requests := [], loaded := true }) rfl rest
    rw [this.1, this.2]
    refine ⟨rfl, rfl, ?_⟩
    simp only
    rw [f1, h4]
    simp [init]

/-- Nothing is available before `load`. -/
theorem batch_nothing_before_load (order : List (Trace α) → List (Trace α)) (asks : List (Op α))
    (ha : ∀ o ∈ asks, o.asks ≠ none) (tw : TimeWindow) (stream : String) :
    ∃ b, (init.after order asks).get order tw stream = .ok (none, b) := by
  obtain ⟨h1, _⟩ := after_asks order asks ha (init : Batch α) rfl (by simp [init])
  unfold get request
  rw [h1]
  by_cases hm : (stream, tw) ∈ (init.after order asks).requests <;> simp [hm, Outcome.map]

theorem sliced_ok' (t : Trace α) (hf : 0 < t.freq) {tw : TimeWindow} (htw : TimeWindow.Built tw) : ∃ r, sliced t tw = .ok r := by
  obtain ⟨ok, t', h, _⟩ := Trace.trace_slice_sound t tw htw hf
  unfold sliced
  rw [h]
  cases ok <;> simp

theorem findTrace_spec {tw : TimeWindow} (htw : TimeWindow.Built tw) (ts : List (Trace α)) (hf : ∀ t ∈ ts, 0 < t.freq) :
    (findTrace tw ts = .ok none ∧ ∀ t ∈ ts, t.timeWindow.contains tw = false) ∨
    ∃ t ∈ ts, t.timeWindow.contains tw = true ∧ findTrace tw ts = sliced t tw := by
  induction ts with
  | nil => left; exact ⟨rfl, by simp⟩
  | cons t ts ih =>
    unfold findTrace
    by_cases hc : t.timeWindow.contains tw = true
    · right
      refine ⟨t, by simp, hc, ?_⟩
      rw [if_pos hc]
      by_cases he : t.timeWindow = tw
      · rw [if_neg (by simpa using he)]
        unfold sliced Trace.slice
        rw [if_pos he]
      · rw [if_pos he]
    · rw [if_neg hc]
      rcases ih (fun t ht => hf t (by simp [ht])) with ⟨h, h'⟩ | ⟨t', ht', h, h'⟩
      · left
        refine ⟨h, ?_⟩
        intro s hs
        rcases List.mem_cons.1 hs with rfl | hs
        · simpa using hc
        · exact h' s hs
      · right; exact ⟨t', by simp [ht'], h, h'⟩

/-- **C39b.** After `load`, a request (for a window built by the API) never misbehaves and does not change the
loader.  A trace that is returned is cut out of a delivered trace of the same stream and covers the window.
If none is returned, either no delivered trace of the stream contains the window, or one does but ends with
a sample before the end of the window, which only the rounding of its end time to the microsecond can
cause. -/
theorem batch_available (order : List (Trace α) → List (Trace α)) (horder : ∀ l, (order l).Perm l) (b : Batch α) (hl : b.loaded = true)
    (hf : ∀ x ∈ b.traces, 0 < x.2.freq) (tw : TimeWindow) (htw : TimeWindow.Built tw) (stream : String) :
    ∃ r, b.get order tw stream = .ok (r, b) ∧
      (∀ t', r = some t' → t'.stime ≤ tw.startTime ∧ tw.endTime ≤ t'.endTime ∧
        ∃ t, (stream, t) ∈ b.traces ∧ t.timeWindow.contains tw = true ∧ t'.freq = t.freq ∧
          ∃ k, t'.data = (t.data.drop k).take t'.data.length) ∧
      (r = none → (∀ t, (stream, t) ∈ b.traces → t.timeWindow.contains tw = false) ∨
        ∃ t, (stream, t) ∈ b.traces ∧ t.timeWindow.contains tw = true ∧ t.sampleTime ((t.data.length : ℚ) - 1) < tw.endTime) := by
  unfold get
  rw [hl]
  simp only [Bool.not_true, Bool.false_eq_true, if_false]
  have hmem : ∀ t, t ∈ order ((b.traces.filter (fun x => x.1 = stream)).map (·.2)) ↔ (stream, t) ∈ b.traces := by
    intro t
    rw [(horder _).mem_iff]
    simp only [List.mem_map, List.mem_filter, decide_eq_true_eq, Prod.exists, exists_eq_right]
  rcases findTrace_spec htw (order ((b.traces.filter (fun x => x.1 = stream)).map (·.2)))
    (fun t ht => hf _ ((hmem t).1 ht)) with ⟨h, hn⟩ | ⟨t, ht, hc, h⟩
  · rw [h]
    exact ⟨none, rfl, fun t' h => (by cases h), fun _ => Or.inl (fun t ht => hn t ((hmem t).2 ht))⟩
  · rw [h]
    have ht := (hmem t).1 ht
    have hft := hf _ ht
    obtain ⟨ok, t', hs, h0, h1⟩ := Trace.trace_slice_sound t tw htw hft
    unfold sliced
    rw [hs]
    cases ok with
    | true =>
      obtain ⟨e1, e2, e3, k, e4, e5, _, _⟩ := h1 rfl
      refine ⟨some t', rfl, ?_, fun h => by cases h⟩
      intro t'' he
      injection he with he
      subst he
      refine ⟨e2, e3, t, ht, hc, e1, k, ?_⟩
      apply List.ext_getElem?
      intro i
      rw [List.getElem?_take]
      by_cases hi : i < t'.data.length
      · rw [if_pos hi, List.getElem?_drop, (e5 i hi).1]
      · rw [if_neg hi, List.getElem?_eq_none (by omega)]
    | false =>
      refine ⟨none, rfl, fun _ h => (by cases h), fun _ => Or.inr ⟨t, ht, hc, ?_⟩⟩
      by_contra hlt
      obtain ⟨t'', hs'⟩ := Trace.trace_slice_complete_partial t tw htw hft hc (not_lt.1 hlt)
      rw [hs] at hs'
      cases hs'

/-- **C39c.** When the duration of the delivered traces is a whole number of microseconds (100 Hz, 200 Hz, …),
a waveform is available after `load` exactly if the source delivered a trace of the stream that contains
the window.  Missing for the full C39: other sampling frequencies, for which it is false, see below. -/
theorem batch_available_iff_partial (order : List (Trace α) → List (Trace α)) (horder : ∀ l, (order l).Perm l) (b : Batch α)
    (hl : b.loaded = true)
    (hf : ∀ x ∈ b.traces, 0 < x.2.freq ∧ x.2.data ≠ [] ∧ ∃ d : Int, ((x.2.data.length : ℚ) - 1) / x.2.freq * 1000000 = d)
    (tw : TimeWindow) (htw : TimeWindow.Built tw) (stream : String) :
    (∃ t', b.get order tw stream = .ok (some t', b)) ↔ ∃ t, (stream, t) ∈ b.traces ∧ t.timeWindow.contains tw = true := by
  obtain ⟨r, hr, h1, h2⟩ := batch_available order horder b hl (fun x hx => (hf x hx).1) tw htw stream
  constructor
  · rintro ⟨t', ht⟩
    rw [hr] at ht
    injection ht with ht
    obtain ⟨_, _, t, ht, hc, _⟩ := h1 t' (congrArg Prod.fst ht)
    exact ⟨t, ht, hc⟩
  · rintro ⟨t, ht, hc⟩
    cases r with
    | some t' => exact ⟨t', hr⟩
    | none =>
      exfalso
      rcases h2 rfl with h | ⟨t', ht', hc', hlt⟩
      · rw [h t ht] at hc; cases hc
      · obtain ⟨hf', hne, d, hd⟩ := hf _ ht'
        simp only at hf' hne hd
        have hlen : t'.data.length ≠ 0 := by simpa using hne
        have hend : t'.endTime = t'.stime + d := by
          unfold Trace.endTime Trace.secToDur; rw [if_neg hlen, hd, cround_intCast]
        have hd0 : 0 ≤ d := by
          have : (0 : ℚ) ≤ ((t'.data.length : ℚ) - 1) / t'.freq * 1000000 := by
            have : (1 : ℚ) ≤ (t'.data.length : ℚ) := by exact_mod_cast Nat.one_le_iff_ne_zero.2 hlen
            have : (0 : ℚ) ≤ (t'.data.length : ℚ) - 1 := by linarith
            positivity
          rw [hd] at this; exact_mod_cast this
        have hw : t'.timeWindow.endTime = t'.stime + d := by
          unfold Trace.timeWindow TimeWindow.mk' TimeWindow.setEndTime
          rw [hend, if_neg (by simp; omega)]
        have hc'' := of_decide_eq_true hc'
        rw [hw] at hc''
        unfold Trace.sampleTime at hlt
        rw [hd] at hlt
        have h3 : (t'.stime + d : Int) < tw.endTime := by exact_mod_cast hlt
        omega

namespace Example

/-- three requests, two of them equal; the source delivers one trace and fails on the other -/
def history : List (Op Nat) :=
  [.get ⟨0, 1000000⟩ "CH.A..HHZ", .request ⟨0, 1000000⟩ "CH.B..HHZ", .get ⟨0, 1000000⟩ "CH.A..HHZ"]

def source : List (String × TimeWindow) → List (Reply Nat) := fun _ =>
  [.traceFailed "CH.B..HHZ" ⟨0, 1000000⟩, .traceLoaded "CH.A..HHZ" ⟨0, 1000000⟩ ⟨0, 2, [1, 2, 3, 4]⟩]

example : (∀ o ∈ history, o.asks ≠ none) ∧
    init.calls id (history ++ [.load source, .load source, .get ⟨0, 1000000⟩ "CH.A..HHZ"]) =
      [[("CH.B..HHZ", ⟨0, 1000000⟩), ("CH.A..HHZ", ⟨0, 1000000⟩)]] ∧
    ((init.after id (history ++ [.load source])).get id ⟨0, 1000000⟩ "CH.A..HHZ").map (·.1) =
      .ok (some ⟨0, 2, [1, 2, 3]⟩) ∧
    ((init.after id (history ++ [.load source])).get id ⟨0, 1000000⟩ "CH.B..HHZ").map (·.1) = .ok none := by
  refine ⟨by intro o ho; simp [history] at ho; rcases ho with rfl | rfl | rfl <;> simp [Op.asks], by decide +kernel, ?_, ?_⟩ <;>
    decide +kernel

/-- **C39 as stated is false**: at 128 Hz the delivered trace contains the requested window according to its
own end time, and still nothing is returned. -/
theorem batch_delivered_but_unavailable :
    let b : Batch Nat := ⟨true, [], [("A", ⟨0, 128, [10, 20]⟩)], 1, 0⟩
    let tw := TimeWindow.mk' 1 7813
    (⟨0, 128, [10, 20]⟩ : Trace Nat).timeWindow.contains tw = true ∧ (b.get id tw "A").map (·.1) = .ok none := by
  decide +kernel

/-- … and with two delivered traces that both contain the window, the order in which the container lists them
decides whether it is available. -/
theorem batch_order_matters :
    let b : Batch Nat := ⟨true, [], [("A", ⟨0, 128, [10, 20]⟩), ("A", ⟨0, 128, [10, 20, 30]⟩)], 2, 0⟩
    let tw := TimeWindow.mk' 1 7813
    (b.get id tw "A").map (·.1) = .ok none ∧ (b.get List.reverse tw "A").map (·.1) = .ok (some ⟨0, 128, [10, 20, 30]⟩) := by
  decide +kernel

end Example

end Batch
end Verif.Waveform
