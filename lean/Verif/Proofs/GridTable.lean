import Verif.Spec.GridTable
import Verif.Proofs.NllGrid
import Verif.Props.Grid

/-! Helper lemmas: what a table of grids keeps between requests. -/

set_option linter.unusedSectionVars false
set_option linter.unusedSimpArgs false
set_option linter.unusedVariables false

namespace Verif.GridTable
open Verif.Grid Verif.NllGrid

variable {S G : Type} [DecidableEq S] [DecidableEq G]

/-- what holds between requests: `Ch` tells the grid of a key, `P` what may be the handle of a grid, and `w` that no
grid failed to open -/
structure Inv (Ch : Key S → G → Prop) (P : G → Handle → Prop) (w : Prop) (mode : Mode) (s : State S G) : Prop where
  wf : Lru.WF s.cache
  mode : s.mode = mode
  cached : ∀ k g, (k, g) ∈ Lru.content s.cache → Ch k g
  held : ∀ g, P g (s.handles g)
  un : w → ∀ k ∈ s.unloadables, ∀ g, ¬ Ch k g

variable {Ch : Key S → G → Prop} {P R : G → Handle → Prop} {w : Prop} {mode : Mode}

theorem closeAll_held (hc : ∀ g h, P g h → P g h.close) (l : List (Key S × G)) (h : G → Handle) (hh : ∀ g, P g (h g)) (g : G) :
    P g (closeAll h l g) := by
  induction l generalizing h with
  | nil => exact hh g
  | cons p l ih =>
    refine ih _ (fun g' => ?_)
    simp only [setHandle]
    by_cases e : g' = p.2
    · rw [if_pos e, e]; exact hc _ _ (hh _)
    · rw [if_neg e]; exact hh g'

theorem useGrid_inv' {s : State S G} {k : Key S} {g : G} {os : Answers} (hi : Inv Ch P w mode s) (hg : Ch k g)
    (ho : ∀ h, P g h → h.isOpen = false → P g (h.open mode os).1 ∧ (w → (h.open mode os).2 = true) ∧
      ((h.open mode os).2 = true → R g (h.open mode os).1))
    (hr : ∀ h, P g h → h.isOpen = true → R g h) :
    Inv Ch P w mode (useGrid s k g os).1 ∧ (useGrid s k g os).2 ≠ .ub ∧
      (∀ g' h, (useGrid s k g os).2 = .ok (g', h) → g' = g ∧ R g h) ∧ (w → (useGrid s k g os).2 ≠ .throws) := by
  unfold useGrid
  by_cases e : (s.handles g).isOpen = true
  · rw [if_pos e]
    refine ⟨hi, by simp, ?_, by simp⟩
    intro g' h heq
    simp only [Outcome.ok.injEq, Prod.mk.injEq] at heq
    obtain ⟨rfl, rfl⟩ := heq
    exact ⟨rfl, hr _ (hi.held _) e⟩
  · rw [if_neg e]
    obtain ⟨h1, h2, h3⟩ := ho _ (hi.held g) (by simpa using e)
    have hm := hi.mode
    subst hm
    have hset : ∀ h', P g h' → ∀ g', P g' (setHandle s.handles g h' g') := by
      intro h' hp g'
      unfold setHandle
      by_cases e' : g' = g
      · rw [if_pos e', e']; exact hp
      · rw [if_neg e']; exact hi.held g'
    cases hop : (s.handles g).open s.mode os with
    | mk h' b =>
      rw [hop] at h1 h2 h3
      cases b with
      | true =>
        refine ⟨⟨hi.wf, rfl, hi.cached, hset _ h1, hi.un⟩, by simp, ?_, by simp⟩
        intro g' h heq
        simp only [Outcome.ok.injEq, Prod.mk.injEq] at heq
        obtain ⟨rfl, rfl⟩ := heq
        exact ⟨rfl, h3 rfl⟩
      | false =>
        refine ⟨⟨hi.wf, rfl, hi.cached, hset _ h1, fun hw => ?_⟩, by simp, by simp, fun hw => ?_⟩
        · exact absurd (h2 hw) (by simp)
        · exact absurd (h2 hw) (by simp)

theorem access_inv' {s : State S G} {k : Key S} {i : Input G} (hi : Inv Ch P w mode s)
    (hfun : ∀ g, Ch k g ↔ i.found = some g ∧ i.tooFar = false)
    (hclose : ∀ g h, P g h → P g h.close)
    (ho : ∀ g, Ch k g → ∀ h, P g h → h.isOpen = false → P g (h.open mode i.os).1 ∧ (w → (h.open mode i.os).2 = true) ∧
      ((h.open mode i.os).2 = true → R g (h.open mode i.os).1))
    (hr : ∀ g h, P g h → h.isOpen = true → R g h) :
    Inv Ch P w mode (access s k i).1 ∧ (access s k i).2 ≠ .ub ∧
      (∀ g h, (access s k i).2 = .ok (g, h) → Ch k g ∧ R g h) ∧ (w → (access s k i).2 = .throws → ∀ g, ¬ Ch k g) := by
  obtain ⟨c, r, hg, hwf', hms, hrr, hc⟩ := Lru.get_spec hi.wf k
  have hsub : ∀ k' g', (k', g') ∈ Lru.content c → Ch k' g' := by
    intro k' g' hm
    rw [hc] at hm
    cases hf : AMap.find? (Lru.content s.cache) k with
    | none => rw [hf] at hm; exact hi.cached _ _ hm
    | some v =>
      rw [hf] at hm
      simp only [List.mem_cons, List.mem_filter] at hm
      rcases hm with h | h
      · injection h with h1 h2; subst h1; subst h2; exact hi.cached _ _ (AMap.mem_of_find? hf)
      · exact hi.cached _ _ h.1
  have hi' : Inv Ch P w mode { s with cache := c } := ⟨hwf', hi.mode, hsub, hi.held, hi.un⟩
  unfold access
  rw [hg]
  have use : ∀ (s' : State S G) (g : G), Inv Ch P w mode s' → Ch k g →
      Inv Ch P w mode (useGrid s' k g i.os).1 ∧ (useGrid s' k g i.os).2 ≠ .ub ∧
      (∀ g' h, (useGrid s' k g i.os).2 = .ok (g', h) → Ch k g' ∧ R g' h) ∧
      (w → (useGrid s' k g i.os).2 = .throws → ∀ g, ¬ Ch k g) := by
    intro s' g hs' hch
    obtain ⟨a, b, c, d⟩ := useGrid_inv' (R := R) (os := i.os) hs' hch (ho g hch) (hr g)
    refine ⟨a, b, ?_, fun hw ht => absurd ht (d hw)⟩
    intro g' h' he
    obtain ⟨rfl, e2⟩ := c g' h' he
    exact ⟨hch, e2⟩
  cases r with
  | some g => exact use _ g hi' (hi.cached _ _ (AMap.mem_of_find? hrr.symm))
  | none =>
    simp only
    have unl : ∀ k', w → (∀ g, ¬ Ch k' g) → ∀ k'' ∈ k' :: s.unloadables, ∀ g, ¬ Ch k'' g := by
      intro k' hw hk k'' hm g
      rcases List.mem_cons.1 hm with h | h
      · subst h; exact hk g
      · exact hi.un hw _ h g
    by_cases hu : k ∈ s.unloadables
    · rw [if_pos hu]
      exact ⟨hi', by simp, by simp, fun hw _ => hi.un hw k hu⟩
    · rw [if_neg hu]
      cases hf : i.found with
      | none =>
        have hno : ∀ g, ¬ Ch k g := fun g hg => by rw [hfun, hf] at hg; simp at hg
        cases k with
        | velocity p => exact ⟨hi', by simp, by simp, fun _ _ => hno⟩
        | time p st => exact ⟨⟨hwf', hi.mode, hsub, hi.held, fun hw => unl _ hw hno⟩, by simp, by simp, fun _ _ => hno⟩
        | angle p st => exact ⟨⟨hwf', hi.mode, hsub, hi.held, fun hw => unl _ hw hno⟩, by simp, by simp, fun _ _ => hno⟩
      | some g =>
        simp only
        by_cases ht : i.tooFar = true
        · rw [if_pos ht]
          have hno : ∀ g, ¬ Ch k g := fun g hg => by rw [hfun, ht] at hg; simp at hg
          exact ⟨⟨hwf', hi.mode, hsub, hi.held, fun hw => unl _ hw hno⟩, by simp, by simp, fun _ _ => hno⟩
        · rw [if_neg ht]
          have hch : Ch k g := (hfun g).2 ⟨hf, by simpa using ht⟩
          obtain ⟨c', cb, hp, hwf2, hms2, hct⟩ := Lru.put_spec hwf' k g
          rw [hp]
          simp only
          refine use _ g ⟨hwf2, hi.mode, ?_, closeAll_held hclose _ _ hi.held, hi.un⟩ hch
          intro k' g' hg'
          have hin : (k', g') ∈ Lru.content c ∨ (k' = k ∧ g' = g) := by
            unfold Lru.aput at hct
            split at hct
            · injection hct with h1 _; rw [h1] at hg'; exact Or.inl hg'
            · have hl : (k', g') ∈ (k, g) :: (Lru.content c).filter (fun p => p.1 ≠ k) := by
                simp only at hct
                split at hct
                · injection hct with h1 _; rw [h1] at hg'; exact List.dropLast_subset _ hg'
                · injection hct with h1 _; rw [h1] at hg'; exact hg'
              rcases List.mem_cons.1 hl with h | h
              · injection h with h1 h2; exact Or.inr ⟨h1, h2⟩
              · exact Or.inl (List.mem_filter.1 h).1
          rcases hin with h | ⟨rfl, rfl⟩
          · exact hsub _ _ h
          · exact hch

theorem closeOpenFiles_inv {s : State S G} (hi : Inv Ch P w mode s) : Inv Ch P w mode (closeOpenFiles s) :=
  ⟨Lru.clear_WF _, hi.mode, fun k g h => by simp [closeOpenFiles, Lru.clear, Lru.content] at h, hi.held, hi.un⟩

theorem init_inv (n : Nat) (m0 : G → Mode) (h : ∀ g, P g { mode := m0 g }) : Inv Ch P w mode (init n mode m0 : State S G) :=
  ⟨Lru.init_WF n, rfl, fun k g h => by simp [init, Lru.init, Lru.content] at h, h, fun _ k h => by simp [init] at h⟩

/-! ### the grid of a key -/

theorem for_time {T : Tables S G} (hp : PrintedApart T) (phase : String) (sta : Place) (g : G) :
    For T (.time phase (T.print sta)) g ↔ (T.time phase sta).1 = some g ∧ (T.time phase sta).2 = false := by
  have key : inReach (T.time phase sta) = some g ↔ (T.time phase sta).1 = some g ∧ (T.time phase sta).2 = false := by
    unfold inReach; cases (T.time phase sta).2 <;> simp
  rw [← key]
  constructor
  · intro h
    generalize hk : Key.time phase (T.print sta) = k at h
    cases h with
    | time h =>
      injection hk with h1 h2
      subst h1
      rw [(hp _ _ h2 phase).1]; exact h
    | velocity h => cases hk
    | angle h => cases hk
  · exact fun h => .time h

theorem for_angle {T : Tables S G} (hp : PrintedApart T) (phase : String) (sta : Place) (g : G) :
    For T (.angle phase (T.print sta)) g ↔ (T.angle phase sta).1 = some g ∧ (T.angle phase sta).2 = false := by
  have key : inReach (T.angle phase sta) = some g ↔ (T.angle phase sta).1 = some g ∧ (T.angle phase sta).2 = false := by
    unfold inReach; cases (T.angle phase sta).2 <;> simp
  rw [← key]
  constructor
  · intro h
    generalize hk : Key.angle phase (T.print sta) = k at h
    cases h with
    | angle h =>
      injection hk with h1 h2
      subst h1
      rw [(hp _ _ h2 phase).2]; exact h
    | velocity h => cases hk
    | time h => cases hk
  · exact fun h => .angle h

theorem for_velocity {T : Tables S G} (phase : String) (g : G) :
    For T (.velocity phase) g ↔ T.velocity phase = some g ∧ false = false := by
  constructor
  · intro h; cases h with | velocity h => exact ⟨h, rfl⟩
  · exact fun h => .velocity h.1

theorem for_fun {T : Tables S G} (hp : PrintedApart T) {k : Key S} {g g' : G} (h : For T k g) (h' : For T k g') : g = g' := by
  cases h with
  | @time phase sta _ h =>
    have h1 := (for_time hp phase sta g').1 h'
    have h2 := (for_time hp phase sta g).1 (.time h)
    rw [h1.1] at h2; injection h2.1 with e; exact e.symm
  | @angle phase sta _ h =>
    have h1 := (for_angle hp phase sta g').1 h'
    have h2 := (for_angle hp phase sta g).1 (.angle h)
    rw [h1.1] at h2; injection h2.1 with e; exact e.symm
  | velocity h => cases h' with | velocity h' => rw [h] at h'; injection h'

/-! ### handles -/

/-- a handle on a file that was opened and read without failure -/
def opened : Mode → List UInt8 → Handle
  | .mmap, f => { mode := .mmap, mapped := some f, mappedSize := f.length }
  | .pread, f => { mode := .pread, fd := some f, mappedSize := f.length }
  | .loadIntoMemory, f => { mode := .loadIntoMemory, bytes := f, mappedSize := f.length }

/-- closed, or opened without failure -/
def Fine (mode : Mode) (f : List UInt8) (h : Handle) : Prop := (∃ m, h = { mode := m }) ∨ h = opened mode f

theorem fine_close {mode : Mode} {f : List UInt8} {h : Handle} (_ : Fine mode f h) : Fine mode f h.close := Or.inl ⟨_, rfl⟩

theorem fine_isOpen {mode : Mode} {f : List UInt8} {h : Handle} (hf : Fine mode f h) (ho : h.isOpen = true) :
    h = opened mode f := by
  rcases hf with ⟨m, rfl⟩ | h
  · cases m <;> simp [Handle.isOpen] at ho
  · exact h

theorem open_closed (m mode : Mode) (f : List UInt8) :
    Handle.open { mode := m } mode ⟨some f, true, true, some f.length⟩ = (opened mode f, true) := by
  have hno : (({ mode := m } : Handle)).isOpen = false := by cases m <;> rfl
  cases mode <;> simp [Handle.open, hno, opened]

theorem fine_open {mode : Mode} {f : List UInt8} {h : Handle} (hf : Fine mode f h) (ho : h.isOpen = false) :
    h.open mode ⟨some f, true, true, some f.length⟩ = (opened mode f, true) := by
  rcases hf with ⟨m, rfl⟩ | rfl
  · exact open_closed m mode f
  · cases mode with
    | mmap => simp [Handle.isOpen, opened] at ho
    | pread => simp [Handle.isOpen, opened] at ho
    | loadIntoMemory =>
      simp only [Handle.isOpen, opened, Bool.not_eq_false', List.isEmpty_iff] at ho
      subst ho
      exact open_closed .loadIntoMemory .loadIntoMemory []

/-- what can be read from a handle that is closed or was opened on the file, with failures, by mapping or keeping it open -/
def Held (mode : Mode) (f : List UInt8) (h : Handle) : Prop :=
  (∃ m, h = { mode := m }) ∨ (h.mode = mode ∧ (h.fd = none ∨ h.fd = some f) ∧ h.bytes = [] ∧
    (h.mapped = none ∨ (h.mapped = some f ∧ h.mappedSize = f.length)))

/-- an open handle on the file -/
def OpenOn (mode : Mode) (f : List UInt8) (h : Handle) : Prop :=
  h.mode = mode ∧ match mode with
  | .mmap => h.mapped = some f ∧ h.mappedSize = f.length
  | .pread => h.fd = some f
  | .loadIntoMemory => False

theorem held_close {mode : Mode} {f : List UInt8} {h : Handle} (_ : Held mode f h) : Held mode f h.close := Or.inl ⟨_, rfl⟩

theorem held_isOpen {mode : Mode} {f : List UInt8} {h : Handle} (hf : Held mode f h) (ho : h.isOpen = true) :
    OpenOn mode f h := by
  rcases hf with ⟨m, rfl⟩ | ⟨rfl, h2, h3, h4⟩
  · cases m <;> simp [Handle.isOpen] at ho
  · refine ⟨rfl, ?_⟩
    unfold Handle.isOpen at ho
    cases hm : h.mode with
    | mmap =>
      rw [hm] at ho
      rcases h4 with h4 | h4
      · rw [h4] at ho; simp at ho
      · exact h4
    | pread =>
      rw [hm] at ho
      rcases h2 with h2 | h2
      · rw [h2] at ho; simp at ho
      · exact h2
    | loadIntoMemory => rw [hm] at ho; simp [h3] at ho

theorem held_open {mode : Mode} (hm : mode ≠ .loadIntoMemory) {f : List UInt8} {h : Handle} (hf : Held mode f h)
    (ho : h.isOpen = false) {os : Answers} (hos : os.file = none ∨ os.file = some f) :
    Held mode f (h.open mode os).1 ∧ ((h.open mode os).2 = true → OpenOn mode f (h.open mode os).1) := by
  have hfd : (h.fd.or os.file = none ∨ h.fd.or os.file = some f) ∧ h.bytes = [] ∧ (mode = .mmap → h.mapped = none) ∧
      (h.mapped = none ∨ h.mapped = some f) := by
    rcases hf with ⟨m, rfl⟩ | ⟨rfl, h2, h3, h4⟩
    · exact ⟨by simpa using hos, rfl, fun _ => rfl, Or.inl rfl⟩
    · refine ⟨?_, h3, ?_, h4.imp_right And.left⟩
      · rcases h2 with h2 | h2 <;> rw [h2] <;> simp [hos]
      · intro e
        unfold Handle.isOpen at ho; rw [e] at ho
        simpa using ho
  obtain ⟨a, b, c, d⟩ := hfd
  have hmp : h.mapped = none ∨ (mode = .pread ∧ h.mapped = some f) := by
    rcases d with d | d
    · exact Or.inl d
    · cases mode with
      | mmap => exact Or.inl (c rfl)
      | pread => exact Or.inr ⟨rfl, d⟩
      | loadIntoMemory => exact absurd rfl hm
  unfold Handle.open
  rw [if_neg (by simp [ho])]
  simp only
  rcases a with a | a
  · rw [a]
    refine ⟨?_, by simp⟩
    rcases hf with ⟨m, rfl⟩ | ⟨rfl, h2, h3, h4⟩
    · exact Or.inr ⟨rfl, Or.inl rfl, rfl, Or.inl rfl⟩
    · exact Or.inr ⟨rfl, Or.inl rfl, h3, h4⟩
  · rw [a]
    simp only
    have h1 : Held mode f { h with mode := mode, fd := some f } := by
      rcases hf with ⟨m, rfl⟩ | ⟨rfl, h2, h3, h4⟩
      · exact Or.inr ⟨rfl, Or.inr rfl, rfl, Or.inl rfl⟩
      · exact Or.inr ⟨rfl, Or.inr rfl, h3, h4⟩
    have h2 : Held mode f { h with mode := mode, fd := some f, mappedSize := f.length } :=
      Or.inr ⟨rfl, Or.inr rfl, b, d.imp_right fun e => ⟨e, rfl⟩⟩
    cases os.statOk with
    | false => exact ⟨h1, by simp⟩
    | true =>
      simp only [Bool.not_true, Bool.false_eq_true, if_false]
      cases mode with
      | loadIntoMemory => exact absurd rfl hm
      | pread => exact ⟨h2, fun _ => ⟨rfl, rfl⟩⟩
      | mmap =>
        simp only [c rfl]
        cases os.mapOk with
        | false => exact ⟨by simpa [c rfl] using h2, by simp⟩
        | true => exact ⟨Or.inr ⟨rfl, Or.inl rfl, b, Or.inr ⟨rfl, rfl⟩⟩, fun _ => ⟨rfl, rfl, rfl⟩⟩

/-! ### reading -/

/-- the bytes of a node, if the file is long enough -/
def bytesOf (g : Info ℝ) (f : List UInt8) (size ix iy iz : Nat) : Outcome (List UInt8) :=
  if ¬(ix < g.numx ∧ iy < g.numy ∧ iz < g.numz) then .throws
  else if byteOffset g.numy g.numz size ix iy iz + size ≤ f.length then
    .ok (let bs := (f.drop (byteOffset g.numy g.numz size ix iy iz)).take size; if g.swapBytes then bs.reverse else bs)
  else .throws

/-- reading from the handle gives the bytes of the file -/
def Reads (d : GridData) (h : Handle) : Prop :=
  ∀ size ix iy iz, size = 4 ∨ size = 8 → getBytesAt d.info h size ix iy iz = bytesOf d.info d.file size ix iy iz

theorem reads_openOn {d : GridData} (hfit : Fits d) {mode : Mode} {h : Handle} (ho : OpenOn mode d.file h ∨ h = opened mode d.file) :
    Reads d h := by
  intro size ix iy iz hsize
  have hs0 : 0 < size := by rcases hsize with h | h <;> omega
  have hs8 : size ≤ 8 := by rcases hsize with h | h <;> omega
  unfold getBytesAt bytesOf
  by_cases hin : ix < d.info.numx ∧ iy < d.info.numy ∧ iz < d.info.numz
  · have hw : d.info.numx * d.info.numy * d.info.numz * size < 2 ^ 64 :=
      lt_of_le_of_lt (Nat.mul_le_mul_left _ hs8) hfit.1
    have hoff : byteOffset d.info.numy d.info.numz size ix iy iz + size < 2 ^ 64 := by
      obtain ⟨hx, hy, hz⟩ := hin
      rw [byteOffset_eq hs0 hw hx hy hz]
      have h1 : (ix * d.info.numy + iy) + 1 ≤ d.info.numx * d.info.numy := by nlinarith
      have h2 : ((ix * d.info.numy + iy) * d.info.numz + iz) + 1 ≤ d.info.numx * d.info.numy * d.info.numz := by nlinarith
      have h3 := Nat.mul_le_mul_right size h2
      rw [Nat.add_mul, Nat.one_mul] at h3
      omega
    have hlen := hfit.2
    have hii : d.info.isIndexInside ix iy iz = true := by simp [Info.isIndexInside, hin]
    rw [if_neg (not_not.2 hin)]
    simp only [hii, Bool.not_true, Bool.false_eq_true, if_false]
    generalize byteOffset d.info.numy d.info.numz size ix iy iz = off at *
    have hmod : (off + size) % word = off + size := Nat.mod_eq_of_lt hoff
    have mm : ∀ m : List UInt8, m = d.file → (if (off + size) % word > m.length then Outcome.throws
        else memcpy m off size) = if off + size ≤ d.file.length then Outcome.ok ((d.file.drop off).take size) else .throws := by
      rintro m rfl
      rw [hmod]
      unfold memcpy
      by_cases hle : off + size ≤ d.file.length
      · simp only [if_neg (show ¬ off + size > d.file.length by omega), if_pos hle]
      · simp only [if_pos (show off + size > d.file.length by omega), if_neg hle]
    have pp : (match pread d.file off size with
        | none => Outcome.throws
        | some bs => if bs.length ≠ size then .throws else .ok bs) =
        if off + size ≤ d.file.length then Outcome.ok ((d.file.drop off).take size) else .throws := by
      unfold pread
      by_cases hle : off + size ≤ d.file.length
      · rw [if_pos hle, if_pos (by omega)]
        simp only
        rw [if_neg]
        simp; omega
      · rw [if_neg hle]
        by_cases ho : off < 2 ^ 63
        · rw [if_pos ho]
          simp only
          rw [if_pos]
          simp; omega
        · rw [if_neg ho]
    have fin : (if off + size ≤ d.file.length then Outcome.ok ((d.file.drop off).take size) else .throws).map
        (fun bs => if d.info.swapBytes then bs.reverse else bs) =
        if off + size ≤ d.file.length then
          .ok (let bs := (d.file.drop off).take size; if d.info.swapBytes then bs.reverse else bs) else .throws := by
      by_cases hle : off + size ≤ d.file.length
      · rw [if_pos hle, if_pos hle]; rfl
      · rw [if_neg hle, if_neg hle]; rfl
    rw [← fin]
    rcases ho with ⟨hm, ho⟩ | rfl
    · cases mode with
      | loadIntoMemory => exact ho.elim
      | mmap =>
        simp only at ho
        have hopen : h.isOpen = true := by simp [Handle.isOpen, hm, ho.1]
        simp only [hopen, Bool.not_true, Bool.false_eq_true, if_false, hm, ho.1, ho.2, Option.getD_some]
        exact congrArg (Outcome.map _) (mm _ rfl)
      | pread =>
        simp only at ho
        have hopen : h.isOpen = true := by simp [Handle.isOpen, hm, ho]
        simp only [hopen, Bool.not_true, Bool.false_eq_true, if_false, hm, ho, Option.getD_some]
        exact congrArg (Outcome.map _) pp
    · cases mode with
      | mmap =>
        have hopen : (opened .mmap d.file).isOpen = true := rfl
        simp only [hopen, Bool.not_true, Bool.false_eq_true, if_false]
        simp only [opened, Option.getD_some]
        exact congrArg (Outcome.map _) (mm _ rfl)
      | pread =>
        have hopen : (opened .pread d.file).isOpen = true := rfl
        simp only [hopen, Bool.not_true, Bool.false_eq_true, if_false]
        simp only [opened, Option.getD_some]
        exact congrArg (Outcome.map _) pp
      | loadIntoMemory =>
        by_cases he : d.file = []
        · have hopen : (opened .loadIntoMemory d.file).isOpen = false := by simp [opened, Handle.isOpen, he]
          rw [if_pos (by simp [hopen]), if_neg (by simp [he]; omega)]
          rfl
        · have hopen : (opened .loadIntoMemory d.file).isOpen = true := by simp [opened, Handle.isOpen, he]
          simp only [hopen, Bool.not_true, Bool.false_eq_true, if_false]
          simp only [opened]
          exact congrArg (Outcome.map _) (mm _ rfl)
  · have hii : d.info.isIndexInside ix iy iz = false := by
      simp only [Info.isIndexInside]
      rw [Bool.eq_false_iff]
      simpa [and_assoc] using hin
    rw [if_pos hin]
    simp [hii]

theorem reads_getTime {d : GridData} {h h' : Handle} (hr : Reads d h) (hr' : Reads d h') (ev : Place) :
    getTime d h ev = getTime d h' ev ∧ getVel d h ev = getVel d h' ev ∧ ∀ c, getAngles c d h ev = getAngles c d h' ev := by
  have hn : node d h = node d h' := by
    funext ix iy iz
    unfold node
    rw [hr 8 ix iy iz (Or.inr rfl), hr' 8 ix iy iz (Or.inr rfl), hr 4 ix iy iz (Or.inl rfl), hr' 4 ix iy iz (Or.inl rfl)]
  have hb : (fun ix iy iz => (getBytesAt d.info h 4 ix iy iz).map TravelTime.decodeAngles) =
      fun ix iy iz => (getBytesAt d.info h' 4 ix iy iz).map TravelTime.decodeAngles := by
    funext ix iy iz
    rw [hr 4 ix iy iz (Or.inl rfl), hr' 4 ix iy iz (Or.inl rfl)]
  refine ⟨by unfold getTime; rw [hn], by unfold getVel; rw [hn], fun c => ?_⟩
  unfold getAngles
  simp only [hb]

/-! ### requests -/

/-- what is read for the grid `g` -/
noncomputable def answerTime (T : Tables S G) (phase : String) (ev sta : Place) : Outcome ℝ :=
  match inReach (T.time phase sta) with
  | none => .throws
  | some g => getTime (T.data g) (opened .mmap (T.data g).file) ev

noncomputable def answerVel (T : Tables S G) (phase : String) (ev : Place) : Outcome ℝ :=
  match T.velocity phase with
  | none => .throws
  | some g => getVel (T.data g) (opened .mmap (T.data g).file) ev

noncomputable def answerAngles (T : Tables S G) (phase : String) (ev sta : Place) : Outcome (Option ℝ × ℝ) :=
  match inReach (T.angle phase sta) with
  | none => .throws
  | some g => getAngles T.cutoff (T.data g) (opened .mmap (T.data g).file) ev

/-- the assumptions on the handles of a table under which its answers are those of the files -/
structure Policy (T : Tables S G) (P : G → Handle → Prop) (w : Prop) (mode : Mode) (A : (Key S → Answers) → Prop) : Prop where
  close : ∀ g h, P g h → P g h.close
  opens : ∀ os, A os → ∀ k g, For T k g → ∀ h, P g h → h.isOpen = false → P g (h.open mode (os k)).1 ∧
    (w → (h.open mode (os k)).2 = true) ∧ ((h.open mode (os k)).2 = true → Reads (T.data g) (h.open mode (os k)).1)
  read : ∀ g h, P g h → h.isOpen = true → Reads (T.data g) h

/-- the answer is the one of the files, or an exception if a grid may fail to open -/
def Right {A : Type} (w : Prop) (r e : Outcome A) : Prop := r = e ∨ (¬ w ∧ r = .throws)

section
variable {T : Tables S G} {A : (Key S → Answers) → Prop} {s : State S G}

theorem read_right {B : Type} (hpol : Policy T P w mode A) (hfit : ∀ g, Fits (T.data g)) (hi : Inv (For T) P w mode s) {os : Key S → Answers} (ha : A os) {k : Key S}
    {found : Option G} {tooFar : Bool} (hk : ∀ g, For T k g ↔ found = some g ∧ tooFar = false)
    (f : G → Handle → Outcome B) (hf : ∀ g h h', Reads (T.data g) h → Reads (T.data g) h' → f g h = f g h') :
    Inv (For T) P w mode (reading (access s k ⟨found, tooFar, os k⟩) f).1 ∧
    Right w (reading (access s k ⟨found, tooFar, os k⟩) f).2
      (match inReach (found, tooFar) with | none => .throws | some g => f g (opened .mmap (T.data g).file)) := by
  obtain ⟨h1, h2, h3, h4⟩ := access_inv' (R := fun g h => Reads (T.data g) h) (i := ⟨found, tooFar, os k⟩) hi hk hpol.close
    (hpol.opens os ha k) hpol.read
  refine ⟨h1, ?_⟩
  unfold reading
  cases hr : (access s k ⟨found, tooFar, os k⟩).2 with
  | ub => exact absurd hr h2
  | ok p =>
    obtain ⟨g, h⟩ := p
    obtain ⟨a, b⟩ := h3 g h hr
    obtain ⟨rfl, rfl⟩ := (hk g).1 a
    left
    show f g h = f g _
    exact hf g _ _ b (reads_openOn (hfit g) (Or.inr rfl))
  | throws =>
    by_cases hw : w
    · left
      have hno := h4 hw hr
      have : inReach (found, tooFar) = none := by
        unfold inReach
        cases tooFar with
        | true => rfl
        | false =>
          cases hfo : found with
          | none => rfl
          | some g => exact absurd ((hk g).2 ⟨hfo, rfl⟩) (hno g)
      rw [this]; rfl
    · exact Or.inr ⟨hw, rfl⟩

theorem travelTime_right (hpol : Policy T P w mode A) (hp : PrintedApart T) (hfit : ∀ g, Fits (T.data g))
    (hi : Inv (For T) P w mode s) {os : Key S → Answers} (ha : A os) (phase : String) (ev sta : Place) :
    Inv (For T) P w mode (travelTime T os s phase ev sta).1 ∧ Right w (travelTime T os s phase ev sta).2 (answerTime T phase ev sta) :=
  read_right hpol hfit hi ha (for_time hp phase sta) _ (fun g h h' a b => (reads_getTime a b ev).1)

theorem velocityAt_right (hpol : Policy T P w mode A) (hfit : ∀ g, Fits (T.data g))
    (hi : Inv (For T) P w mode s) {os : Key S → Answers} (ha : A os) (phase : String) (ev : Place) :
    Inv (For T) P w mode (velocityAt T os s phase ev).1 ∧ Right w (velocityAt T os s phase ev).2 (answerVel T phase ev) :=
  read_right hpol hfit hi ha (for_velocity phase) _ (fun g h h' a b => (reads_getTime a b ev).2.1)

theorem anglesAt_right (hpol : Policy T P w mode A) (hp : PrintedApart T) (hfit : ∀ g, Fits (T.data g))
    (hi : Inv (For T) P w mode s) {os : Key S → Answers} (ha : A os) (phase : String) (ev sta : Place) :
    Inv (For T) P w mode (anglesAt T os s phase ev sta).1 ∧ Right w (anglesAt T os s phase ev sta).2 (answerAngles T phase ev sta) :=
  read_right hpol hfit hi ha (for_angle hp phase sta) _ (fun g h h' a b => (reads_getTime a b ev).2.2 _)

/-- the whole answer -/
noncomputable def answerRay (T : Tables S G) (phase : String) (ev sta : Place) : Outcome TravelTime.Ray := do
  let t ← answerTime T phase ev sta
  let v ← answerVel T phase ev
  let a ← answerAngles T phase ev sta
  let azi := a.1.getD (Geo.radToDeg (Geo.computeAzimuth ev.1 ev.2.1 sta.1 sta.2.1))
  let d := TravelTime.gridDerivatives v a.2
  pure ⟨t, azi, a.2, d.1, d.2⟩

theorem andThen_right {B C : Type} {r : State S G × Outcome B} {e : Outcome B} {f : State S G → B → State S G × Outcome C}
    {e' : B → Outcome C} (hi : Inv (For T) P w mode r.1) (hr : Right w r.2 e)
    (hf : ∀ s b, Inv (For T) P w mode s → Inv (For T) P w mode (f s b).1 ∧ Right w (f s b).2 (e' b)) :
    Inv (For T) P w mode (andThen r f).1 ∧ Right w (andThen r f).2 (e >>= e') := by
  obtain ⟨s, o⟩ := r
  cases o with
  | ok b =>
    rcases hr with rfl | ⟨_, h⟩
    · exact hf s b hi
    · cases h
  | throws =>
    refine ⟨hi, ?_⟩
    rcases hr with rfl | ⟨hw, _⟩
    · exact Or.inl rfl
    · exact Or.inr ⟨hw, rfl⟩
  | ub =>
    refine ⟨hi, ?_⟩
    rcases hr with rfl | ⟨_, h⟩
    · exact Or.inl rfl
    · cases h

theorem ray_right (hpol : Policy T P w mode A) (hp : PrintedApart T) (hfit : ∀ g, Fits (T.data g))
    (hi : Inv (For T) P w mode s) {os : Key S → Answers} (ha : A os) (phase : String) (ev sta : Place) :
    Inv (For T) P w mode (ray T os s phase ev sta).1 ∧ Right w (ray T os s phase ev sta).2 (answerRay T phase ev sta) := by
  obtain ⟨a1, a2⟩ := travelTime_right hpol hp hfit hi ha phase ev sta
  refine andThen_right a1 a2 (fun s t hs => ?_)
  obtain ⟨b1, b2⟩ := velocityAt_right hpol hfit hs ha phase ev
  refine andThen_right b1 b2 (fun s v hs => ?_)
  obtain ⟨c1, c2⟩ := anglesAt_right hpol hp hfit hs ha phase ev sta
  exact andThen_right c1 c2 (fun s a hs => ⟨hs, Or.inl rfl⟩)

/-- the answer of the files to a request -/
noncomputable def answer (T : Tables S G) : Request S → Outcome Answer
  | .time phase ev sta _ => (answerTime T phase ev sta).map .time
  | .ray phase ev sta _ => (answerRay T phase ev sta).map .ray
  | .closeOpenFiles => .ok .done

theorem right_map {B C : Type} {r e : Outcome B} (f : B → C) (h : Right w r e) : Right w (r.map f) (e.map f) := by
  rcases h with rfl | ⟨hw, rfl⟩
  · exact Or.inl rfl
  · exact Or.inr ⟨hw, rfl⟩

theorem serve_right (hpol : Policy T P w mode A) (hp : PrintedApart T) (hfit : ∀ g, Fits (T.data g))
    (hi : Inv (For T) P w mode s) (r : Request S) (hr : r.All A) :
    Inv (For T) P w mode (serve T s r).1 ∧ Right w (serve T s r).2 (answer T r) := by
  cases r with
  | time phase ev sta os =>
    obtain ⟨a1, a2⟩ := travelTime_right hpol hp hfit hi hr phase ev sta
    exact ⟨a1, right_map _ a2⟩
  | ray phase ev sta os =>
    obtain ⟨a1, a2⟩ := ray_right hpol hp hfit hi hr phase ev sta
    exact ⟨a1, right_map _ a2⟩
  | closeOpenFiles => exact ⟨closeOpenFiles_inv hi, Or.inl rfl⟩

theorem history_inv (hpol : Policy T P w mode A) (hp : PrintedApart T) (hfit : ∀ g, Fits (T.data g))
    (hist : List (Request S)) (hh : ∀ r ∈ hist, r.All A) (hi : Inv (For T) P w mode s) :
    Inv (For T) P w mode (history T s hist) := by
  induction hist generalizing s with
  | nil => exact hi
  | cons r rs ih =>
    exact ih (fun r' h => hh r' (List.mem_cons_of_mem _ h)) (serve_right hpol hp hfit hi r (hh r List.mem_cons_self)).1

end

theorem policy_works {T : Tables S G} (hfit : ∀ g, Fits (T.data g)) (mode : Mode) :
    Policy T (fun g h => Fine mode (T.data g).file h) True mode (Works T) where
  close := fun g h hf => fine_close hf
  opens := by
    intro os ha k g hfor h hf ho
    rw [ha k g hfor, fine_open hf ho]
    exact ⟨Or.inr rfl, fun _ => rfl, fun _ => reads_openOn (hfit g) (Or.inr rfl)⟩
  read := fun g h hf ho => reads_openOn (hfit g) (Or.inr (fine_isOpen hf ho))

theorem policy_fails {T : Tables S G} (hfit : ∀ g, Fits (T.data g)) (mode : Mode) (hm : mode ≠ .loadIntoMemory) :
    Policy T (fun g h => Held mode (T.data g).file h) False mode (MayFail T) where
  close := fun g h hf => held_close hf
  opens := by
    intro os ha k g hfor h hf ho
    obtain ⟨a, b⟩ := held_open hm hf ho (ha k g hfor)
    exact ⟨a, False.elim, fun h => reads_openOn (hfit g) (Or.inl (b h))⟩
  read := fun g h hf ho => reads_openOn (hfit g) (Or.inl (held_isOpen hf ho))

end Verif.GridTable
