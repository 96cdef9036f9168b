import Verif.Proofs.NllGrid

/-! C46: grids that cannot be loaded, and file descriptors. -/

set_option linter.unusedSectionVars false
set_option linter.unusedSimpArgs false

namespace Verif.NllGrid
open Verif.Grid

variable {S G : Type} [DecidableEq S] [DecidableEq G]

/-- **C46 (no grid).** When no grid within the search distance is found for a station, that request throws and
so does every later one for the same station and phase, whatever happens in between and whatever a search
would then find; none of them touches a file. -/
theorem missing_grid_not_searched_again (n : Nat) (mode : Mode) (m0 : G → Mode) (before after : List (Op S G))
    {k : Key S} {i : Input G} (hk : ∀ p, k ≠ .velocity p)
    (hnot : ¬ Cached (run (init n mode m0) before) k) (hnone : ∀ g, i.found = some g → i.tooFar = true) :
    let s := run (init n mode m0 : State S G) before
    let s' := run (access s k i).1 after
    (access s k i).2 = .throws ∧ (access s k i).1.handles = s.handles ∧
    ∀ i', (access s' k i').2 = .throws ∧ (access s' k i').1.handles = s'.handles := by
  intro s s'
  have hwf : Lru.WF s.cache := (run_later before (s := init n mode m0) (Lru.init_WF n)).wf
  obtain ⟨h1, h2, h3, h4, h5, h6, h7⟩ := access_keys hwf k i
  obtain ⟨a, b, c⟩ := h7 hnot hnone
  refine ⟨a, c, fun i' => ?_⟩
  have hl := run_later after h1
  have hun : k ∈ (access s k i).1.unloadables := h5 a (Or.inl hk)
  obtain ⟨_, _, _, _, _, g6, _⟩ := access_keys hl.wf k i'
  obtain ⟨x, y, _⟩ := g6 (hl.un hun) (fun hc => b (hl.cached k hun hc))
  exact ⟨x, y⟩

/-- **C46 (failed grid).** After a request that threw although a grid was found, the grid is given up: once its
key has left the list of grids in use (it stays there until evicted, see `failed_load_is_used_later`) every
request for it throws without touching a file, and it never enters the list again. -/
theorem failed_grid_given_up (n : Nat) (mode : Mode) (m0 : G → Mode) (before mid after : List (Op S G))
    {k : Key S} {i : Input G} (hfound : i.found ≠ none)
    (hfail : (access (run (init n mode m0 : State S G) before) k i).2 = .throws)
    (hgone : ¬ Cached (run (access (run (init n mode m0 : State S G) before) k i).1 mid) k) :
    let s' := run (run (access (run (init n mode m0 : State S G) before) k i).1 mid) after
    ¬ Cached s' k ∧ ∀ i', (access s' k i').2 = .throws ∧ (access s' k i').1.handles = s'.handles := by
  intro s'
  have hwf : Lru.WF (run (init n mode m0 : State S G) before).cache :=
    (run_later before (s := init n mode m0) (Lru.init_WF n)).wf
  obtain ⟨h1, h2, h3, h4, h5, h6, h7⟩ := access_keys hwf k i
  have hun := h5 hfail (Or.inr hfound)
  have hl := run_later mid h1
  have hl' := run_later after hl.wf
  have hno : ¬ Cached s' k := fun hc => hgone (hl'.cached k (hl.un hun) hc)
  refine ⟨hno, fun i' => ?_⟩
  obtain ⟨_, _, _, _, _, g6, _⟩ := access_keys hl'.wf k i'
  obtain ⟨x, y, _⟩ := g6 (hl'.un (hl.un hun)) hno
  exact ⟨x, y⟩

/-! ## Descriptors -/

/-- the operating system fails no call of an opening -/
def Works (os : Answers) : Prop := ∃ f, os.file = some f ∧ os.statOk = true ∧ os.mapOk = true ∧ os.delivered = some f.length

theorem useGrid_no_fd {s : State S G} {k : Key S} {g : G} {os : Answers} (hm : s.mode ≠ .pread)
    (hw : Works os) (h : ∀ g, (s.handles g).fd = none) : ∀ g', ((useGrid s k g os).1.handles g').fd = none := by
  obtain ⟨f, w1, w2, w3, w4⟩ := hw
  intro g'
  unfold useGrid
  split
  · exact h g'
  · rename_i ho
    have hopen : ((s.handles g).open s.mode os).1.fd = none ∧ ((s.handles g).open s.mode os).2 = true := by
      unfold Handle.open
      rw [if_neg ho]
      simp only [h g, Option.none_or, w1, w2, w3, w4, Bool.not_true, Bool.false_eq_true, if_false]
      cases hmode : s.mode with
      | pread => exact absurd hmode hm
      | mmap => cases (s.handles g).mapped <;> simp
      | loadIntoMemory => simp
    split
    · rename_i h' heq
      rw [heq] at hopen
      simp only [setHandle]
      split
      · exact hopen.1
      · exact h g'
    · rename_i h' heq
      rw [heq] at hopen
      exact absurd hopen.2 (by simp)

theorem closeAll_fd {h : G → Handle} (l : List (Key S × G)) (hf : ∀ g, (h g).fd = none) :
    ∀ g, (closeAll h l g).fd = none := by
  induction l generalizing h with
  | nil => exact hf
  | cons p l ih =>
    apply ih
    intro g
    simp only [setHandle]
    split
    · rfl
    · exact hf g

theorem access_no_fd {s : State S G} (hm : s.mode ≠ .pread) {k : Key S} {i : Input G}
    (hw : Works i.os) (h : ∀ g, (s.handles g).fd = none) :
    ∀ g', ((access s k i).1.handles g').fd = none := by
  unfold access
  cases hg : Lru.get s.cache k with
  | none => exact h
  | some p =>
    obtain ⟨c, r⟩ := p
    cases r with
    | some g => exact useGrid_no_fd (s := { s with cache := c }) hm hw h
    | none =>
      simp only
      split
      · exact h
      · cases i.found with
        | none => cases k <;> exact h
        | some g =>
          simp only
          split
          · exact h
          · cases hp : Lru.put c k g with
            | none => exact h
            | some q =>
              obtain ⟨c', ev⟩ := q
              exact useGrid_no_fd (s := { s with cache := c', handles := closeAll s.handles ev }) hm hw (closeAll_fd ev h)

/-- **C46 (descriptors).** With the files mapped or loaded into memory, no file descriptor stays open between
requests, however many grids are in use, as long as the operating system fails no call. -/
theorem no_descriptor_kept (n : Nat) {mode : Mode} (hm : mode ≠ .pread) (m0 : G → Mode) (hist : List (Op S G))
    (hw : ∀ o ∈ hist, ∀ l, o = .compute l → ∀ p ∈ l, Works p.2.os) (g : G) :
    ((run (init n mode m0 : State S G) hist).handles g).fd = none := by
  have hcomp : ∀ (l : List (Key S × Input G)) (s : State S G), Lru.WF s.cache → s.mode ≠ .pread →
      (∀ p ∈ l, Works p.2.os) → (∀ g, (s.handles g).fd = none) → ∀ g, ((compute s l).1.handles g).fd = none := by
    intro l
    induction l with
    | nil => intro s _ _ _ h; exact h
    | cons p l ih =>
      intro s hwf hm hw h
      obtain ⟨k, i⟩ := p
      have h1 := access_later hwf k i
      have h2 := access_no_fd (s := s) (k := k) (i := i) hm (hw (k, i) List.mem_cons_self) h
      unfold compute
      cases ha : access s k i with
      | mk s' r =>
        rw [ha] at h1 h2
        cases r with
        | ok r =>
          have h3 := ih s' h1.wf (by rw [h1.mode]; exact hm) (fun p hp => hw p (List.mem_cons_of_mem _ hp)) h2
          simp only
          cases hc : compute s' l with
          | mk s'' rs =>
            rw [hc] at h3
            cases rs <;> exact h3
        | throws => exact h2
        | ub => exact h2
  have key : ∀ (hist : List (Op S G)) (s : State S G), Lru.WF s.cache → s.mode ≠ .pread →
      (∀ o ∈ hist, ∀ l, o = .compute l → ∀ p ∈ l, Works p.2.os) → (∀ g, (s.handles g).fd = none) →
      ∀ g, ((run s hist).handles g).fd = none := by
    intro hist
    induction hist with
    | nil => intro s _ _ _ h; exact h
    | cons o hist ih =>
      intro s hwf hm hw h
      have hl := run_later [o] hwf
      refine ih (step s o).1 hl.wf (by rw [show (step s o).1.mode = s.mode from hl.mode]; exact hm)
        (fun o ho => hw o (List.mem_cons_of_mem _ ho)) ?_
      cases o with
      | compute l => exact hcomp l s hwf hm (hw _ List.mem_cons_self l rfl) h
      | closeOpenFiles => exact h
  exact key hist _ (Lru.init_WF n) hm hw (fun _ => rfl) g

/-- **C46 (negative).** A failed call leaves the descriptor open although the request threw. -/
theorem failed_map_keeps_descriptor :
    ∃ req : Op Nat Nat, (step (init 5 .mmap (fun _ => .pread) : State Nat Nat) req).2 = .throws ∧
      ((step (init 5 .mmap (fun _ => .pread) : State Nat Nat) req).1.handles 0).fd = some [1] :=
  ⟨.compute [(.time "P" 0, ⟨some 0, false, { file := some [1], mapOk := false, delivered := some 1 }⟩)], by rfl, by rfl⟩

/-! ## Concrete cases -/

/-- three stations share one file; the second station has no grid, and still has none when a search would find
one -/
example :
    let s := run (init 1 .mmap (fun _ => .pread) : State Nat Nat) [.compute [(.time "P" 0, ⟨some 0, false, fine [1]⟩)]]
    let s1 := (access s (.time "P" 1) ⟨none, false, fine [1]⟩).1
    let s2 := run s1 [.compute [(.time "P" 2, ⟨some 2, false, fine [1]⟩)], .closeOpenFiles]
    (access s2 (.time "P" 1) ⟨some 1, false, fine [1]⟩).2 = .throws ∧ (s2.handles 2).holds = true ∧
      (s2.handles 2).fd = none := by
  refine ⟨?_, by decide +kernel, by decide +kernel⟩
  exact ((missing_grid_not_searched_again 1 .mmap (fun _ => .pread)
    [.compute [(.time "P" 0, ⟨some 0, false, fine [1]⟩)]]
    [.compute [(.time "P" 2, ⟨some 2, false, fine [1]⟩)], .closeOpenFiles] (k := .time "P" 1)
    (i := ⟨none, false, fine [1]⟩) (by simp) (by
      rintro ⟨g, hg⟩
      have h : (Lru.content (run (init 1 .mmap (fun _ => .pread) : State Nat Nat)
        [.compute [(.time "P" 0, ⟨some 0, false, fine [1]⟩)]]).cache).map Prod.fst = [.time "P" 0] := by decide +kernel
      have hm := List.mem_map_of_mem (f := Prod.fst) hg
      rw [h] at hm
      simp at hm) (by simp)).2.2 _).1

/-- a grid whose mapping failed, evicted afterwards: every later request throws although it would work now -/
example : (access (run (init 1 .mmap (fun _ => .pread) : State Nat Nat)
      [.compute [(.time "P" 0, ⟨some 0, false, { file := some [1], mapOk := false, delivered := none }⟩)],
       .compute [(.time "P" 1, ⟨some 1, false, fine [1]⟩)]]) (.time "P" 0) ⟨some 0, false, fine [1]⟩).2 matches .throws := by
  decide +kernel

end Verif.NllGrid
