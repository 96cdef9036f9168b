import Verif.Model.NllGrid
import Verif.Proofs.Lru
import Mathlib.Tactic.Linarith
import Mathlib.Data.List.Perm.Subperm

set_option linter.unusedSectionVars false
set_option linter.unusedSimpArgs false

/-!
# C46: the number of open grid files
-/

namespace Verif.NllGrid
open Verif.Grid

variable {S G : Type} [DecidableEq S] [DecidableEq G]

/-- invariant: whatever holds a resource is referred to by a key of the cache -/
structure Inv (n : Nat) (s : State S G) : Prop where
  wf : Lru.WF s.cache
  size : s.cache.maxSize = n
  bound : (Lru.content s.cache).length ≤ n
  held : ∀ g, (s.handles g).holds = true → ∃ k, (k, g) ∈ Lru.content s.cache

theorem close_holds (h : Handle) : h.close.holds = false := rfl

theorem closeAll_holds (h : G → Handle) (l : List (Key S × G)) (g : G) :
    (closeAll h l g).holds = true → (h g).holds = true ∧ ∀ k, (k, g) ∉ l := by
  induction l generalizing h with
  | nil => intro hh; exact ⟨hh, by simp⟩
  | cons p l ih =>
    intro hh
    obtain ⟨h1, h2⟩ := ih _ hh
    simp only [setHandle] at h1
    by_cases e : g = p.2
    · rw [if_pos e, close_holds] at h1; cases h1
    · rw [if_neg e] at h1
      refine ⟨h1, fun k hk => ?_⟩
      rcases List.mem_cons.1 hk with hk | hk
      · apply e; rw [← hk]
      · exact h2 k hk

theorem useGrid_inv {n : Nat} {s : State S G} {k : Key S} {g : G} (os : Answers)
    (hwf : Lru.WF s.cache) (hs : s.cache.maxSize = n) (hb : (Lru.content s.cache).length ≤ n)
    (hk : ∃ k, (k, g) ∈ Lru.content s.cache)
    (hheld : ∀ g, (s.handles g).holds = true → ∃ k, (k, g) ∈ Lru.content s.cache) :
    Inv n (useGrid s k g os).1 := by
  unfold useGrid
  split
  · exact ⟨hwf, hs, hb, hheld⟩
  · split
    all_goals
      refine ⟨hwf, hs, hb, fun g' hg' => ?_⟩
      simp only [setHandle] at hg'
      by_cases e : g' = g
      · subst e; exact hk
      · rw [if_neg e] at hg'; exact hheld g' hg'

theorem access_inv {n : Nat} (hn : 1 ≤ n) {s : State S G} (hi : Inv n s) (k : Key S) (i : Input G) :
    Inv n (access s k i).1 ∧ (access s k i).2 ≠ .ub := by
  obtain ⟨c, r, hg, hwf, hms, hr, hc⟩ := Lru.get_spec hi.wf k
  -- facts about the cache after `get`
  have hmem : ∀ p, p ∈ Lru.content s.cache → p ∈ Lru.content c := by
    intro p hp
    rw [hc]
    cases hf : AMap.find? (Lru.content s.cache) k with
    | none => exact hp
    | some v =>
      simp only [List.mem_cons, List.mem_filter]
      by_cases e : p.1 = k
      · left
        have hnk : AMap.NodupKeys (Lru.content s.cache) := by
          unfold AMap.NodupKeys AMap.keys; rw [Lru.content_keys]; exact hi.wf.keys
        have := (AMap.mem_iff_find? hnk (k := p.1) (v := p.2)).1 hp
        rw [e, hf] at this
        injection this with this
        exact Prod.ext e this.symm
      · right; exact ⟨hp, by simpa using e⟩
  have hlen : (Lru.content c).length ≤ n := by
    rw [hc]
    cases hf : AMap.find? (Lru.content s.cache) k with
    | none => exact hi.bound
    | some v =>
      have hmm : (k, v) ∈ Lru.content s.cache := AMap.mem_of_find? hf
      have : ((Lru.content s.cache).filter (fun p => p.1 ≠ k)).length < (Lru.content s.cache).length := by
        apply List.length_filter_lt_length_iff_exists.2
        exact ⟨(k, v), hmm, by simp⟩
      have := hi.bound
      simp only [List.length_cons]; omega
  have hheld : ∀ g, (s.handles g).holds = true → ∃ k, (k, g) ∈ Lru.content c := by
    intro g hg; obtain ⟨k', hk'⟩ := hi.held g hg; exact ⟨k', hmem _ hk'⟩
  have hms' : c.maxSize = n := hms.trans hi.size
  have hbase : ∀ u, Inv n { s with cache := c, unloadables := u } := fun u => ⟨hwf, hms', hlen, hheld⟩
  have hnub : ∀ (s : State S G) (g : G), (useGrid s k g i.os).2 ≠ .ub := by
    intro s g; unfold useGrid
    split
    · simp
    · split <;> simp
  unfold access
  rw [hg]
  cases r with
  | some g =>
    refine ⟨useGrid_inv (s := { s with cache := c }) i.os hwf hms' hlen ?_ hheld, hnub _ _⟩
    refine ⟨k, ?_⟩
    simp only [hc, ← hr]; exact List.mem_cons_self
  | none =>
    simp only
    split
    · exact ⟨hbase _, by simp⟩
    · cases hf : i.found with
      | none =>
        simp only
        split
        · exact ⟨hbase _, by simp⟩
        · exact ⟨hbase _, by simp⟩
      | some g =>
        simp only
        split
        · exact ⟨hbase _, by simp⟩
        · obtain ⟨c', cb, hp, hwf', hms2, hct⟩ := Lru.put_spec hwf k g
          rw [hp]
          simp only
          have hn0 : ¬ (c.maxSize = 0) := by omega
          rw [Lru.aput, if_neg hn0] at hct
          simp only at hct
          have hnk : ∀ p ∈ Lru.content c, p.1 ≠ k := by
            have hnone : AMap.find? (Lru.content s.cache) k = none := hr.symm
            rw [hc, hnone]
            intro p hp e
            have := AMap.find?_eq_none.1 hnone
            exact this (List.mem_map.2 ⟨p, hp, e⟩)
          have hfil : (Lru.content c).filter (fun p => p.1 ≠ k) = Lru.content c := by
            rw [List.filter_eq_self]; intro p hp; simpa using hnk p hp
          rw [hfil] at hct
          refine ⟨useGrid_inv (s := { s with cache := c', handles := closeAll s.handles cb }) i.os hwf'
            (hms2.trans hms') ?_ ?_ ?_, hnub _ _⟩
          · -- bound
            split at hct
            · injection hct with h1 _
              simp only [h1, List.length_dropLast, List.length_cons]; omega
            · injection hct with h1 _
              simp only [h1]; omega
          · refine ⟨k, ?_⟩
            split at hct
            · rename_i hgt
              injection hct with h1 _
              simp only [h1]
              have hne : Lru.content c ≠ [] := by
                intro hcn; rw [hcn] at hgt; simp at hgt; omega
              cases hcc : Lru.content c with
              | nil => exact absurd hcc hne
              | cons a l => rw [List.dropLast_cons_of_ne_nil (by simp)]; exact List.mem_cons_self
            · injection hct with h1 _
              simp only [h1]; exact List.mem_cons_self
          · intro g' hg'
            obtain ⟨h1, h2⟩ := closeAll_holds _ _ _ hg'
            obtain ⟨k', hk'⟩ := hheld g' h1
            refine ⟨k', ?_⟩
            split at hct
            · injection hct with e1 e2
              simp only [e1]
              set L := (k, g) :: Lru.content c with hL
              have hne : L ≠ [] := by simp [hL]
              have hin : (k', g') ∈ L := List.mem_cons_of_mem _ hk'
              rw [← List.dropLast_append_getLast hne] at hin
              rcases List.mem_append.1 hin with hin | hin
              · exact hin
              · exfalso
                rw [List.getLast?_eq_some_getLast hne] at e2
                exact h2 k' (by rw [e2]; simpa using hin)
            · injection hct with e1 _
              simp only [e1]; exact List.mem_cons_of_mem _ hk'

theorem compute_inv {n : Nat} (hn : 1 ≤ n) (l : List (Key S × Input G)) {s : State S G} (hi : Inv n s) :
    Inv n (compute s l).1 ∧ (compute s l).2 ≠ .ub := by
  induction l generalizing s with
  | nil => exact ⟨hi, by simp [compute]⟩
  | cons p l ih =>
    obtain ⟨k, i⟩ := p
    have h1 := access_inv hn hi k i
    unfold compute
    cases ha : access s k i with
    | mk s' r =>
      rw [ha] at h1
      cases r with
      | ok r =>
        have h2 := ih h1.1
        simp only
        cases hc : compute s' l with
        | mk s'' rs =>
          rw [hc] at h2
          cases rs with
          | ok rs => exact ⟨h2.1, by simp⟩
          | throws => exact ⟨h2.1, by simp⟩
          | ub => exact absurd rfl h2.2
      | throws => exact ⟨h1.1, by simp⟩
      | ub => exact absurd rfl h1.2

/-- **C46 (partial: without `closeOpenFiles`, at least one file allowed).** After any history of
travel-time requests, whatever the answers of the grid search and of the operating system, at most
`maxOpenFiles` grids hold a file descriptor, a mapping or a loaded file. -/
theorem open_grids_bounded_partial (n : Nat) (hn : 1 ≤ n) (mode : Mode) (m0 : G → Mode)
    (hist : List (Op S G)) (hno : ∀ o ∈ hist, o ≠ .closeOpenFiles) (l : List G) (hl : l.Nodup)
    (hopen : ∀ g ∈ l, ((run (init n mode m0 : State S G) hist).handles g).holds = true) :
    l.length ≤ n := by
  have key : ∀ (hist : List (Op S G)) (s : State S G), Inv n s → (∀ o ∈ hist, o ≠ .closeOpenFiles) →
      Inv n (run s hist) := by
    intro hist
    induction hist with
    | nil => intro s hs _; exact hs
    | cons o hist ih =>
      intro s hs hno
      unfold run
      apply ih _ _ (fun o ho => hno o (List.mem_cons_of_mem _ ho))
      cases o with
      | compute a => exact (compute_inv hn a hs).1
      | closeOpenFiles => exact absurd rfl (hno _ List.mem_cons_self)
  have h0 : Inv n (init n mode m0 : State S G) :=
    ⟨Lru.init_WF n, rfl, by simp [init, Lru.init, Lru.content],
      fun g hg => by simp [init, Handle.holds] at hg⟩
  have hi := key hist _ h0 hno
  have hsub : l ⊆ (Lru.content (run (init n mode m0 : State S G) hist).cache).map Prod.snd := by
    intro g hg
    obtain ⟨k, hk⟩ := hi.held g (hopen g hg)
    exact List.mem_map.2 ⟨_, hk, rfl⟩
  have := (List.subperm_of_subset hl hsub).length_le
  rw [List.length_map] at this
  exact this.trans hi.bound

/-- **C46 (reads).** Every grid a request reads from is open at that moment; the only exception is a
data file of size zero in load-into-memory mode, from which no value can be read. -/
theorem grid_open_when_read (s : State S G) (k : Key S) (i : Input G) {g : G} {h : Handle}
    (hr : (access s k i).2 = .ok (g, h)) :
    (access s k i).1.handles g = h ∧
    (h.isOpen = true ∨ (s.mode = .loadIntoMemory ∧ h.bytes = [])) := by
  have huse : ∀ (s' : State S G) (g' : G), s'.mode = s.mode → (useGrid s' k g' i.os).2 = .ok (g, h) →
      (useGrid s' k g' i.os).1.handles g = h ∧
      (h.isOpen = true ∨ (s.mode = .loadIntoMemory ∧ h.bytes = [])) := by
    intro s' g' hm hu
    unfold useGrid at hu ⊢
    split at hu
    · rename_i ho
      simp only [Outcome.ok.injEq, Prod.mk.injEq] at hu
      obtain ⟨rfl, rfl⟩ := hu
      rw [if_pos ho]; exact ⟨rfl, Or.inl ho⟩
    · rename_i ho
      rw [if_neg ho]
      cases hop : (s'.handles g').open s'.mode i.os with
      | mk h' b =>
        rw [hop] at hu
        cases b with
        | false => simp at hu
        | true =>
          simp only [Outcome.ok.injEq, Prod.mk.injEq] at hu
          obtain ⟨rfl, rfl⟩ := hu
          refine ⟨by simp [setHandle], ?_⟩
          rw [← hm]
          unfold Handle.open at hop
          rw [if_neg ho] at hop
          simp only at hop
          cases hfd : (s'.handles g').fd.or i.os.file with
          | none => rw [hfd] at hop; simp at hop
          | some content =>
            rw [hfd] at hop
            simp only at hop
            split at hop
            · simp at hop
            · cases hmode : s'.mode with
              | mmap =>
                rw [hmode] at hop
                simp only at hop
                split at hop
                · rename_i hmp
                  injection hop with h1 _
                  left; rw [← h1]; simp [Handle.isOpen, hmp]
                · split at hop
                  · injection hop with h1 _
                    left; rw [← h1]; rfl
                  · simp at hop
              | pread =>
                rw [hmode] at hop
                simp only at hop
                injection hop with h1 _
                left; rw [← h1]; rfl
              | loadIntoMemory =>
                rw [hmode] at hop
                simp only at hop
                split at hop
                · injection hop with h1 _
                  rw [← h1]
                  cases hb : (content.take (min (i.os.delivered.getD 0) content.length) ++
                    List.replicate (content.length - min (i.os.delivered.getD 0) content.length) 0) with
                  | nil => right; exact ⟨rfl, rfl⟩
                  | cons a l => left; simp [Handle.isOpen]
                · simp at hop
  unfold access at hr ⊢
  cases hg : Lru.get s.cache k with
  | none => rw [hg] at hr; simp at hr
  | some p =>
    obtain ⟨c, r⟩ := p
    rw [hg] at hr
    cases r with
    | some g' => exact huse _ g' rfl hr
    | none =>
      simp only at hr ⊢
      by_cases hul : k ∈ s.unloadables
      · rw [if_pos hul] at hr; simp at hr
      · rw [if_neg hul] at hr
        rw [if_neg hul]
        cases hf : i.found with
        | none =>
          rw [hf] at hr
          cases k <;> simp at hr
        | some g' =>
          rw [hf] at hr
          simp only at hr ⊢
          by_cases htf : i.tooFar = true
          · rw [if_pos htf] at hr; simp at hr
          · rw [if_neg htf] at hr
            rw [if_neg htf]
            cases hp : Lru.put c k g' with
            | none => rw [hp] at hr; simp at hr
            | some q =>
              obtain ⟨c', ev⟩ := q
              rw [hp] at hr
              exact huse _ g' rfl hr

/-- answers of an operating system where everything works -/
def fine (file : List UInt8) : Answers := { file := some file, delivered := some file.length }

/-- non-vacuity: two files allowed, three stations: the first grid is closed again -/
example : let s := (run (init 2 .mmap (fun _ => .mmap) : State Nat Nat)
      [.compute [(.time "P" 0, ⟨some 0, false, fine [1]⟩)], .compute [(.time "P" 1, ⟨some 1, false, fine [1]⟩)],
       .compute [(.time "P" 2, ⟨some 2, false, fine [1]⟩)]]);
    ((s.handles 0).holds, (s.handles 1).holds, (s.handles 2).holds) = (false, true, true) := by
  decide +kernel

/-- **C46 (negative).** With a maximum of 0 the limit is ignored altogether: every grid asked for stays
open. -/
theorem open_grids_unbounded_at_zero (m : Nat) :
    ∀ g < m, ((run (init 0 .pread (fun _ => .pread) : State Nat Nat)
      ((List.range m).map (fun g => .compute [(.time "P" g, ⟨some g, false, fine [1]⟩)]))).handles g).holds
        = true := by
  -- one request opens the grid and leaves the (empty) cache alone
  have hstep : ∀ (s : State Nat Nat) (g : Nat), s.cache = Lru.init 0 → s.unloadables = [] → s.mode = .pread →
      (∀ g, s.handles g = { mode := .pread } ∨ s.handles g = { mode := .pread, fd := some [1], mappedSize := 1 }) →
      (step s (.compute [(.time "P" g, ⟨some g, false, fine [1]⟩)])).1 =
        { s with handles := (setHandle (setHandle s.handles g { mode := .pread }) g
          { mode := .pread, fd := some [1], mappedSize := 1 }) } := by
    intro s g hc hu hm hh
    have hclose : (s.handles g).close = { mode := .pread } := by
      rcases hh g with h | h <;> rw [h] <;> rfl
    obtain ⟨cache, un, mode, handles⟩ := s
    simp only at hc hu hm hclose
    subst hc; subst hu; subst hm
    simp only [step, compute, access, Lru.get, Lru.init, AMap.find?, Lru.put, if_true, closeAll,
      List.foldl_cons, List.foldl_nil, List.not_mem_nil, if_false, Bool.false_eq_true, useGrid, hclose]
    simp [setHandle, Handle.isOpen, Handle.open, fine]
  have main : ∀ m, let s := (run (init 0 .pread (fun _ => .pread) : State Nat Nat)
        ((List.range m).map (fun g => .compute [(.time "P" g, ⟨some g, false, fine [1]⟩)])));
      s.cache = Lru.init 0 ∧ s.unloadables = [] ∧ s.mode = .pread ∧
      (∀ g, g < m → s.handles g = { mode := .pread, fd := some [1], mappedSize := 1 }) ∧
      (∀ g, m ≤ g → s.handles g = { mode := .pread }) := by
    intro m
    induction m with
    | zero => exact ⟨rfl, rfl, rfl, fun g hg => absurd hg (by omega), fun g _ => rfl⟩
    | succ m ih =>
      have hrun : ∀ (l : List (Op Nat Nat)) (s : State Nat Nat) (o : Op Nat Nat),
          run s (l ++ [o]) = (step (run s l) o).1 := by
        intro l
        induction l with
        | nil => intro s o; rfl
        | cons a l ih => intro s o; exact ih _ o
      simp only [List.range_succ, List.map_append, List.map_cons, List.map_nil, hrun]
      simp only at ih
      set s := run (init 0 .pread (fun _ => .pread) : State Nat Nat)
        ((List.range m).map (fun g => .compute [(.time "P" g, ⟨some g, false, fine [1]⟩)])) with hs
      obtain ⟨h1, h2, h3, h4, h5⟩ := ih
      rw [hstep s m h1 h2 h3 (fun g => by
        rcases Nat.lt_or_ge g m with h | h
        · exact Or.inr (h4 g h)
        · exact Or.inl (h5 g h))]
      refine ⟨h1, h2, h3, fun g hg => ?_, fun g hg => ?_⟩
      · simp only [setHandle]
        by_cases e : g = m
        · rw [if_pos e]
        · rw [if_neg e, if_neg e]; exact h4 g (by omega)
      · simp only [setHandle]
        rw [if_neg (by omega), if_neg (by omega)]; exact h5 g (by omega)
  intro g hg
  rw [(main m).2.2.2.1 g hg]; rfl

/-- **C46 (negative).** `closeOpenFiles` forgets the grids without closing them, so that afterwards more
files than allowed are open. -/
theorem close_open_files_leaks :
    ∃ hist : List (Op Nat Nat), let s := run (init 1 .pread (fun _ => .pread) : State Nat Nat) hist;
      (s.handles 0).holds = true ∧ (s.handles 1).holds = true :=
  ⟨[.compute [(.time "P" 0, ⟨some 0, false, fine [1]⟩)], .closeOpenFiles,
    .compute [(.time "P" 1, ⟨some 1, false, fine [1]⟩)]], by decide +kernel, by decide +kernel⟩

/-- **C46 (negative).** When loading a grid fails half way, the first request throws, but the grid stays
in the cache looking open: the next request reads from it, and the missing part is zeros. -/
theorem failed_load_is_used_later :
    ∃ (req : Op Nat Nat) (bad : Answers), bad.delivered ≠ some 8 ∧ bad.file = some [9, 9, 9, 9, 8, 8, 8, 8] ∧
      req = .compute [(.time "P" 0, ⟨some 0, false, bad⟩)] ∧
      let s := init 5 .loadIntoMemory (fun _ => .pread);
      (step s req).2 = .throws ∧
      ∃ h, (step (step s req).1 req).2 = .ok [(0, h)] ∧
        getBytesAt (⟨1, 1, 2, 0, 0, 0, 1, 1, 1, false⟩ : Info Nat) h 4 0 0 1 = .ok [0, 0, 0, 0] :=
  ⟨_, { file := some [9, 9, 9, 9, 8, 8, 8, 8], delivered := some 4 }, by decide, rfl, rfl,
    by rfl, _, by rfl, by decide +kernel⟩

end Verif.NllGrid
