import Verif.Proofs.RelocateRun

/-! Which of the parameters given to the solver are free (dd.cpp:868-975). -/

set_option linter.unusedSectionVars false
set_option linter.unusedSimpArgs false

namespace Verif.Relocate
open Verif.Catalog Verif.Solver

variable {K : Type} [Field K] [LinearOrder K]

theorem relocate_free {a : Args K} (hg : GoodArgs a) {cat r : Catalog K} (hs : cat.Sound) (hn : NoAt cat)
    {log : List (IterLog K)} (h : relocate a cat = .ok (r, log)) :
    ∀ x ∈ log, ∀ q ∈ parOf x.ops,
      (q.free = true ∧ q.ev ∈ a.cluster.map (·.1)) ∨
      (q.free = !a.o.keepNeighboursFixed ∧ ∃ kv ∈ a.cluster, q.ev ∈ kv.2.ids) := by
  have hrun := (relocate_run h).1
  have hrel := hrun.rel hg (Rel.refl hs hn) (Or.inl rfl)
  intro x hx q hq
  obtain ⟨i, hi⟩ := List.getElem?_of_mem hx
  have hops : ∃ (p c : Catalog K) (st : ObserveState K),
      ObserveInv a.env a.o.keepNeighboursFixed p c a.cluster st ∧ st.ops = x.ops := by
    cases i with
    | zero =>
      have : IterOk a 0 Catalog.init cat x := by
        cases hrun with
        | last _ hi' _ _ => simp at hi; subst hi; exact hi'
        | step hi' _ _ _ => simp at hi; subst hi; exact hi'
      obtain ⟨_, st, c, _, b, _⟩ := this.spec hg (Rel.refl hs hn) (Or.inl rfl)
      exact ⟨_, _, st, c, b⟩
    | succ i =>
      have hlen : i < log.length := by
        have := (List.getElem?_eq_some_iff.1 hi).1; omega
      have hz : log[i]? = some log[i] := List.getElem?_eq_getElem hlen
      have := (hrun.link i log[i] x hz hi).1
      obtain ⟨_, st, c, _, b, _⟩ := this.spec hg (hrel x hx).1 (Or.inr (hrel _ (List.getElem_mem hlen)).2)
      exact ⟨_, _, st, c, b⟩
  obtain ⟨p, c, st, hinv, hst⟩ := hops
  rw [← hst] at hq
  exact hinv.free q hq

end Verif.Relocate
