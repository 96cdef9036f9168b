import Verif.Model.XCorrBuild
import Verif.Model.Selection

/-!
# What it means that only travel times matter (specification of C117)
-/

namespace Verif.TimeShift
open Verif.Catalog Verif.Relocate

variable {K : Type}

/-- an event that happens later by `d` -/
def laterEvent (d : Int) (e : Event K) : Event K := { e with time := e.time + d }

/-- a pick that is made later by `d` -/
def laterPhase (d : Int) (p : Phase K) : Phase K := { p with time := p.time + d }

/-- The same catalog, each event and all its picks later by an amount of its own: the travel time of
every pick is the same. -/
def later (δ : Nat → Int) (c : Catalog K) : Catalog K :=
  { c with
    events := c.events.map (fun ke => (ke.1, laterEvent (δ ke.2.id) ke.2))
    phases := c.phases.map (fun kp => (kp.1, laterPhase (δ kp.1) kp.2)) }

/-- Travel times do not depend on the time of the event. -/
def TimeFree (env : Env K) : Prop :=
  ∀ (d : Int) (e : Event K) (st : Station K) (ph : String), env.ttt (laterEvent d e) st ph = env.ttt e st ph

/-- Distances do not depend on the time of the event. -/
def TimeFreeGeometry (g : Selection.Geometry K) : Prop :=
  ∀ (d : Int) (e : Event K) (st : Station K), g.staDist (laterEvent d e) st = g.staDist e st

/-- The waveforms move with the events: what the correlation of two picks answers does not depend on
when the events happened, nor do distances. -/
structure TimeFreeXcorr (x : XcorrArgs K) : Prop where
  evSta : ∀ (d : Int) (e : Event K) (st : Station K), x.evSta (laterEvent d e) st = x.evSta e st
  evEv : ∀ (d d' : Int) (e e' : Event K), x.evEv (laterEvent d e) (laterEvent d' e') = x.evEv e e'
  correlate : ∀ (n : Nat) (d d' : Int) (e : Event K) (p : Phase K) (e' : Event K) (p' : Phase K),
    x.correlate n (laterEvent d e) (laterPhase d p) (laterEvent d' e') (laterPhase d' p') = x.correlate n e p e' p'

/-- What an iteration did, with the catalogs later. -/
def laterLog (δ : Nat → Int) (l : IterLog K) : IterLog K :=
  { l with before := later δ l.before, after := later δ l.after }

/-- The result of a relocation, later: the calls of the solver, the parameters, the answers are the same. -/
def laterResult (δ : Nat → Int) (r : Catalog K × List (IterLog K)) : Catalog K × List (IterLog K) :=
  (later δ r.1, r.2.map (laterLog δ))

/-- A call of the correlation of two picks, later. -/
def laterCall (δ : Nat → Int) (c : XcorrCall K) : XcorrCall K :=
  { c with
    refEv := laterEvent (δ c.refEv.id) c.refEv
    refPhase := laterPhase (δ c.refEv.id) c.refPhase
    ev := laterEvent (δ c.ev.id) c.ev
    phase := laterPhase (δ c.ev.id) c.phase }

/-- The result of a multi-event relocation, later. -/
def laterMulti (δ : Nat → Int) (s : MultiState K) : MultiState K :=
  { reloc := later δ s.reloc
    xcorrData := s.xcorrData
    calls := s.calls.map (laterCall δ)
    done := s.done.map (fun d => (d.1, laterResult δ d.2)) }

/-- The amounts of the events, with `d` for the event number `n`. -/
def withEvent (δ : Nat → Int) (n : Nat) (d : Int) : Nat → Int := fun i => if i = n then d else δ i

end Verif.TimeShift
