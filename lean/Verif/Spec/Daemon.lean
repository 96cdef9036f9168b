import Verif.Model.Daemon

/-!
# Which origins the application relocates, and how
-/

namespace Verif.Daemon.Spec
open Verif.Catalog

/-- the origin an object stands for: itself, or the preferred origin of an event if it is known -/
def Target (w : World) : Obj → Origin → Prop
  | .origin o', o => o = o'
  | .event e, o => w.origins e.preferredOriginID = some o

/-- an event stands for its preferred origin; an origin must be the preferred one of its event -/
def Preferred (w : World) : Obj → Prop
  | .event _ => True
  | .origin o => w.preferredOf o.org.publicID = some o.org.publicID

/-- Processing is forced, or the origin passes all the configured filters. -/
def Wanted (cfg : Config) (w : World) (obj : Obj) (o : Origin) : Prop :=
  cfg.forceProcessing = true ∨
    (cfg.onlyPreferredOrigin = true → Preferred w obj) ∧
    (o.manual = some true → cfg.allowManualOrigin = true) ∧
    (o.manual ≠ some true → cfg.allowAutomaticOrigin = true) ∧
    (cfg.acceptedOriginAuthors = [] ∨ ∃ a ∈ cfg.acceptedOriginAuthors, o.author = some a) ∧
    w.blocked o.agencyID = false

/-- the profile has the requested name, or the epicentre is in its region -/
def Fits (cfg : Config) (o : Origin) (p : Profile) : Prop :=
  if cfg.forceProfile = "" then p.inside o.org.latitude o.org.longitude = true else p.name = cfg.forceProfile

/-- `i` is the position of the first profile that fits -/
def Chosen (cfg : Config) (o : Origin) (profs : List (Profile × ProfileState)) (i : Nat) : Prop :=
  (∃ ps, profs[i]? = some ps ∧ Fits cfg o ps.1) ∧ ∀ j < i, ∀ ps, profs[j]? = some ps → ¬ Fits cfg o ps.1

/-- there is something to do for the object: origin `o` with profile `i` -/
def Job (cfg : Config) (w : World) (obj : Obj) (profs : List (Profile × ProfileState)) (o : Origin) (i : Nat) : Prop :=
  Target w obj o ∧ Wanted cfg w obj o ∧ Chosen cfg o profs i

/-- the catalogs differ at most in the initial rms of their first event -/
def SameExceptStartRms (a b : Catalog Num) : Prop :=
  a.stations = b.stations ∧ a.phases = b.phases ∧
    (a.events = b.events ∨ ∃ k e rms, b.eventsSorted.head? = some (k, e) ∧ a.events = b.events.set e.id { e with startRms := rms })

/-- Two relocations: one without cross-correlation and with station distance ratio 1, starting from the catalog; one with the
configured cross-correlation and one ellipsoid, starting from the result of the first, or from the catalog if the first one
gave nothing. -/
structure TwoSteps (p : Profile) (dd : DD) (isManual : Bool) (cat r1 r2 : Catalog Num) : Prop where
  first : dd.relocate cat isManual { p.clustering with minEvStaToInterEvRatio := .num 1 } { p.xcorr with enable := false } = .ok r1
  second : dd.relocate (if isEmpty r1 then cat else r1) isManual { p.clustering with numEllipsoids := 1 } p.xcorr = .ok r2

/-- the phases of an automatic origin have the configured types instead of P and S -/
def Renamed (p : Profile) (isManual : Bool) (a b : Phase Num) : Prop :=
  b = { a with type :=
    if isManual = false ∧ a.type = "P" ∧ p.autoPMap ≠ "" then p.autoPMap
    else if isManual = false ∧ a.type = "S" ∧ p.autoSMap ≠ "" then p.autoSMap
    else a.type }

/-- the event of the origin as it is given to the relocation -/
def Prepared (w : World) (p : Profile) (dd : DD) (o : Origin) (isManual : Bool) (cat : Catalog Num) : Prop :=
  o.manual = some isManual ∧ ∃ cat₀ ids,
    SeisComP.addToCatalog w.source w.inventory w.rawEvent w.rawPhase [o.org] (⟨dd.stations, [], []⟩, []) = .ok (cat₀, ids) ∧
    cat.stations = cat₀.stations ∧ cat.events = cat₀.events ∧
    List.Forall₂ (fun a b => b.1 = a.1 ∧ Renamed p isManual a.2 b.2) cat₀.phases cat.phases

/-- the origin is made of the first event of the catalog and its phases -/
def MadeFrom (cfg : Config) (w : World) (p : Profile) (o : Origin) (r : Catalog Num) (x : Published) : Prop :=
  ∃ k e, r.eventsSorted.head? = some (k, e) ∧
    SeisComP.convertOrigin w.source r (w.order (r.phasesOf e.id)) (some o.org) cfg.author cfg.agencyID p.methodID
      (p.tttType ++ ":" ++ p.tttModel) false w.fresh w.delazi w.nth = .ok x

/-- What relocating origin `o` with a loaded profile gives: `new` is what is published. -/
def Relocated (cfg : Config) (w : World) (p : Profile) (dd : DD) (o : Origin) (new : Option Published) : Prop :=
  ∃ isManual cat r1 r2 r, Prepared w p dd o isManual cat ∧ TwoSteps p dd isManual cat r1 r2 ∧ SameExceptStartRms r r2 ∧
    (isEmpty r2 = true → new = none) ∧ (isEmpty r2 = false → ∃ x, new = some x ∧ MadeFrom cfg w p o r x)

end Verif.Daemon.Spec
