import Verif.Spec.Preload
import Verif.Model.PreloadReport

/-!
# What the numbers reported after filling the disk cache should say (C112)
-/

namespace Verif.PreloadSpec
open Verif.Catalog Verif.Access Verif.Preload

/-- the cache file of a load; the empty name if its window cannot be computed -/
def fileOf (s : Settings) (x : TimeWindow × Phase ℝ) : List Char :=
  match Waveform.windowToLoad s.before s.after x.1 x.2.time with
  | .ok w => Waveform.phaseId w x.2
  | _ => []

/-- the cache files of the waveforms of an event, one for each time that a component of a pick needs one -/
noncomputable def filesOf (s : Settings) (cat : Catalog ℝ) (ev : Event ℝ) : List (List Char) :=
  match concatM (pickLoads s ev) (cat.phasesOf ev.id) with
  | .ok ls => ls.map (fileOf s)
  | _ => []

/-- those of all events -/
noncomputable def files (s : Settings) (cat : Catalog ℝ) : List (List Char) := (events cat).flatMap (filesOf s cat)

/-- the file is in the cache and can be read -/
def readable (fs : Files) (name : List Char) : Bool :=
  match fs.find? name with
  | some (.readable _) => true
  | _ => false

end Verif.PreloadSpec
