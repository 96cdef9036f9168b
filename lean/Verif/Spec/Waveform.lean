import Verif.Model.Waveform

/-!
# Specification side of the waveform caches and loaders (C37–C41)
-/

namespace Verif.Waveform
open Verif.Catalog (Phase Event Station)
variable {D : Type}

/-- two phases are recorded on the same stream -/
def SameStream (p q : Phase D) : Prop :=
  p.networkCode = q.networkCode ∧ p.stationCode = q.stationCode ∧ p.locationCode = q.locationCode ∧
    p.channelCode = q.channelCode

/-- no code of the phase contains a dot -/
def PlainPhase (p : Phase D) : Prop :=
  '.' ∉ p.networkCode.toList ∧ '.' ∉ p.stationCode.toList ∧ '.' ∉ p.locationCode.toList ∧ '.' ∉ p.channelCode.toList

/-- a time from 1970 to the end of year 9999 -/
def PlainTime (t : Int) : Prop := 0 ≤ t ∧ (Utc.toDate t).date.year ≤ 9999

def PlainWindow (tw : TimeWindow) : Prop := PlainTime tw.startTime ∧ PlainTime tw.endTime

/-- the first answer given for `key` in a history of (key, answer) -/
def firstAnswer {K A : Type} [DecidableEq K] (past : List (K × A)) (key : K) : Option A :=
  (past.find? (fun p => decide (p.1 = key))).map (·.2)

/-- Two requests ask for the same waveform as far as window, stream and transformation tell. -/
def SameWaveform (r s : Request) : Prop :=
  r.tw = s.tw ∧ r.trans = s.trans ∧ r.ph.networkCode = s.ph.networkCode ∧ r.ph.stationCode = s.ph.stationCode ∧
    r.ph.locationCode = s.ph.locationCode ∧
    (if r.trans = .none then r.ph.channelCode = s.ph.channelCode
     else bandAndInstrument r.ph.channelCode.toList = bandAndInstrument s.ph.channelCode.toList)

/-- The remaining request parameters that influence the result. -/
def SameProcessing (r s : Request) : Prop :=
  r.filterStr = s.filterStr ∧ r.resampleFreq = s.resampleFreq ∧
    (r.trans = .radial ∨ r.trans = .transversal →
      r.ev.latitude = s.ev.latitude ∧ r.ev.longitude = s.ev.longitude ∧
      r.sta.latitude = s.sta.latitude ∧ r.sta.longitude = s.sta.longitude)

/-- a request whose id can be told from the others: no dots in the codes, times from 1970 on, and a raw
channel is not called like a transformed one -/
def PlainRequest (r : Request) : Prop :=
  PlainPhase r.ph ∧ PlainWindow r.tw ∧
    (r.trans = .none → ∀ c ∈ ['R', 'T', 'L'], ∀ root : List Char, root.length = 2 ∨ root = [] →
      r.ph.channelCode.toList ≠ root ++ [c])

end Verif.Waveform

/-!
## Orientation of sensors
-/

namespace Verif.Waveform
noncomputable section

/-- direction (east, north, up) of a component with the given azimuth (degrees clockwise from north) and dip
(degrees down from the horizontal) -/
def direction (azimuth dip : ℝ) : ℝ × ℝ × ℝ :=
  (Real.cos (Geo.degToRad dip) * Real.sin (Geo.degToRad azimuth),
   Real.cos (Geo.degToRad dip) * Real.cos (Geo.degToRad azimuth), -Real.sin (Geo.degToRad dip))

/-- scalar product -/
def dot (a b : ℝ × ℝ × ℝ) : ℝ := a.1 * b.1 + a.2.1 * b.2.1 + a.2.2 * b.2.2

/-- the three components are at right angles (the vertical component has index 0, the horizontal ones 1, 2) -/
def Orthogonal (tc : Components) : Prop :=
  ∀ i j, i ≠ j → dot (direction (tc.azimuth i) (tc.dip i)) (direction (tc.azimuth j) (tc.dip j)) = 0

/-- ground motion (east, north, up) recorded as `v`, `h1`, `h2` -/
def motion (tc : Components) (v h1 h2 : ℝ) : ℝ × ℝ × ℝ :=
  let dv := direction (tc.azimuth 0) (tc.dip 0)
  let d1 := direction (tc.azimuth 1) (tc.dip 1)
  let d2 := direction (tc.azimuth 2) (tc.dip 2)
  (v * dv.1 + h1 * d1.1 + h2 * d2.1, v * dv.2.1 + h1 * d1.2.1 + h2 * d2.2.1, v * dv.2.2 + h1 * d1.2.2 + h2 * d2.2.2)

end
end Verif.Waveform
