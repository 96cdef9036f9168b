import Verif.Base.AMap

/-!
# Model of the splitting of waveform requests into connections
(libs/hddsc/waveform.cpp:139-276, `WaveformProxy::loadTraces`)

Time windows are pairs of integers.  SeisComP's `overlaps`, `contiguous` and the 10 % tolerance only
decide *whether* a window is merged, so the decision is a parameter `joins` (lines 230-246).
`merge` is the hull of two windows (SeisComP `TimeWindow::operator|`).  Opening a connection is assumed
to succeed (lines 188-194).  The multimap is a list of (net.sta key, request) in iteration order.
After the first element of the group is erased the loop compares a live iterator with the erased
one (`it2 == eqlrng.first`, line 225): modelled as "not equal", which is what happens in practice.
-/

namespace Verif.Requests

/-- A time window -/
structure TW where
  start : Int
  stop : Int
deriving DecidableEq, Repr

/-- SeisComP `TimeWindow::merge` (used in lines 232, 238, 244) -/
def TW.merge (a b : TW) : TW := ⟨min a.start b.start, max a.stop b.stop⟩

/-- libs/hddsc/waveform.cpp:145-149 -/
structure Req where
  net : String
  sta : String
  loc : String
  ch : String
  tw : TW
deriving DecidableEq, Repr

/-- key net.sta: waveform.cpp:174. The codes have no dots (they come from splitting at dots, line
163), so the pair is used instead of the joined string. -/
def Req.key (r : Req) : String × String := (r.net, r.sta)

/-- Body of the inner loop, waveform.cpp:205-253, for the elements after the first. The accumulator
is `contiguousRequest` and the requests left in the map. -/
def mergeStep (joins : TW → TW → Bool) (req : Req) (acc : TW × List Req) (r : Req) :
    TW × List Req :=
  if req.loc = r.loc ∧ req.ch = r.ch ∧ joins acc.1 r.tw then (acc.1.merge r.tw, acc.2)
  else (acc.1, acc.2 ++ [r])

/-- One station of one connection, waveform.cpp:199-258: the stream that is requested (lines
255-256) and the requests left over. -/
def mergeGroup (joins : TW → TW → Bool) (req : Req) (rest : List Req) : Req × List Req :=
  let (tw, left) := rest.foldl (mergeStep joins req) (req.tw, [])
  ({ req with tw := tw }, left)

/-- One connection: the loop over the stations, waveform.cpp:199-258. `todo` is the part of the map
not yet visited; equal keys are visited together. -/
def connection (joins : TW → TW → Bool) : List Req → List Req × List Req
  | [] => ([], [])
  | req :: todo =>
    let (stream, left) := mergeGroup joins req (todo.filter (fun r => r.key = req.key))
    let (streams, lefts) := connection joins (todo.filter (fun r => r.key ≠ req.key))
    (stream :: streams, left ++ lefts)
termination_by l => l.length
decreasing_by
  simp only [List.length_cons, List.length_unattach]
  refine Nat.lt_succ_of_le (Nat.le_trans (List.length_filter_le _ _) ?_)
  simp

/-- `while (!staReq.empty())`, waveform.cpp:186-276; the fuel bounds the number of connections -/
def connections (joins : TW → TW → Bool) : Nat → List Req → List (List Req) × List Req
  | 0, l => ([], l)
  | _ + 1, [] => ([], [])
  | n + 1, l =>
    let (streams, left) := connection joins l
    let (more, final) := connections joins n left
    (streams :: more, final)

/-- The window sent to the server ends 1 % later (integer microseconds, C++ division truncates):
waveform.cpp:166-172 -/
def prepare (r : Req) : Req :=
  { r with tw := ⟨r.tw.start, r.tw.stop + (r.tw.stop - r.tw.start).tdiv 100⟩ }

/-- The streams requested on each connection for the caller's requests: waveform.cpp:156-276 -/
def loadConnections (joins : TW → TW → Bool) (l : List Req) : List (List Req) :=
  (connections joins (l.map prepare).length (l.map prepare)).1

end Verif.Requests
