import Verif.Model.DebugTracks
import Verif.Model.RoundedNewton

/-!
# The program `lcio_debug_tracks` in double precision

As in `Verif.Model.DebugTracks`, with the arithmetic of Model/RoundedArith.
-/

open Classical

noncomputable section

namespace Verif

namespace Rnd

namespace Dbg

open Refit (TrkHit)
open DebugTracks (DbgIn DbgOut fillSurfaces)

/-- the parameters, lcio_debug_tracks.cpp:110-124 -/
def parameters (fl : ℝ → ℝ) (ts : TrackState) : TP :=
  let mm := mmD fl
  let iTP := TP.default
  let iTP := iTP.setHp ![divD fl ts.omega mm, ts.tanLambda, ts.phi, mulD fl ts.d0 mm, mulD fl ts.z0 mm]
  iTP.setRef ⟨mulD fl ts.ref.x mm, mulD fl ts.ref.y mm, mulD fl ts.ref.z mm⟩

/-- the position of a new hit, lcio_debug_tracks.cpp:178 -/
def inMm (fl : ℝ → ℝ) (x : V3) : V3 := ⟨divD fl x.x (mmD fl), divD fl x.y (mmD fl), divD fl x.z (mmD fl)⟩

/-- the loop over the hits, lcio_debug_tracks.cpp:139-203 -/
def newHits (fl : ℝ → ℝ) (lm : Libm) (at2 : ℝ → ℝ → ℝ) (asn atn : ℝ → ℝ) (surfMap : ℤ → Option Surface) (recode : TrkHit → ℤ) (tp : TP) :
    List TrkHit → Out (List V3)
  | [] => .ok []
  | h :: rest =>
    match surfMap (recode h) with
    | none => newHits fl lm at2 asn atn surfMap recode tp rest
    | some surf => do
      let hit ← intersectWithSurface fl lm at2 asn atn surf tp.hp tp.rp 0 V3.zero 0 true
      let more ← newHits fl lm at2 asn atn surfMap recode tp rest
      pure (if hit.found then inMm fl hit.xx :: more else more)

/-- an event with a single track, lcio_debug_tracks.cpp:108-205 -/
def event (fl : ℝ → ℝ) (lm : Libm) (at2 : ℝ → ℝ → ℝ) (asn atn : ℝ → ℝ) (surfMap : ℤ → Option Surface) (recode : TrkHit → ℤ) (trk : DbgIn) :
    Out DbgOut :=
  match trk.atLastHit with
  | none => .ub "null pointer: track state at last hit"
  | some ts => do
    let hits ← newHits fl lm at2 asn atn surfMap recode (parameters fl ts) trk.hits
    pure ⟨ts, hits⟩

/-- the event loop, lcio_debug_tracks.cpp:86-206: the tracks of the events handed to the writer -/
def events (fl : ℝ → ℝ) (lm : Libm) (at2 : ℝ → ℝ → ℝ) (asn atn : ℝ → ℝ) (surfMap : ℤ → Option Surface) (recode : TrkHit → ℤ) :
    List (List DbgIn) → Out (List DbgOut)
  | [] => .ok []
  | [trk] :: rest => do
    let o ← event fl lm at2 asn atn surfMap recode trk
    let os ← events fl lm at2 asn atn surfMap recode rest
    pure (o :: os)
  | _ :: rest => events fl lm at2 asn atn surfMap recode rest

/-- the program, lcio_debug_tracks.cpp:39-210 -/
def program (fl : ℝ → ℝ) (lm : Libm) (at2 : ℝ → ℝ → ℝ) (asn atn : ℝ → ℝ) (surfaces : List Surface) (recode : TrkHit → ℤ)
    (evts : List (List DbgIn)) : Out (List DbgOut) :=
  events fl lm at2 asn atn (fillSurfaces (fun _ => none) surfaces) recode evts

end Dbg

end Rnd

end Verif
