import Verif.Model.Refit

/-!
# The example program `lcio_debug_tracks`

Model of `examples/lcio_tracks/lcio_debug_tracks.cpp`, a program that writes hits at the places where a track crosses the surfaces of
its hits.  Reading and writing of the files and text output are left out: the input is a list of events with their tracks, the
output the list of tracks of the events handed to the writer.  The bit field of LCIO is an arbitrary function `recode` from a hit to
the number of its surface.
-/

open Classical

noncomputable section

namespace Verif

namespace DebugTracks

open Refit

/-- `EVENT::Track`: the state at the last hit (null if there is none) and the hits -/
structure DbgIn where
  atLastHit : Option TrackState
  hits : List TrkHit

/-- the track written: a copy of the state and the positions of the new hits (numbers of double precision) -/
structure DbgOut where
  state : TrackState
  hits : List V3

/-- `surfMap`, lcio_debug_tracks.cpp:53-57 -/
def fillSurfaces (m : ℤ → Option Surface) : List Surface → ℤ → Option Surface
  | [] => m
  | surf :: rest => fillSurfaces (fun id => if id = surf.id then some surf else m id) rest

/-- the parameters, lcio_debug_tracks.cpp:110-124 -/
def parameters (ts : TrackState) : TP :=
  let iTP := TP.default
  let iTP := iTP.setHp ![ts.omega / unit_mm, ts.tanLambda, ts.phi, ts.d0 * unit_mm, ts.z0 * unit_mm]
  iTP.setRef ⟨ts.ref.x * unit_mm, ts.ref.y * unit_mm, ts.ref.z * unit_mm⟩

/-- the position of a new hit, lcio_debug_tracks.cpp:178 -/
def inMm (x : V3) : V3 := ⟨x.x / unit_mm, x.y / unit_mm, x.z / unit_mm⟩

/-- the loop over the hits, lcio_debug_tracks.cpp:139-203 -/
def newHits (surfMap : ℤ → Option Surface) (recode : TrkHit → ℤ) (tp : TP) : List TrkHit → Out (List V3)
  | [] => .ok []
  | h :: rest =>
    match surfMap (recode h) with
    | none => newHits surfMap recode tp rest
    | some surf => do
      let hit ← intersectWithSurface surf tp.hp tp.rp 0 V3.zero 0 true
      let more ← newHits surfMap recode tp rest
      pure (if hit.found then inMm hit.xx :: more else more)

/-- an event with a single track, lcio_debug_tracks.cpp:108-205 -/
def event (surfMap : ℤ → Option Surface) (recode : TrkHit → ℤ) (trk : DbgIn) : Out DbgOut :=
  match trk.atLastHit with
  | none => .ub "null pointer: track state at last hit"
  | some ts => do
    let hits ← newHits surfMap recode (parameters ts) trk.hits
    pure ⟨ts, hits⟩

/-- the event loop, lcio_debug_tracks.cpp:86-206: the tracks of the events handed to the writer -/
def events (surfMap : ℤ → Option Surface) (recode : TrkHit → ℤ) : List (List DbgIn) → Out (List DbgOut)
  | [] => .ok []
  | [trk] :: rest => do
    let o ← event surfMap recode trk
    let os ← events surfMap recode rest
    pure (o :: os)
  | _ :: rest => events surfMap recode rest

/-- the program, lcio_debug_tracks.cpp:39-210 -/
def program (surfaces : List Surface) (recode : TrkHit → ℤ) (evts : List (List DbgIn)) : Out (List DbgOut) :=
  events (fillSurfaces (fun _ => none) surfaces) recode evts

end DebugTracks

end Verif
