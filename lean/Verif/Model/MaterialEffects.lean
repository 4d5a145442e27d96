import Verif.Model.Refit

/-!
# The example program `material_effects`

Model of `examples/material_effects/material_effects.cpp`, a program that refits the track of each event with a single track.
`compute_start_helix` is 0 as in the source.  Reading and writing of the files, the (never filled) tree of residuals and text output
are left out: the input is a list of events with their tracks, the output the list of tracks of the events handed to the writer.
The types of `Verif.Model.Refit` are used; `oneD` of `Setup` plays no role.
-/

open Classical

noncomputable section

namespace Verif

namespace MatEff

open Refit

/-- `hitMap`, a `map<long, TrackerHit*>`; `long` has 64 bits, so numbers are not changed -/
abbrev HitMap := ℤ → Option TrkHit

/-- `hitMap[hitid] = hit` -/
def enter (m : HitMap) (h : TrkHit) : HitMap := fun id => if id = h.cellID0 then some h else m id

/-- the loop over the raw hits, material_effects.cpp:248-256; null if the object is no `TrackerHitPlane` -/
def enterRaw (m : HitMap) : List (Option TrkHit) → HitMap
  | [] => m
  | none :: rest => enterRaw m rest
  | some h :: rest => if h.planar.isSome then enterRaw (enter m h) rest else enterRaw m rest

/-- the loop over the hits of the track, material_effects.cpp:233-258 -/
def fillMap (m : HitMap) : List TrackHit → HitMap
  | [] => m
  | h :: rest => fillMap (if h.composite then enterRaw m h.raw else enter m h.hit) rest

/-- `precision`, material_effects.cpp:299-304 -/
def precision (du dv : Dbl) : List Dbl :=
  ifc Dbl.eqv dv 0 then [1 / (du * du)] else [1 / (du * du), 1 / (dv * dv)]

/-- the loop over the crossed surfaces, material_effects.cpp:263-319, with the hits put into the output track.  `id` is the address
of the local variable `ID`. -/
def addAll (env : Env) (id : ℕ) (m : HitMap) (t : Traj) (used : List ℕ) : List (Dbl × Surface) → Out (Traj × List ℕ)
  | [] => .ok (t, used)
  | (_, surf) :: rest =>
    match m surf.id with
    | some h => do
      let (du, dv) ← resolution h
      let (t', r) := t.step env (.measurement (scaled h.pos) (precision du dv) surf id true)
      let _ ← r
      addAll env id m t' (used ++ [h.addr]) rest
    | none =>
      ifc surf.innerMaterial.density < (1e-6 : Dbl) ∧ surf.outerMaterial.density < (1e-6 : Dbl) then addAll env id m t used rest
      else do
        let (t', r) := t.step env (.scatterer surf)
        let _ ← r
        addAll env id m t' used rest

/-- the trajectory that is fitted, and the hits of the output track, material_effects.cpp:224-322 -/
def trajectory (S : Setup) (id : ℕ) (m : HitMap) (tp : TP) : Out (Traj × List ℕ) := do
  let (t, r) := (Traj.make tp).getIntersections S.sortI S.surfaces
  let crossed ← r
  let (t, used) ← addAll S.env id m t [] crossed
  let t ← t.prepareForFitting S.env S.sortE
  pure (t, used)

/-- writing of a result, material_effects.cpp:361-376 -/
def write (fl : ℝ → ℝ) (used : List ℕ) (r : FitResults) : OutTrack :=
  let ts := createLCIO fl r.estParams
  let ts : TrackState := { ts with ref := V3.zero, location := 1 }
  ⟨used, narrow fl r.chisquare, toInt r.ndf, used.length, [ts]⟩

/-- an event with a single track, material_effects.cpp:177-376, with the state of the fitter; `m` is the content of `hitMap`
before.  The trajectory lives at address `i` and is gone afterwards. -/
def refit (S : Setup) (i id : ℕ) (w : World) (m : HitMap) (trk : InTrack) : Out (World × OutTrack) := do
  let iTP ← readLCIO trk.state
  let (t, used) ← trajectory S id (fillMap m trk.hits) iTP
  let w := w.step S.gbl (.setTraj i (some (t, S.env.field)))
  let (w, success) := w.fit S.gbl i
  let _ ← success
  let (w, address) := w.getResults 0
  let address ← address
  match w.heap address with
  | none => .ub "the result does not exist any more"
  | some r => pure (w.step S.gbl (.setTraj i none), write S.fl used r)

/-- the event loop, material_effects.cpp:142-382: the output tracks of the events handed to the writer.  `hitMap` is cleared
after an event has been written; an event without or with several tracks does not change it. -/
def events (S : Setup) (i id : ℕ) (w : World) (m : HitMap) : List (List InTrack) → Out (List OutTrack)
  | [] => .ok []
  | [trk] :: rest => do
    let (w, o) ← refit S i id w m trk
    let os ← events S i id w (fun _ => none) rest
    pure (o :: os)
  | _ :: rest => events S i id w m rest

end MatEff

end Verif
