import Verif.Model.Gbl
import Verif.Model.Lcio

/-!
# The example program `lcio_tracks`

Model of `examples/lcio_tracks/lcio_tracks.cpp`, a program that refits the tracks of a file.  The steering parameters have the
values of the source: `compute_start_helix`, `useQMS` true, `run_prefit` false.  Reading and writing of the files is left out:
the input is a list of events with their tracks, the output the list of events handed to the writer.  Text output is left out
(it evaluates `pointAt` without effect).  Numbers of type `float` are real numbers, the sum `cov[0] + cov[2]` is exact.
-/

open Classical

noncomputable section

namespace Verif

namespace Refit

/-- `EVENT::TrackerHit`, or `EVENT::TrackerHitPlane` if `planar` is given: what the program reads -/
structure TrkHit where
  /-- the address of the object (not null) -/
  addr : ℕ
  cellID0 : ℤ
  pos : V3
  /-- `getdU()`, `getdV()` of a `TrackerHitPlane` -/
  planar : Option (Dbl × Dbl)
  /-- `getCovMatrix()` -/
  cov : List Dbl

/-- an entry of `getTrackerHits()`: the hit, its bit COMPOSITE_SPACEPOINT, and its raw hits (null if the object is not a
`TrackerHit`) -/
structure TrackHit where
  hit : TrkHit
  composite : Bool
  raw : List (Option TrkHit)

/-- `EVENT::Track`: the state at the interaction point and the hits -/
structure InTrack where
  state : TrackState
  hits : List TrackHit

/-- `IMPL::TrackImpl` as filled by the program; without state for a dropped track -/
structure OutTrack where
  hits : List ℕ
  chi2 : Dbl
  ndf : ℤ
  /-- `subdetectorHitNumbers()[0]` -/
  nHits : ℕ
  states : List TrackState

/-- a newly constructed `TrackImpl` -/
def OutTrack.empty : OutTrack := ⟨[], 0, 0, 0, []⟩

/-- What the program uses: environment of the trajectories, the surfaces, property "measurement in one dimension" of DD4hep's
surface type, GBL, the two sorts and narrowing to `float` -/
structure Setup where
  env : Env
  surfaces : List Surface
  oneD : Surface → Bool
  gbl : Fitter
  sortI : List (Dbl × Surface) → List (Dbl × Surface)
  sortE : List Element → List Element
  fl : ℝ → ℝ

/-- conversion of an integer to `int` -/
def toInt (n : ℤ) : ℤ := (n + 2 ^ 31) % 2 ^ 32 - 2 ^ 31

/-- a position in the units of aidaTT, lcio_tracks.cpp:85, 304-306 -/
def scaled (p : V3) : V3 := ⟨p.x * unit_mm, p.y * unit_mm, p.z * unit_mm⟩

/-- the resolutions `du`, `dv` of a hit, lcio_tracks.cpp:88-102 -/
def resolution (h : TrkHit) : Out (Dbl × Dbl) :=
  match h.planar with
  | some (du, dv) => .ok (du * unit_mm, dv * unit_mm)
  | none =>
    match h.cov[0]?, h.cov[2]?, h.cov[5]? with
    | some a, some b, some c => .ok (Dbl.sqrt (a + b) * unit_mm, Dbl.sqrt c * unit_mm)
    | _, _, _ => .ub "index out of range"

/-- `getHitInfo`, lcio_tracks.cpp:81-110: position and precisions -/
def getHitInfo (h : TrkHit) (oneD : Bool) : Out (V3 × List Dbl) := do
  let (du, dv) ← resolution h
  pure (scaled h.pos, [1 / (du * du), if oneD then 0 else 1 / (dv * dv)])

/-- `initialHits[i]` -/
def hitAt (hits : List TrackHit) (i : ℕ) : Out TrackHit :=
  match hits[i]? with
  | some h => .ok h
  | none => .ub "index out of range"

/-- the "large errors" of the seed, lcio_tracks.cpp:313-318 -/
def seedCov (c : M5) : M5 :=
  let c := M5.unit c
  let c := c.set OMEGA OMEGA (1e-2 : Dbl)
  let c := c.set TANL TANL (1e2 : Dbl)
  let c := c.set PHI0 PHI0 (1e2 : Dbl)
  let c := c.set D0 D0 (1e5 : Dbl)
  c.set Z0 Z0 (1e5 : Dbl)

/-- the start helix from three hits, lcio_tracks.cpp:290-324; `backwards` is false -/
def seed (hits : List TrackHit) : Out TP := do
  let nHits := hits.length
  let h1 ← hitAt hits 0
  let h2 ← hitAt hits ((nHits + 1) / 2)
  let h3 ← hitAt hits (nHits - 1)
  let start := calculateStartHelix (scaled h1.hit.pos) (scaled h2.hit.pos) (scaled h3.hit.pos) TP.default false
  let (start, _) ← moveHelixTo start V3.zero false
  pure { start with cov := seedCov start.cov }

/-- the hits with composite ones replaced by their raw hits, lcio_tracks.cpp:340-360 -/
def expand : List TrackHit → List (Option TrkHit)
  | [] => []
  | h :: rest => (if h.composite then h.raw else [some h.hit]) ++ expand rest

/-- `hitMap[ lcioHits[i]->getCellID0() ] = lcioHits[i]` for all hits, lcio_tracks.cpp:364-367 -/
def fillMap (m : ℤ → Option TrkHit) : List (Option TrkHit) → Out (ℤ → Option TrkHit)
  | [] => .ok m
  | none :: _ => .ub "null pointer: raw hit"
  | some h :: rest => fillMap (fun id => if id = toInt h.cellID0 then some h else m id) rest

/-- the call made for a crossed surface, lcio_tracks.cpp:382-420.  `hitMap[ surf->id() ]` enters a null pointer for an unknown
key, which is what a later look-up of this key would give anyway. -/
def callFor (oneD : Surface → Bool) (m : ℤ → Option TrkHit) (surf : Surface) : Out (Option Traj.AddOp) :=
  match m (toInt surf.id) with
  | some h => do
    let (pos, prec) ← getHitInfo h (oneD surf)
    pure (some (.measurement pos prec surf h.addr true))
  | none =>
    ifc surf.innerMaterial.density < (1e-6 : Dbl) ∧ surf.outerMaterial.density < (1e-6 : Dbl) then .ok none
    else .ok (some (.scatterer surf))

/-- the loop over the crossed surfaces, lcio_tracks.cpp:379-421 -/
def addAll (env : Env) (oneD : Surface → Bool) (m : ℤ → Option TrkHit) (t : Traj) : List (Dbl × Surface) → Out Traj
  | [] => .ok t
  | (_, surf) :: rest => do
    match ← callFor oneD m surf with
    | none => addAll env oneD m t rest
    | some op =>
      let (t', r) := t.step env op
      let _ ← r
      addAll env oneD m t' rest

/-- the trajectory that is fitted, lcio_tracks.cpp:330-424 -/
def trajectory (S : Setup) (tp : TP) (hits : List TrackHit) : Out Traj := do
  let t := Traj.make tp
  let m ← fillMap (fun _ => none) (expand hits)
  let (t, r) := t.getIntersections S.sortI S.surfaces
  let crossed ← r
  let t ← addAll S.env S.oneD m t crossed
  t.prepareForFitting S.env S.sortE

/-- writing of a result, lcio_tracks.cpp:447-469; `setNdf` takes an `int` -/
def write (fl : ℝ → ℝ) (hits : List TrackHit) (r : FitResults) : OutTrack :=
  let ts := createLCIO fl r.estParams
  let ts : TrackState := { ts with ref := V3.zero, location := 1 }
  ⟨hits.map (·.hit.addr), narrow fl r.chisquare, toInt r.ndf, hits.length, [ts]⟩

/-- one track, lcio_tracks.cpp:269-470, with the state of the fitter before and after.  The trajectory lives at address `i`
and is gone afterwards. -/
def refit (S : Setup) (i : ℕ) (w : World) (trk : InTrack) : Out (World × OutTrack) := do
  let _ ← readLCIO trk.state
  if trk.hits.length < 3 then pure (w, OutTrack.empty) else
    let iTP ← seed trk.hits
    let t ← trajectory S iTP trk.hits
    let w := w.step S.gbl (.setTraj i (some (t, S.env.field)))
    let (w, success) := w.fit S.gbl i
    let _ ← success
    let (w, address) := w.getResults 0
    let address ← address
    match w.heap address with
    | none => .ub "the result does not exist any more"
    | some r => pure (w.step S.gbl (.setTraj i none), write S.fl trk.hits r)

/-- the loop over the tracks of an event, lcio_tracks.cpp:267-471: the output collection.  All trajectories live at the
same address (the same stack frame). -/
def event (S : Setup) (i : ℕ) (w : World) : List InTrack → Out (World × List OutTrack)
  | [] => .ok (w, [])
  | trk :: rest => do
    let (w, o) ← refit S i w trk
    let (w, os) ← event S i w rest
    pure (w, o :: os)

/-- the event loop, lcio_tracks.cpp:224, 251-474: `counter` starts at -1 and `maxEvent` is 1000; the events handed to the
writer -/
def events (S : Setup) (i : ℕ) (w : World) (counter : ℤ) : List (List InTrack) → Out (List (List OutTrack))
  | [] => .ok []
  | ev :: rest =>
    let counter := counter + 1
    if counter < 1000 then do
      let (w, o) ← event S i w ev
      let os ← events S i w counter rest
      pure (o :: os)
    else .ok []

/-- number of hits between those used in `createPreFit`, lcio_tracks.cpp:122-124 -/
def prefitStep (nHits : ℕ) : ℕ := if nHits ≤ 25 then 1 else nHits / 25

/-- the indices of the hits used in `createPreFit`, lcio_tracks.cpp:129: `for(unsigned i=0 ; i < nHits ; i+= step )` -/
def prefitLoop (nHits : ℕ) (i : ℕ) : List ℕ :=
  if h : i < nHits then
    have : 0 < prefitStep nHits := by unfold prefitStep; split <;> omega
    i :: prefitLoop nHits (i + prefitStep nHits)
  else []
termination_by nHits - i

/-- the loop of `createPreFit`, lcio_tracks.cpp:129-156, for the hits with these indices.  `surfMap` contains for each number the
last surface with it (lcio_tracks.cpp:216-218); `long` has 64 bits, so numbers are not changed. -/
def prefitAdd (S : Setup) (hits : List TrackHit) (t : Traj) : List ℕ → Out Traj
  | [] => .ok t
  | i :: rest => do
    let h ← hitAt hits i
    match S.surfaces.reverse.find? (fun s => decide (s.id = h.hit.cellID0)) with
    | none => prefitAdd S hits t rest
    | some surf => do
      let (pos, prec) ← getHitInfo h.hit (S.oneD surf)
      let (t', r) := t.step S.env (.measurement pos prec surf h.hit.addr false)
      let _ ← r
      prefitAdd S hits t' rest

/-- `createPreFit`, lcio_tracks.cpp:113-183, with the state `w` of the fitter it uses: the parameters returned.  The trajectory
lives at address `i` and is gone afterwards. -/
def createPreFit (S : Setup) (i : ℕ) (w : World) (tp : TP) (hits : List TrackHit) : Out (World × TP) := do
  let (tp, _) ← moveHelixTo tp V3.zero false
  let t ← prefitAdd S hits (Traj.make tp) (prefitLoop hits.length 0)
  let t ← t.prepareForFitting S.env S.sortE
  let w := w.step S.gbl (.setTraj i (some (t, S.env.field)))
  let (w, success) := w.fit S.gbl i
  let success ← success
  if success then
    let (w, address) := w.getResults 0
    let address ← address
    match w.heap address with
    | none => .ub "the result does not exist any more"
    | some r => pure (w.step S.gbl (.setTraj i none), r.estParams)
  else pure (w.step S.gbl (.setTraj i none), tp)

end Refit

end Verif
