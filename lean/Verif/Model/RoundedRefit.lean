import Verif.Model.MaterialEffects
import Verif.Model.RoundedAdd
import Verif.Model.RoundedFit
import Verif.Model.RoundedPrepare
import Verif.Model.RoundedSeed
import Verif.Model.RoundedTrajectory

/-!
# The program `lcio_tracks` in double precision

As in `Verif.Model.Refit`, with the arithmetic of Model/RoundedArith.  Numbers of type `float` (errors of hits, and what is written) are rounded to
`float`.  `getJacobian` of the environment is the propagation in double precision, for example `Rnd.analyticalJacobian fl lm`.
-/

open Classical

noncomputable section

namespace Verif

namespace Rnd

open Refit (TrkHit TrackHit InTrack OutTrack Setup toInt expand fillMap)
open Traj (AddOp)

/-- the arithmetic of the platform -/
structure Arith where
  /-- rounding to `double` and to `float` -/
  fl : ℝ → ℝ
  sl : ℝ → ℝ
  /-- the mathematical library -/
  lm : Libm
  at2 : ℝ → ℝ → ℝ
  asn : ℝ → ℝ
  atn : ℝ → ℝ
  tn : ℝ → ℝ
  lg : LogLib
  /-- whether `sqrt` of a `float` is the function for `float`, as in `std`, or that for `double` -/
  single : Bool
  /-- products of Eigen and ROOT -/
  mm : M5 → M5 → M5
  mv : M5 → V5 → V5
  sim : M5 → M5 → M5

variable (A : Arith)

/-- `sqrt` of a number of type `float` -/
def sqrtF (x : Dbl) : Dbl := if A.single then toFloat A.sl (Dbl.sqrt x) else sqrtD A.fl x

/-- the resolutions `du`, `dv` of a hit, lcio_tracks.cpp:88-102, material_effects.cpp:283-294; `getdU`, `getdV` and the entries of the covariance
matrix are of type `float`, and so is the sum of two of them -/
def resolution (h : TrkHit) : Out (Dbl × Dbl) :=
  match h.planar with
  | some (du, dv) => .ok (mulD A.fl du (lit A.fl 0.1), mulD A.fl dv (lit A.fl 0.1))
  | none =>
    match h.cov[0]?, h.cov[2]?, h.cov[5]? with
    | some a, some b, some c =>
      .ok (mulD A.fl (sqrtF A (toFloat A.sl (a + b))) (lit A.fl 0.1), mulD A.fl (sqrtF A c) (lit A.fl 0.1))
    | _, _, _ => .ub "index out of range"

/-- `1./ (du*du)` -/
def weight (d : Dbl) : Dbl := divD A.fl 1 (mulD A.fl d d)

/-- `getHitInfo`, lcio_tracks.cpp:81-110: position and precisions -/
def getHitInfo (h : TrkHit) (oneD : Bool) : Out (V3 × List Dbl) := do
  let (du, dv) ← resolution A h
  pure (scaled A.fl h.pos, [weight A du, if oneD then 0 else weight A dv])

/-- `precision` in material_effects.cpp:299-304 -/
def precision (du dv : Dbl) : List Dbl := ifc Dbl.eqv dv 0 then [weight A du] else [weight A du, weight A dv]

/-- effect and outcome of a call -/
def step (env : Env) (t : Traj) : AddOp → Traj × Out Bool
  | .measurement p prec s id sc => addMeasurement A.fl A.lm A.at2 A.asn A.atn A.lg A.mm env t p prec s id sc
  | .scatterer s => addScatterer A.fl A.lm A.at2 A.asn A.atn A.lg A.mm env t s
  | .setMass m => ({ t with mass := m }, .ok false)

/-- the call made for a crossed surface, lcio_tracks.cpp:382-420 -/
def callFor (oneD : Surface → Bool) (m : ℤ → Option TrkHit) (surf : Surface) : Out (Option AddOp) :=
  match m (toInt surf.id) with
  | some h => do
    let (pos, prec) ← getHitInfo A h (oneD surf)
    pure (some (.measurement pos prec surf h.addr true))
  | none =>
    ifc surf.innerMaterial.density < lit A.fl 1e-6 ∧ surf.outerMaterial.density < lit A.fl 1e-6 then .ok none
    else .ok (some (.scatterer surf))

/-- the loop over the crossed surfaces, lcio_tracks.cpp:379-421 -/
def addAll (env : Env) (oneD : Surface → Bool) (m : ℤ → Option TrkHit) (t : Traj) : List (Dbl × Surface) → Out Traj
  | [] => .ok t
  | (_, surf) :: rest => do
    match ← callFor A oneD m surf with
    | none => addAll env oneD m t rest
    | some op =>
      let (t', r) := step A env t op
      let _ ← r
      addAll env oneD m t' rest

/-- the trajectory that is fitted, lcio_tracks.cpp:330-424 -/
def trajectory (S : Setup) (tp : TP) (hits : List TrackHit) : Out Traj := do
  let t := Traj.make tp
  let m ← fillMap (fun _ => none) (expand hits)
  let (t, r) := getIntersections A.fl A.lm A.at2 A.asn A.atn S.sortI t S.surfaces
  let crossed ← r
  let t ← addAll A S.env S.oneD m t crossed
  prepareForFitting A.fl A.lm A.at2 A.asn A.atn A.lg S.env S.sortE t

/-- body of the loop of `fit`, GBLInterface.cc:51-199 -/
def gblPoint (fl : ℝ → ℝ) (e : Element) : Out GblPoint :=
  match e.jac with
  | none => .ub "null pointer: Jacobian"
  | some jac => do
    let meas ← if e.measurement then (do let m ← gblMeasurement e; pure (some m)) else pure none
    let scat ← if e.scatterer then (do let s ← gblScatterer fl e; pure (some s)) else pure none
    pure ⟨jac, meas, scat⟩

/-- the loop of `fit`, GBLInterface.cc:49-200 -/
def gblPoints (fl : ℝ → ℝ) : List Element → Out (List GblPoint)
  | [] => .ok []
  | e :: rest => do
    let p ← gblPoint fl e
    let l ← gblPoints fl rest
    pure (p :: l)

/-- `fit`, GBLInterface.cc:30-233, of the trajectory at address `i` -/
def fit (gbl : Fitter) (w : World) (i : ℕ) : World × Out Bool :=
  let w := w.clear
  match w.trajs i with
  | none => (w, .ub "no trajectory at this address")
  | some (t, _) =>
    let w := { w with gi := { w.gi with traj := some i } }
    match gblPoints A.fl t.elems with
    | .ok points =>
      let f := gbl points
      ({ w with gi := { w.gi with fitted := some f, chi2 := f.chi2, ndf := f.ndf, lostWeight := f.lostWeight } },
        .ok (decide (f.ret = 0)))
    | .throw m => (w, .throw m)
    | .ub m => (w, .ub m)
    | .diverge => (w, .diverge)

/-- `getResults`, GBLInterface.hh:49-67, with `_fillResults`, GBLInterface.cc:237-318: the address of the result object -/
def getResults (w : World) (label : ℤ) : World × Out ℕ :=
  match w.gi.results label with
  | some p => (w, .ok p)
  | none =>
    match w.gi.traj with
    | none => (w, .ub "null pointer: no trajectory has been fitted")
    | some i =>
      match w.gi.fitted with
      | none => (w, .ub "null pointer: no GBL trajectory")
      | some f =>
        match w.trajs i with
        | none => (w, .ub "the trajectory does not exist any more")
        | some (t, field) =>
          match fillContent A.fl A.lm A.atn A.tn A.mm A.mv A.sim w.gi f t field label with
          | .ok r =>
            ({ w with
                heap := fun p => if p = w.next then some r else w.heap p
                next := w.next + 1
                gi := { w.gi with results := fun l => if l = label then some w.next else w.gi.results l } },
              .ok w.next)
          | .throw m => (w, .throw m)
          | .ub m => (w, .ub m)
          | .diverge => (w, .diverge)

/-- writing of a result, lcio_tracks.cpp:447-469; `setNdf` takes an `int`, `setChi2` a `float` -/
def write (hits : List TrackHit) (r : FitResults) : OutTrack :=
  let ts := createLCIO A.fl A.sl r.estParams
  let ts : TrackState := { ts with ref := V3.zero, location := 1 }
  ⟨hits.map (·.hit.addr), toFloat A.sl r.chisquare, toInt r.ndf, hits.length, [ts]⟩

/-- one track, lcio_tracks.cpp:269-470, with the state of the fitter before and after.  The trajectory lives at address `i`
and is gone afterwards. -/
def refit (S : Setup) (i : ℕ) (w : World) (trk : InTrack) : Out (World × OutTrack) := do
  let _ ← readLCIO A.fl trk.state
  if trk.hits.length < 3 then pure (w, OutTrack.empty) else
    let iTP ← seed A.fl A.lm A.at2 A.mm trk.hits
    let t ← trajectory A S iTP trk.hits
    let w := { w with trajs := fun j => if j = i then some (t, S.env.field) else w.trajs j }
    let (w, success) := fit A S.gbl w i
    let _ ← success
    let (w, address) := getResults A w 0
    let address ← address
    match w.heap address with
    | none => .ub "the result does not exist any more"
    | some r => pure ({ w with trajs := fun j => if j = i then none else w.trajs j }, write A trk.hits r)

/-- the loop over the tracks of an event, lcio_tracks.cpp:267-471: the output collection -/
def event (S : Setup) (i : ℕ) (w : World) : List InTrack → Out (World × List OutTrack)
  | [] => .ok (w, [])
  | trk :: rest => do
    let (w, o) ← refit A S i w trk
    let (w, os) ← event S i w rest
    pure (w, o :: os)

/-- the event loop, lcio_tracks.cpp:224, 251-474 -/
def events (S : Setup) (i : ℕ) (w : World) (counter : ℤ) : List (List InTrack) → Out (List (List OutTrack))
  | [] => .ok []
  | ev :: rest =>
    let counter := counter + 1
    if counter < 1000 then do
      let (w, o) ← event A S i w ev
      let os ← events S i w counter rest
      pure (o :: os)
    else .ok []

end Rnd

end Verif
