import Verif.Model.Trajectory

/-!
# Interface to General Broken Lines

Model of `fittingAlgorithms/src/GBLInterface.cc`, `fittingAlgorithms/include/GBLInterface.hh` and
`util/include/fitResults.hh`.  The GBL package and ROOT are not part of the repository: a fit is an arbitrary function of the
points handed over (`Fitter`).  Writing the Mille record and text output are left out.
-/

open Classical

noncomputable section

namespace Verif

/-- `gbl::GblPoint` as filled by `GBLInterface::fit` -/
structure GblPoint where
  /-- Jacobian from the previous point -/
  jac : M5
  /-- `addMeasurement`: projection, residuals, precisions -/
  meas : Option ((Fin 2 → Fin 2 → Dbl) × (Fin 2 → Dbl) × (Fin 2 → Dbl))
  /-- `addScatterer`: residuals, precision matrix -/
  scat : Option ((Fin 2 → Dbl) × (Fin 2 → Fin 2 → Dbl))

/-- `gbl::GblTrajectory` after `fit` -/
structure GblFit where
  /-- return value of `fit` -/
  ret : ℕ
  chi2 : Dbl
  ndf : ℤ
  lostWeight : Dbl
  /-- `getResults(label, corrections, covariance)`: return value and out-parameters -/
  results : ℤ → ℤ × V5 × M5

/-- construction of the GBL trajectory and its fit -/
abbrev Fitter := List GblPoint → GblFit

/-- reading two numbers from an array, `TVectorD(2, array)` -/
def readTwo : List Dbl → Out (Fin 2 → Dbl)
  | a :: b :: _ => .ok ![a, b]
  | _ => .ub "read past the end of an array"

/-- the measurement of a point, GBLInterface.cc:62-123 -/
def gblMeasurement (e : Element) : Out ((Fin 2 → Fin 2 → Dbl) × (Fin 2 → Dbl) × (Fin 2 → Dbl)) :=
  match e.measDirs with
  | none => .ub "null pointer: measurement directions"
  | some dirs =>
    if 2 < dirs.length then .throw "invalid_argument" else
    match e.proj with
    | none => .ub "null pointer: projection"
    | some proj => do
      let resid ← readTwo e.residuals
      let prec ← readTwo e.precisions
      pure (![![proj 0, proj 1], ![proj 2, proj 3]], resid, prec)

/-- precision matrix of a scatterer, GBLInterface.cc:174-181 -/
def scatteringPrecision (qms c1 c2 : Dbl) : Fin 2 → Fin 2 → Dbl :=
  let scalar := (1 - c1 * c1 - c2 * c2) / qms
  ![![scalar * (1 - c1 * c1), -1 * scalar * c1 * c2], ![-1 * scalar * c1 * c2, scalar * (1 - c2 * c2)]]

/-- the scatterer of a point, GBLInterface.cc:126-196; `precSize-3` is unsigned -/
def gblScatterer (e : Element) : Out ((Fin 2 → Dbl) × (Fin 2 → Fin 2 → Dbl)) :=
  let n := e.precisions.length
  match e.precisions[n - 3]?, e.precisions[n - 2]?, e.precisions[n - 1]? with
  | some qms, some c1, some c2 =>
    if n < 3 then .ub "index out of range" else .ok (![0, 0], scatteringPrecision qms c1 c2)
  | _, _, _ => .ub "index out of range"

/-- body of the loop of `fit`, GBLInterface.cc:51-199 -/
def gblPoint (e : Element) : Out GblPoint :=
  match e.jac with
  | none => .ub "null pointer: Jacobian"
  | some jac => do
    let meas ← if e.measurement then (do let m ← gblMeasurement e; pure (some m)) else pure none
    let scat ← if e.scatterer then (do let s ← gblScatterer e; pure (some s)) else pure none
    pure ⟨jac, meas, scat⟩

/-- the loop of `fit`, GBLInterface.cc:49-200 -/
def gblPoints : List Element → Out (List GblPoint)
  | [] => .ok []
  | e :: rest => do
    let p ← gblPoint e
    let l ← gblPoints rest
    pure (p :: l)

/-- `GBLInterface`: the members that are used.  Result objects live on the heap and are referred to by address. -/
structure GblState where
  /-- `_trajectory` -/
  fitted : Option GblFit
  /-- `_fittedTraj`: address of the trajectory -/
  traj : Option ℕ
  chi2 : Dbl
  ndf : ℤ
  lostWeight : Dbl
  /-- `_theResults` -/
  results : ℤ → Option ℕ

/-- the interface together with what it refers to: trajectories with the field of their geometry, and result objects; `none`
is an address without object. -/
structure World where
  trajs : ℕ → Option (Traj × (V3 → V3))
  heap : ℕ → Option FitResults
  /-- the address of the next result object; it and all following are unused -/
  next : ℕ
  gi : GblState

namespace World

/-- freshly constructed interface, GBLInterface.cc:9-16 -/
def init (trajs : ℕ → Option (Traj × (V3 → V3))) : World :=
  ⟨trajs, fun _ => none, 0, ⟨none, none, 0, 0, 0, fun _ => none⟩⟩

/-- `_clear`, GBLInterface.cc:320-334 -/
def clear (w : World) : World :=
  { w with
    heap := fun p => if ∃ l, w.gi.results l = some p then none else w.heap p
    gi := { w.gi with results := fun _ => none, traj := none, fitted := none } }

/-- `fit`, GBLInterface.cc:30-233, of the trajectory at address `i`.  If an exception is thrown while the points are built,
the GBL trajectory stays deleted. -/
def fit (gbl : Fitter) (w : World) (i : ℕ) : World × Out Bool :=
  let w := w.clear
  match w.trajs i with
  | none => (w, .ub "no trajectory at this address")
  | some (t, _) =>
    let w := { w with gi := { w.gi with traj := some i } }
    match gblPoints t.elems with
    | .ok points =>
      let f := gbl points
      ({ w with gi := { w.gi with fitted := some f, chi2 := f.chi2, ndf := f.ndf, lostWeight := f.lostWeight } },
        .ok (decide (f.ret = 0)))
    | .throw m => (w, .throw m)
    | .ub m => (w, .ub m)
    | .diverge => (w, .diverge)

/-- content of the object made by `_fillResults`, GBLInterface.cc:245-312.  Conversion of the number of degrees of freedom to
`unsigned int` is modulo 2^32. -/
def fillContent (gi : GblState) (f : GblFit) (t : Traj) (field : V3 → V3) (label : ℤ) : Out FitResults :=
  let r := f.results label
  let clCorrections := if r.1 ≠ 0 then V5.zero else r.2.1
  if label < 0 then .ub "index out of range" else
  match t.elems[label.toNat]? with
  | none => .ub "index out of range"
  | some e =>
    let jac := curvilinearToL3Jacobian e.tp.hp (field e.tp.rp)
    let fitted := V5.add e.tp.hp (M5.mulVec jac clCorrections)
    let cov := M5.mul (M5.mul jac r.2.2) (M5.transpose jac)
    .ok ⟨true, gi.chi2, (gi.ndf % 2 ^ 32).toNat, gi.lostWeight, ⟨cov, fitted, e.tp.rp⟩⟩

/-- `getResults`, GBLInterface.hh:49-67, with `_fillResults`, GBLInterface.cc:237-318: the address of the result object -/
def getResults (w : World) (label : ℤ) : World × Out ℕ :=
  match w.gi.results label with
  | some p => (w, .ok p)
  | none =>
    match w.gi.traj with
    | none => (w, .ub "null pointer: no trajectory has been fitted")
    | some i =>
      match w.gi.fitted with
      | none => (w, .ub "null pointer: no GBL trajectory")
      | some f =>
        match w.trajs i with
        | none => (w, .ub "the trajectory does not exist any more")
        | some (t, field) =>
          match fillContent w.gi f t field label with
          | .ok r =>
            ({ w with
                heap := fun p => if p = w.next then some r else w.heap p
                next := w.next + 1
                gi := { w.gi with results := fun l => if l = label then some w.next else w.gi.results l } },
              .ok w.next)
          | .throw m => (w, .throw m)
          | .ub m => (w, .ub m)
          | .diverge => (w, .diverge)

/-- what the user can do: fit a trajectory, ask for a result, or change, create and destroy trajectories -/
inductive Op where
  | fit (i : ℕ)
  | results (label : ℤ)
  | setTraj (i : ℕ) (t : Option (Traj × (V3 → V3)))

/-- effect of a call -/
def step (gbl : Fitter) (w : World) : Op → World
  | .fit i => (w.fit gbl i).1
  | .results label => (w.getResults label).1
  | .setTraj i t => { w with trajs := fun j => if j = i then t else w.trajs j }

/-- the state after a history of calls, first call first -/
def run (gbl : Fitter) (w : World) (ops : List Op) : World := ops.foldl (step gbl) w

end World

end Verif
