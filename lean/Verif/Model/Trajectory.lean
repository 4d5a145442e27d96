import Verif.Model.Material
import Verif.Model.Utilities
import Verif.Model.Sort

/-!
# Trajectories

Model of `core/src/trajectory.cc`, `core/src/trajectoryElement.cc`, `core/include/trajectory.hh`,
`core/include/trajectoryElement.hh`.  Pointers to objects owned by an element are values (`Option` where they can be null);
text output and `delete` are left out.  A call that changes the trajectory returns the new trajectory together with its
outcome, so the state after an exception is visible.
-/

open Classical

noncomputable section

namespace Verif

/-- What a trajectory uses from outside: the field of the global geometry (`IGeometry::instance()`, used by the helper
functions), the field of the geometry given to the constructor, and the propagation. -/
structure Env where
  globalField : V3 → V3
  field : V3 → V3
  /-- `IPropagation::getJacobian(jac, dw, qop, tStart, tEnd, bfield, NrjLoss)`: the matrix left in `jac` -/
  getJacobian : M5 → Dbl → Dbl → V3 → V3 → V3 → Dbl → M5

/-- `trajectoryElement`, trajectoryElement.hh:57-193 (`_thick` is never set and left out) -/
structure Element where
  arc : Dbl
  tp : TP
  jac : Option M5
  surface : Option Surface
  measurement : Bool
  measDirs : Option (List V3)
  precisions : List Dbl
  residuals : List Dbl
  frame : Option (V3 × V3)
  proj : Option (Fin 4 → Dbl)
  scatterer : Bool
  id : ℕ

namespace Element

/-- constructor for measurements and scatterers, trajectoryElement.cc:25-37 -/
def make (arc : Dbl) (tp : TP) (surface : Surface) (measDir : List V3) (precisions residuals : List Dbl)
    (lCLS : V3 × V3) (id : ℕ) (isScatterer hasMeasurement : Bool) : Out Element := do
  let proj ← calculateLocalToMeasurementProjectionMatrix lCLS.1 lCLS.2 measDir
  let precisions := if precisions.length = 1 then precisions ++ [0] else precisions
  pure ⟨arc, tp, none, some surface, hasMeasurement, some measDir, precisions, residuals, some lCLS, some proj,
    isScatterer, id⟩

/-- constructor B, trajectoryElement.cc:41-44 -/
def start (arc : Dbl) (tp : TP) (id : ℕ) : Element :=
  ⟨arc, tp, none, none, false, none, [], [], none, none, false, id⟩

end Element

/-- `trajectory`, trajectory.hh:129-137 (fitter, propagation and geometry are in `Env` or passed to the functions) -/
structure Traj where
  ref : TP
  elems : List Element
  inters : List (Dbl × Surface)
  mass : Dbl

namespace Traj

/-- the constructors, trajectory.cc:18-27 -/
def make (tp : TP) : Traj := ⟨tp, [], [], pionMass⟩

/-- the loop of `trajectoryElementAt`, trajectory.cc:53-65 -/
def elementAtLoop (s : Dbl) (prevS : Dbl) (prevElement : Element) : List Element → Element
  | [] => prevElement
  | element :: rest =>
    let newS := element.arc
    ifc prevS ≤ s ∧ s < newS then prevElement else elementAtLoop s newS element rest

/-- `trajectoryElementAt`, trajectory.cc:47-68.  On an empty vector `begin()+1` is undefined behaviour (so the null
pointer for this case is never returned). -/
def elementAt (t : Traj) (s : Dbl) : Out Element :=
  match t.elems with
  | [] => .ub "begin()+1 of an empty vector"
  | e :: rest => .ok (elementAtLoop s (-(1e99 : Dbl)) e rest)

/-- `trajectory::pointAt`, trajectory.cc:71-79 -/
def pointAt (t : Traj) (s : Dbl) : Out V3 := do
  let element ← t.elementAt s
  pure (Verif.pointAt (s - element.arc) element.tp.hp element.tp.rp)

/-- `trajectory::tangentAt`, trajectory.cc:84-92 -/
def tangentAt (t : Traj) (s : Dbl) : Out V3 := do
  let element ← t.elementAt s
  pure (calculateTangent (s - element.arc) element.tp.hp)

/-- `addElement`, trajectory.cc:313-321 -/
def addElement (t : Traj) (point : V3) (id : ℕ) : Traj :=
  let s := calculateSfromXY point.x point.y t.ref.hp t.ref.rp
  { t with elems := t.elems ++ [Element.start s t.ref id] }

/-- `if( trajectoryElements().empty() ) addElement( Vector3D(), 0 )`, trajectory.cc:148-151, 244-247 -/
def withStart (t : Traj) : Traj := if t.elems = [] then t.addElement V3.zero 0 else t

/-- `new_prec`, trajectory.cc:214-233 -/
def measurementPrecision (precision : List Dbl) (isScatterer : Bool) (qms : Dbl) : List Dbl :=
  if isScatterer then precision ++ [qms * qms] ++ [0] ++ [0] else precision

/-- `addMeasurement` after the start element has been provided, trajectory.cc:154-237: the new element, or nothing if the
surface is not hit; `back` is the last element. -/
def measurementElement (env : Env) (mass : Dbl) (back : Element) (position : V3) (precision : List Dbl)
    (surface : Surface) (id : ℕ) (isScatterer : Bool) : Out (Option Element) := do
  let tP := back.tp
  let prevS := back.arc
  let h ← intersectWithSurface surface tP.hp tP.rp 0 V3.zero 1 false
  if h.found then
    let s := h.s + prevS
    let referenceUV := surface.globalToLocal h.xx
    let (trkParam, _) ← moveHelixTo tP h.xx false
    let mom := momentumAtPCA env.globalField trkParam.hp trkParam.rp
    let measuredUV := surface.globalToLocal position
    let el := computeEnergyLoss surface measuredUV mom mass
    match el.energy with
    | none => .ub "uninitialised energy"
    | some energy =>
      let trkParam : TP := { trkParam with
        hp := trkParam.hp.set OMEGA (trkParam.hp OMEGA / (1 - el.deltaE / energy)) }
      let udiff := measuredUV.u - referenceUV.u
      let vdiff := measuredUV.v - referenceUV.v
      let residuals := [udiff, vdiff]
      let measDir := [surface.u position, surface.v position]
      let qms := computeQMS surface referenceUV mom mass
      let new_prec := measurementPrecision precision isScatterer qms
      let e ← Element.make s trkParam surface measDir new_prec residuals
        (calculateLocalCurvilinearSystem 0 trkParam.hp) id isScatterer true
      pure (some e)
  else pure none

/-- `addScatterer` after the start element has been provided, trajectory.cc:249-309 -/
def scattererElement (env : Env) (mass : Dbl) (back : Element) (surface : Surface) : Out (Option Element) := do
  let tP := back.tp
  let prevS := back.arc
  let h ← intersectWithSurface surface tP.hp tP.rp 0 V3.zero 1 true
  if h.found then
    let s := h.s + prevS
    let (trkParam, _) ← moveHelixTo tP h.xx false
    let referenceUV := surface.globalToLocal h.xx
    let mom := momentumAtPCA env.globalField trkParam.hp trkParam.rp
    let el := computeEnergyLoss surface referenceUV mom mass
    match el.energy with
    | none => .ub "uninitialised energy"
    | some energy =>
      let trkParam : TP := { trkParam with
        hp := trkParam.hp.set OMEGA (trkParam.hp OMEGA / (1 - el.deltaE / energy)) }
      let residuals : List Dbl := [0, 0]
      let measDir := [surface.u h.xx, surface.v h.xx]
      let qms := computeQMS surface referenceUV mom mass
      let precision := [qms * qms, 0, 0]
      let e ← Element.make s trkParam surface measDir precision residuals
        (calculateLocalCurvilinearSystem 0 trkParam.hp) 0 true false
      pure (some e)
  else pure none

/-- appending the new element; the result tells whether there is one -/
def append (t : Traj) : Out (Option Element) → Traj × Out Bool
  | .ok (some e) => ({ t with elems := t.elems ++ [e] }, .ok true)
  | .ok none => (t, .ok false)
  | .throw w => (t, .throw w)
  | .ub w => (t, .ub w)
  | .diverge => (t, .diverge)

/-- `addMeasurement`, trajectory.cc:144-240 -/
def addMeasurement (env : Env) (t : Traj) (position : V3) (precision : List Dbl) (surface : Surface) (id : ℕ)
    (isScatterer : Bool) : Traj × Out Bool :=
  let t := t.withStart
  match t.elems.getLast? with
  | none => (t, .ub "back() of an empty vector")
  | some back => t.append (measurementElement env t.mass back position precision surface id isScatterer)

/-- `addScatterer`, trajectory.cc:242-310.  The function returns nothing; the model tells whether an element was added. -/
def addScatterer (env : Env) (t : Traj) (surface : Surface) : Traj × Out Bool :=
  let t := t.withStart
  match t.elems.getLast? with
  | none => (t, .ub "back() of an empty vector")
  | some back => t.append (scattererElement env t.mass back surface)

/-- the loop of `getIntersectionsWithSurfaces`, trajectory.cc:113-125: the content of `_intersectionsList` after it and how
it ends (an exception leaves the entries found so far) -/
def intersectionLoop (ref : TP) (maxS : Dbl) (list : List (Dbl × Surface)) : List Surface → List (Dbl × Surface) × Out Unit
  | [] => (list, .ok ())
  | surf :: rest =>
    match intersectWithSurface surf ref.hp ref.rp 0 V3.zero 1 true with
    | .ok h =>
      ifc h.found = true ∧ 0 ≤ h.s ∧ h.s < maxS then intersectionLoop ref maxS (list ++ [(h.s, surf)]) rest
      else intersectionLoop ref maxS list rest
    | .throw w => (list, .throw w)
    | .ub w => (list, .ub w)
    | .diverge => (list, .diverge)

/-- `SortWithS`, trajectory.cc:97-104 -/
def sortWithS (a b : Dbl × Surface) : Prop := a.1 < b.1

/-- `getIntersectionsWithSurfaces`, trajectory.cc:108-131: appends to the member `_intersectionsList` and sorts it; the
result is a reference to this member. -/
def getIntersections (sort : List (Dbl × Surface) → List (Dbl × Surface)) (t : Traj) (surfaces : List Surface) :
    Traj × Out (List (Dbl × Surface)) :=
  let maxS := Dbl.pi * Dbl.abs (calculateRadius t.ref.hp)
  match intersectionLoop t.ref maxS t.inters surfaces with
  | (l, .ok ()) =>
    match stdSort sort sortWithS l with
    | .ok l' => ({ t with inters := l' }, .ok l')
    | .throw w => ({ t with inters := l }, .throw w)
    | .ub w => ({ t with inters := l }, .ub w)
    | .diverge => ({ t with inters := l }, .diverge)
  | (l, .throw w) => ({ t with inters := l }, .throw w)
  | (l, .ub w) => ({ t with inters := l }, .ub w)
  | (l, .diverge) => ({ t with inters := l }, .diverge)

/-- `compareTrajectoryElements`, trajectory.cc:325-328 -/
def compareElements (a b : Element) : Prop := a.arc < b.arc

/-- the energy loss entry of the Jacobian, trajectory.cc:366-378 -/
def energyLossEntry (env : Env) (mass : Dbl) (e : Element) : Out Dbl :=
  if e.scatterer then
    match e.surface with
    | none => .ub "null reference: surface()"
    | some surf => do
      let el ← computeEnergyLossTrack env.globalField surf e.tp none none mass
      match el.energy, el.beta with
      | some en, some b => .ok (2 * el.deltaE / (b * b * en))
      | _, _ => .ub "uninitialised energy or beta"
  else .ok 0

/-- body of the loop of `prepareForFitting`, trajectory.cc:353-389: the Jacobian for element `e` -/
def elementJacobian (env : Env) (t : Traj) (prevS : Dbl) (e : Element) : Out M5 := do
  let cosLambda := Dbl.cos (calculateLambda e.tp.hp)
  let bField := env.field e.tp.rp
  let qbyp := calculateQoverP e.tp.hp bField.z
  let currS := e.arc
  let dw := (currS - prevS) / cosLambda
  let nrjLoss ← energyLossEntry env t.mass e
  let tstart ← t.tangentAt prevS
  let tend ← t.tangentAt currS
  pure (env.getJacobian M5.zero dw qbyp tstart tend bField nrjLoss)

/-- the loop of `prepareForFitting`, trajectory.cc:350-393.  `t` is the trajectory after sorting: only the Jacobians
of its elements change in the loop, and these are not read. -/
def prepareLoop (env : Env) (t : Traj) (prevS : Dbl) : List Element → Out (List Element)
  | [] => .ok []
  | e :: rest => do
    let j ← elementJacobian env t prevS e
    let l ← prepareLoop env t e.arc rest
    pure ({ e with jac := some j } :: l)

/-- `prepareForFitting`, trajectory.cc:333-394 -/
def prepareForFitting (env : Env) (sort : List Element → List Element) (t : Traj) : Out Traj := do
  let l ← stdSort sort compareElements t.elems
  let t : Traj := { t with elems := l }
  match l with
  | [] => .ub "begin()+1 of an empty vector"
  | e :: rest =>
    let first : Element := { e with jac := some (M5.unit M5.zero) }
    let l ← prepareLoop env t 0 rest
    pure { t with elems := first :: l }

/-- a call of the public interface that changes the elements -/
inductive AddOp where
  /-- `addMeasurement(position, precision, surface, id, isScatterer)` -/
  | measurement (position : V3) (precision : List Dbl) (surface : Surface) (id : ℕ) (isScatterer : Bool)
  /-- `addScatterer(surface)` -/
  | scatterer (surface : Surface)
  /-- `setMass(mass)`, trajectory.hh:50 -/
  | setMass (mass : Dbl)

/-- effect and outcome of a call -/
def step (env : Env) (t : Traj) : AddOp → Traj × Out Bool
  | .measurement p prec s id sc => t.addMeasurement env p prec s id sc
  | .scatterer s => t.addScatterer env s
  | .setMass m => ({ t with mass := m }, .ok false)

/-- the trajectory after a history of calls, most recent first -/
def after (env : Env) (t : Traj) : List AddOp → Traj
  | [] => t
  | op :: h => ((after env t h).step env op).1

end Traj

end Verif
