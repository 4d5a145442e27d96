import Verif.Model.RoundedMaterial
import Verif.Model.RoundedMoveCov
import Verif.Model.RoundedNewton
import Verif.Model.RoundedStart
import Verif.Model.RoundedUtilities
import Verif.Model.Trajectory

/-!
# New elements of a trajectory in double precision

`addElement`, `addMeasurement` and `addScatterer` (core/src/trajectory.cc) and the constructor of an element (core/src/trajectoryElement.cc) as in
`Verif.Model.Trajectory`, with the arithmetic of Model/RoundedArith.
-/

open Classical

noncomputable section

namespace Verif

namespace Rnd

/-- `addElement`, trajectory.cc:313-321 -/
def addElement (fl : ℝ → ℝ) (lm : Libm) (at2 : ℝ → ℝ → ℝ) (t : Traj) (point : V3) (id : ℕ) : Traj :=
  let s := calculateSfromXY fl lm at2 point.x point.y t.ref.hp t.ref.rp
  { t with elems := t.elems ++ [Element.start s t.ref id] }

/-- `if( trajectoryElements().empty() ) addElement( Vector3D(), 0 )`, trajectory.cc:148-151, 244-247 -/
def withStart (fl : ℝ → ℝ) (lm : Libm) (at2 : ℝ → ℝ → ℝ) (t : Traj) : Traj := if t.elems = [] then addElement fl lm at2 t V3.zero 0 else t

/-- constructor for measurements and scatterers, trajectoryElement.cc:25-37 -/
def makeElement (fl : ℝ → ℝ) (arc : Dbl) (tp : TP) (surface : Surface) (measDir : List V3) (precisions residuals : List Dbl) (lCLS : V3 × V3) (id : ℕ)
    (isScatterer hasMeasurement : Bool) : Out Element := do
  let proj ← calculateLocalToMeasurementProjectionMatrix fl lCLS.1 lCLS.2 measDir
  let precisions := if precisions.length = 1 then precisions ++ [0] else precisions
  pure ⟨arc, tp, none, some surface, hasMeasurement, some measDir, precisions, residuals, some lCLS, some proj, isScatterer, id⟩

/-- `parameters()( OMEGA ) /= ( 1. - deltaE/energy )`, trajectory.cc:190, 277 -/
def lossCurvature (fl : ℝ → ℝ) (om deltaE energy : Dbl) : Dbl := divD fl om (subD fl 1 (divD fl deltaE energy))

/-- `new_prec`, trajectory.cc:214-233 -/
def measurementPrecision (fl : ℝ → ℝ) (precision : List Dbl) (isScatterer : Bool) (qms : Dbl) : List Dbl :=
  if isScatterer then precision ++ [mulD fl qms qms] ++ [0] ++ [0] else precision

/-- `addMeasurement` after the start element has been provided, trajectory.cc:154-237: the new element, or nothing if the surface is not hit;
`back` is the last element. -/
def measurementElement (fl : ℝ → ℝ) (lm : Libm) (at2 : ℝ → ℝ → ℝ) (asn atn : ℝ → ℝ) (lg : LogLib) (mm : M5 → M5 → M5) (env : Env) (mass : Dbl)
    (back : Element) (position : V3) (precision : List Dbl) (surface : Surface) (id : ℕ) (isScatterer : Bool) : Out (Option Element) := do
  let tP := back.tp
  let prevS := back.arc
  let h ← intersectWithSurface fl lm at2 asn atn surface tP.hp tP.rp 0 V3.zero 1 false
  if h.found then
    let s := addD fl h.s prevS
    let referenceUV := surface.globalToLocal h.xx
    let (trkParam, _) ← moveHelixTo fl lm at2 mm tP h.xx false
    let mom := momentumAtPCA fl lm env.globalField trkParam.hp trkParam.rp
    let measuredUV := surface.globalToLocal position
    let el := computeEnergyLoss fl lg surface measuredUV mom mass
    match el.energy with
    | none => .ub "uninitialised energy"
    | some energy =>
      let trkParam : TP := { trkParam with hp := trkParam.hp.set OMEGA (lossCurvature fl (trkParam.hp OMEGA) el.deltaE energy) }
      let udiff := subD fl measuredUV.u referenceUV.u
      let vdiff := subD fl measuredUV.v referenceUV.v
      let residuals := [udiff, vdiff]
      let measDir := [surface.u position, surface.v position]
      let qms := computeQMS fl lg surface referenceUV mom mass
      let new_prec := measurementPrecision fl precision isScatterer qms
      let e ← makeElement fl s trkParam surface measDir new_prec residuals (calculateLocalCurvilinearSystem fl lm atn 0 trkParam.hp) id isScatterer true
      pure (some e)
  else pure none

/-- `addScatterer` after the start element has been provided, trajectory.cc:249-309 -/
def scattererElement (fl : ℝ → ℝ) (lm : Libm) (at2 : ℝ → ℝ → ℝ) (asn atn : ℝ → ℝ) (lg : LogLib) (mm : M5 → M5 → M5) (env : Env) (mass : Dbl)
    (back : Element) (surface : Surface) : Out (Option Element) := do
  let tP := back.tp
  let prevS := back.arc
  let h ← intersectWithSurface fl lm at2 asn atn surface tP.hp tP.rp 0 V3.zero 1 true
  if h.found then
    let s := addD fl h.s prevS
    let (trkParam, _) ← moveHelixTo fl lm at2 mm tP h.xx false
    let referenceUV := surface.globalToLocal h.xx
    let mom := momentumAtPCA fl lm env.globalField trkParam.hp trkParam.rp
    let el := computeEnergyLoss fl lg surface referenceUV mom mass
    match el.energy with
    | none => .ub "uninitialised energy"
    | some energy =>
      let trkParam : TP := { trkParam with hp := trkParam.hp.set OMEGA (lossCurvature fl (trkParam.hp OMEGA) el.deltaE energy) }
      let residuals : List Dbl := [0, 0]
      let measDir := [surface.u h.xx, surface.v h.xx]
      let qms := computeQMS fl lg surface referenceUV mom mass
      let precision := [mulD fl qms qms, 0, 0]
      let e ← makeElement fl s trkParam surface measDir precision residuals (calculateLocalCurvilinearSystem fl lm atn 0 trkParam.hp) 0 true false
      pure (some e)
  else pure none

/-- `addMeasurement`, trajectory.cc:144-240 -/
def addMeasurement (fl : ℝ → ℝ) (lm : Libm) (at2 : ℝ → ℝ → ℝ) (asn atn : ℝ → ℝ) (lg : LogLib) (mm : M5 → M5 → M5) (env : Env) (t : Traj) (position : V3)
    (precision : List Dbl) (surface : Surface) (id : ℕ) (isScatterer : Bool) : Traj × Out Bool :=
  let t := withStart fl lm at2 t
  match t.elems.getLast? with
  | none => (t, .ub "back() of an empty vector")
  | some back => t.append (measurementElement fl lm at2 asn atn lg mm env t.mass back position precision surface id isScatterer)

/-- `addScatterer`, trajectory.cc:242-310.  The function returns nothing; the model tells whether an element was added. -/
def addScatterer (fl : ℝ → ℝ) (lm : Libm) (at2 : ℝ → ℝ → ℝ) (asn atn : ℝ → ℝ) (lg : LogLib) (mm : M5 → M5 → M5) (env : Env) (t : Traj) (surface : Surface) :
    Traj × Out Bool :=
  let t := withStart fl lm at2 t
  match t.elems.getLast? with
  | none => (t, .ub "back() of an empty vector")
  | some back => t.append (scattererElement fl lm at2 asn atn lg mm env t.mass back surface)

end Rnd

end Verif
