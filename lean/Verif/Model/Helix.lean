import Verif.Model.TrackParameters
import Verif.Model.Loop

/-!
# Helix functions

Model of `util/src/helixUtils.cc:14-410` and the inline functions of `util/include/helixUtils.hh`.
`streamlog` output is left out.  The magnetic field (`IGeometry::instance().getBField(rp)`) is a
parameter `bField : V3 → V3`.
-/

open Classical

noncomputable section

namespace Verif

/-- `calculateRadius`, helixUtils.cc:14-21 -/
def calculateRadius (hp : V5) : Dbl :=
  let curvature := calculateCurvature hp
  ifc ¬ Dbl.eqv curvature 0 then Dbl.abs (1 / curvature) else 0

/-- `calculateXCenter`, helixUtils.cc:25-37 -/
def calculateXCenter (hp : V5) (rp : V3) : Dbl :=
  let omega := calculateOmega hp
  ifc Dbl.eqv omega 0 then 0 else
    let radius := 1 / omega
    let dzero := calculateD0 hp
    let phi0 := calculatePhi0 hp
    rp.x + (radius - dzero) * Dbl.sin phi0

/-- `calculateYCenter`, helixUtils.cc:41-52 -/
def calculateYCenter (hp : V5) (rp : V3) : Dbl :=
  let omega := calculateOmega hp
  ifc Dbl.eqv omega 0 then 0 else
    let radius := 1 / omega
    let dzero := calculateD0 hp
    let phi0 := calculatePhi0 hp
    rp.y - (radius - dzero) * Dbl.cos phi0

/-- `calculateX0`, helixUtils.hh:48-51 -/
def calculateX0 (hp : V5) (rp : V3) : Dbl :=
  Dbl.sin (-calculatePhi0 hp) * calculateD0 hp + rp.x

/-- `calculateY0`, helixUtils.hh:59-61 -/
def calculateY0 (hp : V5) (rp : V3) : Dbl :=
  Dbl.cos (calculatePhi0 hp) * calculateD0 hp + rp.y

/-- `calculatePhifromXY`, helixUtils.cc:56-65 -/
def calculatePhifromXY (x y : Dbl) (hp : V5) (rp : V3) : Dbl :=
  let x0 := calculateX0 hp rp
  let y0 := calculateY0 hp rp
  let phi0 := calculatePhi0 hp
  let curvature := calculateCurvature hp
  Dbl.atan2 (Dbl.sin phi0 - curvature * (x - x0)) (Dbl.cos phi0 + curvature * (y - y0))

/-- `calculateSfromXY`, helixUtils.cc:69-94 -/
def calculateSfromXY (x y : Dbl) (hp : V5) (rp : V3) : Dbl :=
  let phi0 := calculatePhi0 hp
  let d0 := calculateD0 hp
  let curvature := calculateCurvature hp
  let sinPhi0 := Dbl.sin phi0
  let cosPhi0 := Dbl.cos phi0
  let x0 := rp.x - sinPhi0 * d0
  let y0 := rp.y + cosPhi0 * d0
  let dx := x - x0
  let dy := y - y0
  let phi := Dbl.atan2 (sinPhi0 - curvature * dx) (cosPhi0 + curvature * dy)
  let dphi := phi - phi0
  let dphi := ifc dphi < -Dbl.pi then dphi + 2 * Dbl.pi
              else ifc Dbl.pi < dphi then dphi - 2 * Dbl.pi else dphi
  ifc ¬ Dbl.eqv dphi 0 then (dx * cosPhi0 + dy * sinPhi0) * dphi / Dbl.sin dphi else 0

/-- `calculateXfromS`, helixUtils.cc:98-107 -/
def calculateXfromS (s : Dbl) (hp : V5) (rp : V3) : Dbl :=
  let x0 := calculateX0 hp rp
  let phi0 := calculatePhi0 hp
  let curvature := calculateCurvature hp
  ifc ¬ Dbl.eqv curvature 0 then
    x0 + 2 / curvature * Dbl.sin (curvature * s / 2) * Dbl.cos (phi0 - curvature * s / 2)
  else x0 + s * Dbl.cos phi0

/-- `calculateYfromS`, helixUtils.cc:111-120 (the straight-line branch really uses `cos`) -/
def calculateYfromS (s : Dbl) (hp : V5) (rp : V3) : Dbl :=
  let y0 := calculateY0 hp rp
  let phi0 := calculatePhi0 hp
  let curvature := calculateCurvature hp
  ifc ¬ Dbl.eqv curvature 0 then
    y0 + 2 / curvature * Dbl.sin (curvature * s / 2) * Dbl.sin (phi0 - curvature * s / 2)
  else y0 + s * Dbl.cos phi0

/-- `calculateZfromS`, helixUtils.cc:124-129 -/
def calculateZfromS (s : Dbl) (hp : V5) (rp : V3) : Dbl :=
  let tanLambda := calculateTanLambda hp
  let z0 := calculateZ0 hp
  z0 + rp.z + s * tanLambda

/-- `calculateTangent`, helixUtils.cc:133-144 -/
def calculateTangent (s : Dbl) (hp : V5) : V3 :=
  let omega := calculateCurvature hp
  let phi0 := calculatePhi0 hp
  let lambda := calculateLambda hp
  let t0 := Dbl.cos (phi0 - omega * s) * Dbl.cos lambda
  let t1 := Dbl.sin (phi0 - omega * s) * Dbl.cos lambda
  let t2 := Dbl.sin lambda
  ⟨t0, t1, t2⟩

/-- `pointAt`, helixUtils.cc:147-167 -/
def pointAt (s : Dbl) (hp : V5) (rp : V3) : V3 :=
  let omega := calculateOmega hp
  let phi0 := calculatePhi0 hp
  let tanl := calculateTanLambda hp
  let d0 := calculateD0 hp
  let z0 := calculateZ0 hp
  let sinphi := Dbl.sin phi0
  let cosphi := Dbl.cos phi0
  ⟨rp.x - d0 * sinphi + (1 / omega) * (sinphi - Dbl.sin (phi0 - s * omega)),
   rp.y + d0 * cosphi - (1 / omega) * (cosphi - Dbl.cos (phi0 - s * omega)),
   rp.z + z0 + s * tanl⟩

/-- `convertBr2P_cm`, core/include/aidaTT-Units.hh:51 (`0.299792458 * (cm/m)` with cm/m = 1/100) -/
def convertBr2P_cm : Dbl := .fin (0.299792458 * (1 / 100))

/-- `momentumAt`, helixUtils.cc:169-182 -/
def momentumAt (bField : V3 → V3) (s : Dbl) (hp : V5) (rp : V3) : V3 :=
  let omega := calculateOmega hp
  let phi0 := calculatePhi0 hp
  let tanl := calculateTanLambda hp
  let bfieldZ := (bField rp).z
  let pt := Dbl.abs (1 / omega) * bfieldZ * convertBr2P_cm
  ⟨pt * Dbl.cos (phi0 - s * omega), pt * Dbl.sin (phi0 - s * omega), pt * tanl⟩

/-- `momentumAtPCA`, helixUtils.cc:185-204 (the error message for small pt is left out) -/
def momentumAtPCA (bField : V3 → V3) (hp : V5) (rp : V3) : V3 :=
  let phi := calculatePhi0 hp
  let omega := calculateOmega hp
  let tanl := calculateTanLambda hp
  let bfieldZ := (bField rp).z
  let pt := Dbl.abs (1 / omega) * bfieldZ * convertBr2P_cm
  ⟨pt * Dbl.cos phi, pt * Dbl.sin phi, pt * tanl⟩

/-- `calculateStartHelix`, helixUtils.cc:208-251.  The covariance of `tp` is not touched. -/
def calculateStartHelix (x1 x2 x3 : V3) (tp : TP) (backward : Bool) : TP :=
  let ez : V3 := ⟨0, 0, 1⟩
  let x12 : V3 := { x2 - x1 with z := 0 }
  let x13 : V3 := { x3 - x1 with z := 0 }
  let x23 : V3 := { x3 - x2 with z := 0 }
  let x12mag := x12.r
  let x12 := x12.unit
  let x13mag := x13.r
  let x13 := x13.unit
  let x23mag := x23.r
  let x23 := x23.unit
  let sinHalfPhi23 := (x12.cross x13).z
  let cosHalfPhi23 :=
    0.5 * (x13mag / x12mag + (1 - x23mag / x12mag) * (x12mag + x23mag) / x13mag)
  let halfPhi23 := Dbl.atan2 sinHalfPhi23 cosHalfPhi23
  let r := -0.5 * x23mag / sinHalfPhi23
  let xc := V3.smul 0.5 (x2 + x3) + V3.smul (r * cosHalfPhi23) (x23.cross ez)
  let r := if backward then -r else r
  { tp with
    hp := V5.mk (1 / r)
      ((x2.z - x3.z) / (r * 2 * halfPhi23))
      (Dbl.atan2 (r * (xc.y - x1.y)) (r * (xc.x - x1.x)) + Dbl.pi / 2)
      0
      0
    rp := x1 }

/-- `kTwoPi`, helixUtils.cc:267-268 -/
def kTwoPi : Dbl := 2 * Dbl.pi

/-- The local values of `moveHelixTo` after the angle computations, helixUtils.cc:272-336. -/
structure MoveVals where
  r : Dbl
  rdr : Dbl
  cpa : Dbl
  tnl : Dbl
  csfd : Dbl
  snfd : Dbl
  fid : Dbl
  drp : Dbl
  dzp : Dbl
  /-- normalised new azimuth, helixUtils.cc:334-336 -/
  fi0p : Dbl

/-- `moveHelixTo`, computation of the new parameters, helixUtils.cc:272-336. -/
def moveVals (tp : TP) (refNew : V3) : Out MoveVals := do
  let dr := -tp.hp D0
  let fi0 := tp.hp PHI0 - Dbl.pi / 2
  let fi0 ← whileLoop (· < 0) (· + kTwoPi) fi0
  let fi0 ← whileLoop (kTwoPi < ·) (· - kTwoPi) fi0
  let cpa := tp.hp OMEGA
  let dz := tp.hp Z0
  let tnl := tp.hp TANL
  let x0 := tp.rp.x
  let y0 := tp.rp.y
  let z0 := tp.rp.z
  let xv := refNew.x
  let yv := refNew.y
  let zv := refNew.z
  let r := 1 / cpa
  let rdr := r + dr
  let csf0 := Dbl.cos fi0
  let snf0 := Dbl.sqrt (Dbl.max 0 ((1 - csf0) * (1 + csf0)))
  let snf0 := ifc Dbl.pi < fi0 then -snf0 else snf0
  let xc := x0 + rdr * csf0
  let yc := y0 + rdr * snf0
  let fi0p : Dbl := 0
  let fi0p := ifc 0 < cpa then Dbl.atan2 (yc - yv) (xc - xv) else fi0p
  let fi0p := ifc cpa < 0 then Dbl.atan2 (yv - yc) (xv - xc) else fi0p
  let fi0p ← whileLoop (· < 0) (· + kTwoPi) fi0p
  let fi0p ← whileLoop (kTwoPi < ·) (· - kTwoPi) fi0p
  let csf := Dbl.cos fi0p
  let snf := Dbl.sqrt (Dbl.max 0 ((1 - csf) * (1 + csf)))
  let snf := ifc Dbl.pi < fi0p then -snf else snf
  let anrm := 1 / Dbl.sqrt (csf * csf + snf * snf)
  let csf := csf * anrm
  let snf := snf * anrm
  let csfd := csf * csf0 + snf * snf0
  let snfd := snf * csf0 - csf * snf0
  let fid := fi0p - fi0
  let fid ← whileLoop (· < 0) (· + kTwoPi) fid
  let fid ← whileLoop (kTwoPi < ·) (· - kTwoPi) fid
  let fid := ifc Dbl.pi < fid then fid - kTwoPi else fid
  let drp := (xc - xv) * csf + (yc - yv) * snf - r
  let dzp := z0 - zv + dz - r * tnl * fid
  let fi0p := fi0p + Dbl.pi / 2
  let fi0p ← whileLoop (· < -Dbl.pi) (· + kTwoPi) fi0p
  let fi0p ← whileLoop (Dbl.pi < ·) (· - kTwoPi) fi0p
  pure ⟨r, rdr, cpa, tnl, csfd, snfd, fid, drp, dzp, fi0p⟩

/-- The matrix `F` of `moveHelixTo`, helixUtils.cc:349-396. -/
def moveF (v : MoveVals) : M5 :=
  let rdrpr := 1 / (v.r + v.drp)
  let rcpar := v.r / v.cpa
  ![![1, 0, 0, 0, 0],
    ![0, 1, 0, 0, 0],
    ![rcpar * rdrpr * v.snfd, 0, v.rdr * rdrpr * v.csfd, -rdrpr * v.snfd, 0],
    ![rcpar * (1 - v.csfd), 0, v.rdr * v.snfd, v.csfd, 0],
    ![rcpar * v.tnl * (v.fid - v.r * rdrpr * v.snfd), -v.r * v.fid,
      v.r * v.tnl * (1 - v.rdr * rdrpr * v.csfd), v.r * rdrpr * v.tnl * v.snfd, 1]]

/-- `moveHelixTo`, helixUtils.cc:255-410: the updated parameters and the returned angle. -/
def moveHelixTo (tp : TP) (refNew : V3) (covMat : Bool) : Out (TP × Dbl) := do
  let v ← moveVals tp refNew
  let tp1 : TP := { cov := tp.cov, hp := V5.mk v.cpa v.tnl v.fi0p (-v.drp) v.dzp, rp := refNew }
  let tp2 : TP := if covMat then
      tp1.setCov (M5.mul (M5.mul (moveF v) tp1.cov) (M5.transpose (moveF v)))
    else tp1
  pure (tp2, v.fid)

end Verif
