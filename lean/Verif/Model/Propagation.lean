import Verif.Model.Helix

/-!
# Propagation Jacobians

Model of `propagations/src/analyticalPropagation.cc` and `propagations/src/simplifiedPropagation.cc`.
The matrix `jac` is an in/out parameter: the model takes the matrix passed in and returns the matrix left
behind.  Both functions always return `true`; the text output of the simplified one is left out.
-/

noncomputable section

namespace Verif

/-- `analyticalPropagation::getJacobian`, analyticalPropagation.cc:8-143 -/
def analyticalJacobian (jac : M5) (dw qop : Dbl) (tStart tEnd bfield : V3) (NrjLoss : Dbl) : M5 :=
  let qp := -bfield.r * convertBr2P_cm
  let q := qp * qop
  ifc Dbl.eqv q 0 then
    let jac := jac.set 3 2 (dw * Dbl.sqrt (tStart.x * tStart.x + tStart.y * tStart.y))
    jac.set 4 1 dw
  else
    let coslambdaStart := Dbl.sqrt (tStart.x * tStart.x + tStart.y * tStart.y)
    let coslambdaEnd := Dbl.sqrt (tEnd.x * tEnd.x + tEnd.y * tEnd.y)
    let coslambdaEndInv := 1 / coslambdaEnd
    let hn := bfield.unit
    let pav := 1 / qop
    let theta := q * dw
    let sint := Dbl.sin theta
    let cost := Dbl.cos theta
    let gamma := hn.dot tEnd
    let an1 := hn.cross tStart
    let an2 := hn.cross tEnd
    let au1 := 1 / tStart.trans
    let u1 : V3 := ⟨-au1 * tStart.y, au1 * tStart.x, 0⟩
    let v1 : V3 := ⟨-tStart.z * u1.y, tStart.z * u1.x, tStart.x * u1.y - tStart.y * u1.x⟩
    let au2 := 1 / tEnd.trans
    let u2 : V3 := ⟨-au2 * tEnd.y, au2 * tEnd.x, 0⟩
    let v2 : V3 := ⟨-tEnd.z * u2.y, tEnd.z * u2.x, tEnd.x * u2.y - tEnd.y * u2.x⟩
    let anv := -hn.dot u2
    let anu := hn.dot v2
    let omcost := 1 - cost
    let tmsint := theta - sint
    let dx : V3 := ⟨-(gamma * tmsint * hn.x + sint * tStart.x + omcost * an1.x) / q,
                    -(gamma * tmsint * hn.y + sint * tStart.y + omcost * an1.y) / q,
                    -(gamma * tmsint * hn.z + sint * tStart.z + omcost * an1.z) / q⟩
    let hu1 := hn.cross u1
    let hv1 := hn.cross v1
    let u1u2 := u1.dot u2
    let u1v2 := u1.dot v2
    let v1u2 := v1.dot u2
    let v1v2 := v1.dot v2
    let hu1u2 := hu1.dot u2
    let hu1v2 := hu1.dot v2
    let hv1u2 := hv1.dot u2
    let hv1v2 := hv1.dot v2
    let hnu1 := hn.dot u1
    let hnv1 := hn.dot v1
    let hnu2 := hn.dot u2
    let hnv2 := hn.dot v2
    let tEndu1 := tEnd.dot u1
    let tEndv1 := tEnd.dot v1
    let tEnddx := tEnd.dot dx
    let u2dx := u2.dot dx
    let v2dx := v2.dot dx
    let an2u1 := an2.dot u1
    let an2v1 := an2.dot v1
    -- 1/P
    let jac := jac.set 0 0 (1 + NrjLoss)
    -- Lambda
    let jac := jac.set 1 0 (-qp * anv * tEnddx)
    let jac := jac.set 1 1 (cost * v1v2 + sint * hv1v2 + omcost * hnv1 * hnv2 +
      anv * (-sint * tEndv1 + omcost * an2v1 - gamma * tmsint * hnv1))
    let jac := jac.set 1 2 (coslambdaStart * (cost * u1v2 + sint * hu1v2 + omcost * hnu1 * hnv2 +
      anv * (-sint * tEndu1 + omcost * an2u1 - gamma * tmsint * hnu1)))
    let jac := jac.set 1 3 (-q * anv * tEndu1)
    let jac := jac.set 1 4 (-q * anv * tEndv1)
    -- Phi
    let jac := jac.set 2 0 (-qp * anu * tEnddx * coslambdaEndInv)
    let jac := jac.set 2 1 (coslambdaEndInv * (cost * v1u2 + sint * hv1u2 + omcost * hnv1 * hnu2 +
      anu * (-sint * tEndv1 + omcost * an2v1 - gamma * tmsint * hnv1)))
    let jac := jac.set 2 2 (coslambdaEndInv * coslambdaStart * (cost * u1u2 + sint * hu1u2 + omcost * hnu1 * hnu2 +
      anu * (-sint * tEndu1 + omcost * an2u1 - gamma * tmsint * hnu1)))
    let jac := jac.set 2 3 (-q * anu * tEndu1 * coslambdaEndInv)
    let jac := jac.set 2 4 (-q * anu * tEndv1 * coslambdaEndInv)
    -- Xt
    let jac := jac.set 3 0 (pav * u2dx)
    let jac := jac.set 3 1 ((sint * v1u2 + omcost * hv1u2 + tmsint * hnu2 * hnv1) / q)
    let jac := jac.set 3 2 ((sint * u1u2 + omcost * hu1u2 + tmsint * hnu2 * hnu1) * coslambdaStart / q)
    let jac := jac.set 3 3 u1u2
    let jac := jac.set 3 4 v1u2
    -- Yt
    let jac := jac.set 4 0 (pav * v2dx)
    let jac := jac.set 4 1 ((sint * v1v2 + omcost * hv1v2 + tmsint * hnv2 * hnv1) / q)
    let jac := jac.set 4 2 ((sint * u1v2 + omcost * hu1v2 + tmsint * hnv2 * hnu1) * coslambdaStart / q)
    let jac := jac.set 4 3 u1v2
    jac.set 4 4 v1v2

/-- `simplifiedPropagation::getJacobian`, simplifiedPropagation.cc:6-21; `qop` and the energy loss are ignored -/
def simplifiedJacobian (jac : M5) (dw _qop : Dbl) (tStart tEnd bfield : V3) (_NrjLoss : Dbl) : M5 :=
  let jac := M5.unit jac
  let dz := tStart.z - tEnd.z
  let cosLambda := 1 / Dbl.sqrt (1 + dz * dz)
  let jac := jac.set 2 0 (-bfield.z * dw)
  let jac := jac.set 3 0 (-(0.5 : Dbl) * bfield.z * dw * dw * cosLambda)
  let jac := jac.set 3 2 (dw * cosLambda)
  jac.set 4 1 dw

end Verif
