import Verif.Model.RoundedHelix
import Verif.Model.Propagation

/-!
# Propagation Jacobian in double precision

`analyticalPropagation::getJacobian` and `simplifiedPropagation::getJacobian` with the arithmetic of Model/RoundedArith.
-/

open Classical

noncomputable section

namespace Verif

namespace Rnd

/-- `trans()`, Vector3D.hh:174-177 -/
def transV (fl : ℝ → ℝ) (v : V3) : Dbl := sqrtD fl (addD fl (mulD fl v.x v.x) (mulD fl v.y v.y))

/-- `convertBr2P_cm`, core/include/aidaTT-Units.hh:51: `0.299792458 * (centimeter / meter)` with the numbers 1 and 100 of DD4hep -/
def convD (fl : ℝ → ℝ) : Dbl := mulD fl (rnd fl 1024 (.fin 0.299792458)) (divD fl 1 (.fin 100))

/-- the vector `dx`, analyticalPropagation.cc:66-68 -/
def jacDx (fl : ℝ → ℝ) (gamma tmsint sint omcost q hn t an : Dbl) : Dbl :=
  divD fl (-addD fl (addD fl (mulD fl (mulD fl gamma tmsint) hn) (mulD fl sint t)) (mulD fl omcost an)) q

/-- the sums in rows 1 and 2, analyticalPropagation.cc:111-126: `cost * a + sint * b + omcost * c * d + n * (-sint * e + omcost * f - gamma * tmsint * c)` -/
def jacTurn (fl : ℝ → ℝ) (cost sint omcost tmsint gamma a b c d n e f : Dbl) : Dbl :=
  addD fl (addD fl (addD fl (mulD fl cost a) (mulD fl sint b)) (mulD fl (mulD fl omcost c) d))
    (mulD fl n (subD fl (addD fl (mulD fl (-sint) e) (mulD fl omcost f)) (mulD fl (mulD fl gamma tmsint) c)))

/-- the sums in rows 3 and 4, analyticalPropagation.cc:131-139: `sint * a + omcost * b + tmsint * c * d` -/
def jacShift (fl : ℝ → ℝ) (sint omcost tmsint a b c d : Dbl) : Dbl :=
  addD fl (addD fl (mulD fl sint a) (mulD fl omcost b)) (mulD fl (mulD fl tmsint c) d)

/-- `analyticalPropagation::getJacobian`, analyticalPropagation.cc:8-143 -/
def analyticalJacobian (fl : ℝ → ℝ) (lm : Libm) (jac : M5) (dw qop : Dbl) (tStart tEnd bfield : V3) (NrjLoss : Dbl) : M5 :=
  let qp := mulD fl (-rV fl bfield) (convD fl)
  let q := mulD fl qp qop
  ifc Dbl.eqv q 0 then
    let jac := jac.set 3 2 (mulD fl dw (transV fl tStart))
    jac.set 4 1 dw
  else
    let coslambdaStart := transV fl tStart
    let coslambdaEnd := transV fl tEnd
    let coslambdaEndInv := divD fl 1 coslambdaEnd
    let hn := unitV fl bfield
    let pav := divD fl 1 qop
    let theta := mulD fl q dw
    let sint := sinD lm theta
    let cost := cosD lm theta
    let gamma := dotV fl hn tEnd
    let an1 := crossV fl hn tStart
    let an2 := crossV fl hn tEnd
    let au1 := divD fl 1 (transV fl tStart)
    let u1 : V3 := ⟨mulD fl (-au1) tStart.y, mulD fl au1 tStart.x, 0⟩
    let v1 : V3 := ⟨mulD fl (-tStart.z) u1.y, mulD fl tStart.z u1.x, subD fl (mulD fl tStart.x u1.y) (mulD fl tStart.y u1.x)⟩
    let au2 := divD fl 1 (transV fl tEnd)
    let u2 : V3 := ⟨mulD fl (-au2) tEnd.y, mulD fl au2 tEnd.x, 0⟩
    let v2 : V3 := ⟨mulD fl (-tEnd.z) u2.y, mulD fl tEnd.z u2.x, subD fl (mulD fl tEnd.x u2.y) (mulD fl tEnd.y u2.x)⟩
    let anv := -dotV fl hn u2
    let anu := dotV fl hn v2
    let omcost := subD fl 1 cost
    let tmsint := subD fl theta sint
    let dx : V3 := ⟨jacDx fl gamma tmsint sint omcost q hn.x tStart.x an1.x, jacDx fl gamma tmsint sint omcost q hn.y tStart.y an1.y,
      jacDx fl gamma tmsint sint omcost q hn.z tStart.z an1.z⟩
    let hu1 := crossV fl hn u1
    let hv1 := crossV fl hn v1
    let u1u2 := dotV fl u1 u2
    let u1v2 := dotV fl u1 v2
    let v1u2 := dotV fl v1 u2
    let v1v2 := dotV fl v1 v2
    let hu1u2 := dotV fl hu1 u2
    let hu1v2 := dotV fl hu1 v2
    let hv1u2 := dotV fl hv1 u2
    let hv1v2 := dotV fl hv1 v2
    let hnu1 := dotV fl hn u1
    let hnv1 := dotV fl hn v1
    let hnu2 := dotV fl hn u2
    let hnv2 := dotV fl hn v2
    let tEndu1 := dotV fl tEnd u1
    let tEndv1 := dotV fl tEnd v1
    let tEnddx := dotV fl tEnd dx
    let u2dx := dotV fl u2 dx
    let v2dx := dotV fl v2 dx
    let an2u1 := dotV fl an2 u1
    let an2v1 := dotV fl an2 v1
    -- 1/P
    let jac := jac.set 0 0 (addD fl 1 NrjLoss)
    -- Lambda
    let jac := jac.set 1 0 (mulD fl (mulD fl (-qp) anv) tEnddx)
    let jac := jac.set 1 1 (jacTurn fl cost sint omcost tmsint gamma v1v2 hv1v2 hnv1 hnv2 anv tEndv1 an2v1)
    let jac := jac.set 1 2 (mulD fl coslambdaStart (jacTurn fl cost sint omcost tmsint gamma u1v2 hu1v2 hnu1 hnv2 anv tEndu1 an2u1))
    let jac := jac.set 1 3 (mulD fl (mulD fl (-q) anv) tEndu1)
    let jac := jac.set 1 4 (mulD fl (mulD fl (-q) anv) tEndv1)
    -- Phi
    let jac := jac.set 2 0 (mulD fl (mulD fl (mulD fl (-qp) anu) tEnddx) coslambdaEndInv)
    let jac := jac.set 2 1 (mulD fl coslambdaEndInv (jacTurn fl cost sint omcost tmsint gamma v1u2 hv1u2 hnv1 hnu2 anu tEndv1 an2v1))
    let jac := jac.set 2 2 (mulD fl (mulD fl coslambdaEndInv coslambdaStart)
      (jacTurn fl cost sint omcost tmsint gamma u1u2 hu1u2 hnu1 hnu2 anu tEndu1 an2u1))
    let jac := jac.set 2 3 (mulD fl (mulD fl (mulD fl (-q) anu) tEndu1) coslambdaEndInv)
    let jac := jac.set 2 4 (mulD fl (mulD fl (mulD fl (-q) anu) tEndv1) coslambdaEndInv)
    -- Xt
    let jac := jac.set 3 0 (mulD fl pav u2dx)
    let jac := jac.set 3 1 (divD fl (jacShift fl sint omcost tmsint v1u2 hv1u2 hnu2 hnv1) q)
    let jac := jac.set 3 2 (divD fl (mulD fl (jacShift fl sint omcost tmsint u1u2 hu1u2 hnu2 hnu1) coslambdaStart) q)
    let jac := jac.set 3 3 u1u2
    let jac := jac.set 3 4 v1u2
    -- Yt
    let jac := jac.set 4 0 (mulD fl pav v2dx)
    let jac := jac.set 4 1 (divD fl (jacShift fl sint omcost tmsint v1v2 hv1v2 hnv2 hnv1) q)
    let jac := jac.set 4 2 (divD fl (mulD fl (jacShift fl sint omcost tmsint u1v2 hu1v2 hnv2 hnu1) coslambdaStart) q)
    let jac := jac.set 4 3 u1v2
    jac.set 4 4 v1v2

/-- `simplifiedPropagation::getJacobian`, simplifiedPropagation.cc:6-21 -/
def simplifiedJacobian (fl : ℝ → ℝ) (jac : M5) (dw _qop : Dbl) (tStart tEnd bfield : V3) (_NrjLoss : Dbl) : M5 :=
  let jac := M5.unit jac
  let dz := subD fl tStart.z tEnd.z
  let cosLambda := divD fl 1 (sqrtD fl (addD fl 1 (mulD fl dz dz)))
  let jac := jac.set 2 0 (mulD fl (-bfield.z) dw)
  let jac := jac.set 3 0 (mulD fl (mulD fl (mulD fl (mulD fl (-(.fin (1 / 2))) bfield.z) dw) dw) cosLambda)
  let jac := jac.set 3 2 (mulD fl dw cosLambda)
  jac.set 4 1 dw

end Rnd

end Verif
