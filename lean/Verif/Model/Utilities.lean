import Verif.Model.Helix

/-!
# Parameter conversions and local frames

Model of `util/src/utilities.cc`.  The functions take a `trackParameters`; they only read its helix
parameters, so the model takes `hp : V5`.  Heap allocation of the results is left out (the results are
returned as values).  `pointOnTrajectory` (utilities.hh:31) is declared but not defined in /repo.
-/

open Classical

noncomputable section

namespace Verif

/-! perigee index constants, util/include/utilities.hh:19-26 -/
/-- perigeeKAPPA = 0 -/
abbrev perigeeKAPPA : Fin 5 := 0
/-- perigeeTHETA = 1 -/
abbrev perigeeTHETA : Fin 5 := 1
/-- perigeePHI = 2 -/
abbrev perigeePHI : Fin 5 := 2
/-- perigeeEPSILON = 3 -/
abbrev perigeeEPSILON : Fin 5 := 3
/-- perigeeZP = 4 -/
abbrev perigeeZP : Fin 5 := 4

/-- `calculateQoverP`, utilities.cc:9-16 -/
def calculateQoverP (hp : V5) (bfield : Dbl) : Dbl :=
  ifc ¬ Dbl.eqv bfield 0 then
    Dbl.cos (calculateLambda hp) * calculateCurvature hp / (bfield * convertBr2P_cm)
  else 0

/-- `curvilinearToPerigeeJacobian`, utilities.cc:25-90.  The assignments are in program order on a
default constructed (zero) matrix on which `Unit()` has been called. -/
def curvilinearToPerigeeJacobian (hp : V5) (bfield : V3) : M5 :=
  let lambda := calculateLambda hp
  let phi0 := calculatePhi0 hp
  let omega_test := calculateCurvature hp
  let cosPhi := Dbl.cos phi0
  let sinPhi := Dbl.sin phi0
  let tanLambda := Dbl.tan lambda
  let cosLambda := 1 / Dbl.sqrt (1 + tanLambda * tanLambda)
  let sinLambda := Dbl.sin lambda
  let T : V3 := ⟨cosPhi * cosLambda, sinPhi * cosLambda, sinLambda⟩
  let U : V3 := ⟨-sinPhi, cosPhi, 0⟩
  let V : V3 := ⟨-cosPhi * sinLambda, -sinPhi * sinLambda, cosLambda⟩
  let J : V3 := ⟨sinPhi, -cosPhi, 0⟩
  let K : V3 := ⟨0, 0, 1⟩
  let I := J.cross K
  let H := bfield.unit
  let aN := H.cross T
  let ui := U.dot I
  let anv := aN.dot V
  let ti := T.dot I
  let vi := V.dot I
  let anu := aN.dot U
  let vk := V.dot K
  let Q := cosLambda * omega_test
  let qbar := -1 * Q
  let jacobian := M5.unit M5.zero
  let jacobian := jacobian.set 0 0 (-bfield.z * convertBr2P_cm / cosLambda)
  let jacobian := jacobian.set 0 1 (-qbar * tanLambda / cosLambda)
  let jacobian := jacobian.set 0 3 (qbar * Q * tanLambda * ui * anv / cosLambda / ti)
  let jacobian := jacobian.set 0 4 (qbar * Q * tanLambda * vi * anv / cosLambda / ti)
  let jacobian := jacobian.set 1 1 (-1)
  let jacobian := jacobian.set 1 3 (Q * ui * anv / ti)
  let jacobian := jacobian.set 1 4 (Q * vi * anv / ti)
  let jacobian := jacobian.set 2 3 (-Q * ui * anu / cosLambda / ti)
  let jacobian := jacobian.set 2 4 (-Q * vi * anu / cosLambda / ti)
  let jacobian := jacobian.set 3 3 (vk / ti)
  jacobian.set 4 4 (-1 / ti)

/-- `perigeeToL3Jacobian`, utilities.cc:168-192 -/
def perigeeToL3Jacobian (hp : V5) : M5 :=
  let tanLambda := calculateTanLambda hp
  let p2l3 := M5.zero
  let p2l3 := p2l3.set OMEGA perigeeKAPPA (-1)
  let p2l3 := p2l3.set TANL perigeeTHETA (-1 * (1 + tanLambda * tanLambda))
  let p2l3 := p2l3.set PHI0 perigeePHI 1
  let p2l3 := p2l3.set D0 perigeeEPSILON (-1)
  p2l3.set Z0 perigeeZP 1

/-- `L3ToPerigeeJacobian`, utilities.cc:201-215 -/
def L3ToPerigeeJacobian (hp : V5) : M5 :=
  let tanLambda := calculateTanLambda hp
  let l32p := M5.zero
  let l32p := l32p.set 0 0 (-1)
  let l32p := l32p.set 4 1 (-1 / (1 + tanLambda * tanLambda))
  let l32p := l32p.set 1 2 1
  let l32p := l32p.set 2 3 (-1)
  l32p.set 3 4 1

/-- `curvilinearToL3Jacobian`, utilities.cc:225-236 -/
def curvilinearToL3Jacobian (hp : V5) (bfield : V3) : M5 :=
  let cl2p := curvilinearToPerigeeJacobian hp bfield
  let p2L3 := perigeeToL3Jacobian hp
  M5.mul p2L3 cl2p

/-- `calculateLocalCurvilinearSystem`, utilities.cc:259-274: the pair (U, V) -/
def calculateLocalCurvilinearSystem (s : Dbl) (hp : V5) : V3 × V3 :=
  let omega := calculateCurvature hp
  let phi0 := calculatePhi0 hp
  let lambda := calculateLambda hp
  (⟨-Dbl.sin (phi0 - omega * s), Dbl.cos (phi0 - omega * s), 0⟩,
   ⟨-Dbl.cos (phi0 - omega * s) * Dbl.sin lambda, -Dbl.sin (phi0 - omega * s) * Dbl.sin lambda,
    Dbl.cos lambda⟩)

/-- the companion direction constructed for a one-dimensional measurement, utilities.cc:298-304 -/
def companionDirection (m : V3) : V3 :=
  let mdir := m.unit
  let ortho : V3 := ⟨mdir.z, mdir.z, -mdir.x - mdir.y⟩
  ifc ortho.r < (1e-6 : Dbl) then ⟨-mdir.y - mdir.z, mdir.x, mdir.x⟩ else ortho

/-- `calculateLocalToMeasurementProjectionMatrix`, utilities.cc:278-337: the four elements of the
returned vector. -/
def calculateLocalToMeasurementProjectionMatrix (clU clV : V3) (measDirs : List V3) :
    Out (Fin 4 → Dbl) := do
  let (a, b, c, d) ← match measDirs with
    | [m] =>
      let ortho := companionDirection m
      .ok (m.dot clU, m.dot clV, ortho.dot clU, ortho.dot clV)
    | [m, m'] => .ok (m.dot clU, m.dot clV, m'.dot clU, m'.dot clV)
    | _ => .throw "Measurement dimensions > 2 are not yet implemented."
  let determinant := a * d - b * c
  ifc ¬ Dbl.eqv determinant 0 then
    .ok ![d / determinant, -b / determinant, -c / determinant, a / determinant]
  else .throw "Projection matrix can't be inverted, bailing out."

end Verif
