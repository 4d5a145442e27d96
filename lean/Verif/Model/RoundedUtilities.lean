import Verif.Model.RoundedNewton
import Verif.Model.RoundedPropagation
import Verif.Model.Utilities

/-!
# Parameter conversions and local frames in double precision

`util/src/utilities.cc` with the arithmetic of Model/RoundedArith.  The sums in products of matrices may be computed in any order.
-/

open Classical

noncomputable section

namespace Verif

namespace Rnd

/-- errors of `tan` of the C library of less than one unit in the last place -/
def IsTan (tn : ℝ → ℝ) : Prop := ∀ x, |tn x - Real.tan x| ≤ |Real.tan x| / 2 ^ 52 + 1 / 2 ^ 1074

/-- `tan` of a `double`; NaN for infinity -/
def tanD (tn : ℝ → ℝ) : Dbl → Dbl
  | .fin x => .fin (tn x)
  | _ => .nan

/-- `b` is a sum of the numbers of the list, added in some order -/
inductive SumOf (fl : ℝ → ℝ) : List Dbl → Dbl → Prop
  | one (a : Dbl) : SumOf fl [a] a
  | add {l m : List Dbl} {a b : Dbl} : SumOf fl l a → SumOf fl m b → SumOf fl (l ++ m) (addD fl a b)
  | perm {l m : List Dbl} {a : Dbl} : l.Perm m → SumOf fl l a → SumOf fl m a

/-- the product of 5x5 matrices of Eigen: sums of five products, added in some order -/
def IsProduct (fl : ℝ → ℝ) (mm : M5 → M5 → M5) : Prop :=
  ∀ a b i j, SumOf fl ((List.finRange 5).map fun k => mulD fl (a i k) (b k j)) (mm a b i j)

/-- `calculateLambda`, trackParameterizationLCIO.hh:93-95 -/
def calculateLambda (fl : ℝ → ℝ) (atn : ℝ → ℝ) (hp : V5) : Dbl := atanD fl atn (calculateTanLambda hp)

/-- `calculateQoverP`, utilities.cc:9-16 -/
def calculateQoverP (fl : ℝ → ℝ) (lm : Libm) (atn : ℝ → ℝ) (hp : V5) (bfield : Dbl) : Dbl :=
  ifc ¬ Dbl.eqv bfield 0 then
    divD fl (mulD fl (cosD lm (calculateLambda fl atn hp)) (calculateCurvature hp)) (mulD fl bfield (convD fl))
  else 0

/-- `curvilinearToPerigeeJacobian`, utilities.cc:25-90.  The assignments are in program order on a default constructed (zero) matrix on
which `Unit()` has been called. -/
def curvilinearToPerigeeJacobian (fl : ℝ → ℝ) (lm : Libm) (atn tn : ℝ → ℝ) (hp : V5) (bfield : V3) : M5 :=
  let lambda := calculateLambda fl atn hp
  let phi0 := calculatePhi0 hp
  let omega_test := calculateCurvature hp
  let cosPhi := cosD lm phi0
  let sinPhi := sinD lm phi0
  let tanLambda := tanD tn lambda
  let cosLambda := divD fl 1 (sqrtD fl (addD fl 1 (mulD fl tanLambda tanLambda)))
  let sinLambda := sinD lm lambda
  let T : V3 := ⟨mulD fl cosPhi cosLambda, mulD fl sinPhi cosLambda, sinLambda⟩
  let U : V3 := ⟨-sinPhi, cosPhi, 0⟩
  let V : V3 := ⟨mulD fl (-cosPhi) sinLambda, mulD fl (-sinPhi) sinLambda, cosLambda⟩
  let J : V3 := ⟨sinPhi, -cosPhi, 0⟩
  let K : V3 := ⟨0, 0, 1⟩
  let I := crossV fl J K
  let H := unitV fl bfield
  let aN := crossV fl H T
  let ui := dotV fl U I
  let anv := dotV fl aN V
  let ti := dotV fl T I
  let vi := dotV fl V I
  let anu := dotV fl aN U
  let vk := dotV fl V K
  let Q := mulD fl cosLambda omega_test
  let qbar := mulD fl (-1) Q
  let jacobian := M5.unit M5.zero
  let jacobian := jacobian.set 0 0 (divD fl (mulD fl (-bfield.z) (convD fl)) cosLambda)
  let jacobian := jacobian.set 0 1 (divD fl (mulD fl (-qbar) tanLambda) cosLambda)
  let jacobian := jacobian.set 0 3 (divD fl (divD fl (mulD fl (mulD fl (mulD fl (mulD fl qbar Q) tanLambda) ui) anv) cosLambda) ti)
  let jacobian := jacobian.set 0 4 (divD fl (divD fl (mulD fl (mulD fl (mulD fl (mulD fl qbar Q) tanLambda) vi) anv) cosLambda) ti)
  let jacobian := jacobian.set 1 1 (-1)
  let jacobian := jacobian.set 1 3 (divD fl (mulD fl (mulD fl Q ui) anv) ti)
  let jacobian := jacobian.set 1 4 (divD fl (mulD fl (mulD fl Q vi) anv) ti)
  let jacobian := jacobian.set 2 3 (divD fl (divD fl (mulD fl (mulD fl (-Q) ui) anu) cosLambda) ti)
  let jacobian := jacobian.set 2 4 (divD fl (divD fl (mulD fl (mulD fl (-Q) vi) anu) cosLambda) ti)
  let jacobian := jacobian.set 3 3 (divD fl vk ti)
  jacobian.set 4 4 (divD fl (-1) ti)

/-- `perigeeToL3Jacobian`, utilities.cc:168-192 -/
def perigeeToL3Jacobian (fl : ℝ → ℝ) (hp : V5) : M5 :=
  let tanLambda := calculateTanLambda hp
  let p2l3 := M5.zero
  let p2l3 := p2l3.set OMEGA perigeeKAPPA (-1)
  let p2l3 := p2l3.set TANL perigeeTHETA (mulD fl (-1) (addD fl 1 (mulD fl tanLambda tanLambda)))
  let p2l3 := p2l3.set PHI0 perigeePHI 1
  let p2l3 := p2l3.set D0 perigeeEPSILON (-1)
  p2l3.set Z0 perigeeZP 1

/-- `L3ToPerigeeJacobian`, utilities.cc:201-215 -/
def L3ToPerigeeJacobian (fl : ℝ → ℝ) (hp : V5) : M5 :=
  let tanLambda := calculateTanLambda hp
  let l32p := M5.zero
  let l32p := l32p.set 0 0 (-1)
  let l32p := l32p.set 4 1 (divD fl (-1) (addD fl 1 (mulD fl tanLambda tanLambda)))
  let l32p := l32p.set 1 2 1
  let l32p := l32p.set 2 3 (-1)
  l32p.set 3 4 1

/-- `curvilinearToL3Jacobian`, utilities.cc:225-236 -/
def curvilinearToL3Jacobian (fl : ℝ → ℝ) (lm : Libm) (atn tn : ℝ → ℝ) (mm : M5 → M5 → M5) (hp : V5) (bfield : V3) : M5 :=
  let cl2p := curvilinearToPerigeeJacobian fl lm atn tn hp bfield
  let p2L3 := perigeeToL3Jacobian fl hp
  mm p2L3 cl2p

/-- `calculateLocalCurvilinearSystem`, utilities.cc:259-274: the pair (U, V) -/
def calculateLocalCurvilinearSystem (fl : ℝ → ℝ) (lm : Libm) (atn : ℝ → ℝ) (s : Dbl) (hp : V5) : V3 × V3 :=
  let omega := calculateCurvature hp
  let phi0 := calculatePhi0 hp
  let lambda := calculateLambda fl atn hp
  let phi := subD fl phi0 (mulD fl omega s)
  (⟨-sinD lm phi, cosD lm phi, 0⟩,
   ⟨mulD fl (-cosD lm phi) (sinD lm lambda), mulD fl (-sinD lm phi) (sinD lm lambda), cosD lm lambda⟩)

/-- the companion direction constructed for a one-dimensional measurement, utilities.cc:298-304 -/
def companionDirection (fl : ℝ → ℝ) (m : V3) : V3 :=
  let mdir := unitV fl m
  let ortho : V3 := ⟨mdir.z, mdir.z, subD fl (-mdir.x) mdir.y⟩
  ifc rV fl ortho < rnd fl 1024 (1e-6 : Dbl) then ⟨subD fl (-mdir.y) mdir.z, mdir.x, mdir.x⟩ else ortho

/-- `calculateLocalToMeasurementProjectionMatrix`, utilities.cc:278-337: the four elements of the returned vector -/
def calculateLocalToMeasurementProjectionMatrix (fl : ℝ → ℝ) (clU clV : V3) (measDirs : List V3) : Out (Fin 4 → Dbl) := do
  let (a, b, c, d) ← match measDirs with
    | [m] =>
      let ortho := companionDirection fl m
      .ok (dotV fl m clU, dotV fl m clV, dotV fl ortho clU, dotV fl ortho clV)
    | [m, m'] => .ok (dotV fl m clU, dotV fl m clV, dotV fl m' clU, dotV fl m' clV)
    | _ => .throw "Measurement dimensions > 2 are not yet implemented."
  let determinant := subD fl (mulD fl a d) (mulD fl b c)
  ifc ¬ Dbl.eqv determinant 0 then
    .ok ![divD fl d determinant, divD fl (-b) determinant, divD fl (-c) determinant, divD fl a determinant]
  else .throw "Projection matrix can't be inverted, bailing out."

end Rnd

end Verif
