import Verif.Model.RoundedPath
import Verif.Model.RoundedPropagation

/-!
# Momentum along a track and start helix in double precision

`momentumAt`, `momentumAtPCA` and `calculateStartHelix` (util/src/helixUtils.cc) with the arithmetic of Model/RoundedArith.  The magnetic
field is any function.
-/

open Classical

noncomputable section

namespace Verif

namespace Rnd

open Rounded (mPi)

/-- the transverse momentum, helixUtils.cc:175-177 and 191-193 -/
def transverseMomentum (fl : ℝ → ℝ) (bField : V3 → V3) (hp : V5) (rp : V3) : Dbl :=
  let omega := calculateOmega hp
  let bfieldZ := (bField rp).z
  mulD fl (mulD fl (Dbl.abs (divD fl 1 omega)) bfieldZ) (convD fl)

/-- `momentumAt` for a path length, helixUtils.cc:169-182 -/
def momentumAtS (fl : ℝ → ℝ) (lm : Libm) (bField : V3 → V3) (s : Dbl) (hp : V5) (rp : V3) : V3 :=
  let omega := calculateOmega hp
  let phi0 := calculatePhi0 hp
  let tanl := calculateTanLambda hp
  let pt := transverseMomentum fl bField hp rp
  ⟨mulD fl pt (cosD lm (subD fl phi0 (mulD fl s omega))), mulD fl pt (sinD lm (subD fl phi0 (mulD fl s omega))), mulD fl pt tanl⟩

/-- `momentumAtPCA`, helixUtils.cc:185-204; the output for small transverse momenta is left out -/
def momentumAtPCA (fl : ℝ → ℝ) (lm : Libm) (bField : V3 → V3) (hp : V5) (rp : V3) : V3 :=
  let phi := calculatePhi0 hp
  let tanl := calculateTanLambda hp
  let pt := transverseMomentum fl bField hp rp
  ⟨mulD fl pt (cosD lm phi), mulD fl pt (sinD lm phi), mulD fl pt tanl⟩

/-- `calculateStartHelix`, helixUtils.cc:208-251 -/
def calculateStartHelix (fl : ℝ → ℝ) (at2 : ℝ → ℝ → ℝ) (x1 x2 x3 : V3) (tp : TP) (backward : Bool) : TP :=
  let ez : V3 := ⟨0, 0, 1⟩
  let x12 : V3 := { subV fl x2 x1 with z := 0 }
  let x13 : V3 := { subV fl x3 x1 with z := 0 }
  let x23 : V3 := { subV fl x3 x2 with z := 0 }
  let x12mag := rV fl x12
  let x12 := unitV fl x12
  let x13mag := rV fl x13
  let x13 := unitV fl x13
  let x23mag := rV fl x23
  let x23 := unitV fl x23
  let sinHalfPhi23 := (crossV fl x12 x13).z
  let cosHalfPhi23 := mulD fl (.fin (1 / 2)) (addD fl (divD fl x13mag x12mag)
    (divD fl (mulD fl (subD fl 1 (divD fl x23mag x12mag)) (addD fl x12mag x23mag)) x13mag))
  let halfPhi23 := atan2D fl at2 sinHalfPhi23 cosHalfPhi23
  let r := divD fl (mulD fl (-.fin (1 / 2)) x23mag) sinHalfPhi23
  let xc := addV fl (smulV fl (.fin (1 / 2)) (addV fl x2 x3)) (smulV fl (mulD fl r cosHalfPhi23) (crossV fl x23 ez))
  let r := if backward then -r else r
  let om := divD fl 1 r
  let tl := divD fl (subD fl x2.z x3.z) (mulD fl (mulD fl r 2) halfPhi23)
  let ph := addD fl (atan2D fl at2 (mulD fl r (subD fl xc.y x1.y)) (mulD fl r (subD fl xc.x x1.x))) (divD fl (.fin mPi) 2)
  { tp with hp := V5.mk om tl ph 0 0, rp := x1 }

end Rnd

end Verif
