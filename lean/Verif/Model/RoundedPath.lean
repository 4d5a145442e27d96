import Verif.Model.RoundedHelix
import Verif.Model.Rounding

/-!
# `calculateSfromXY` in double precision

The path length for a point, with the arithmetic of Model/RoundedArith.  `sin`, `cos` and `atan2` of the C library are functions on the
numbers of type `double`.
-/

open Classical

noncomputable section

namespace Verif

namespace Rnd

/-- errors of `atan2` of the C library of less than one unit in the last place -/
def IsAtan2 (at2 : ℝ → ℝ → ℝ) : Prop :=
  ∀ y x, ¬ (x = 0 ∧ y = 0) → |at2 y x - Dbl.ratan2 y x| ≤ |Dbl.ratan2 y x| / 2 ^ 52 + 1 / 2 ^ 1074

/-- the results of `sin`, `cos` and `atan2` are the numbers next to the exact ones -/
structure CorrectLib (fl : ℝ → ℝ) (lm : Libm) (at2 : ℝ → ℝ → ℝ) : Prop where
  sin : ∀ x, lm.sin x = fl (Real.sin x)
  cos : ∀ x, lm.cos x = fl (Real.cos x)
  atan2 : ∀ y x, at2 y x = fl (Dbl.ratan2 y x)

/-- `atan2` of numbers of type `double` -/
def atan2D (fl : ℝ → ℝ) (at2 : ℝ → ℝ → ℝ) : Dbl → Dbl → Dbl
  | .fin y, .fin x => .fin (at2 y x)
  | y, x => rnd fl 1024 (Dbl.atan2 y x)

/-- `calculateSfromXY`, helixUtils.cc:69-94; `M_PI` is the `double` of Model/Rounding -/
def calculateSfromXY (fl : ℝ → ℝ) (lm : Libm) (at2 : ℝ → ℝ → ℝ) (x y : Dbl) (hp : V5) (rp : V3) : Dbl :=
  let phi0 := calculatePhi0 hp
  let d0 := calculateD0 hp
  let curvature := calculateCurvature hp
  let sinPhi0 := sinD lm phi0
  let cosPhi0 := cosD lm phi0
  let x0 := subD fl rp.x (mulD fl sinPhi0 d0)
  let y0 := addD fl rp.y (mulD fl cosPhi0 d0)
  let dx := subD fl x x0
  let dy := subD fl y y0
  let phi := atan2D fl at2 (subD fl sinPhi0 (mulD fl curvature dx)) (addD fl cosPhi0 (mulD fl curvature dy))
  let dphi := subD fl phi phi0
  let dphi := ifc dphi < -(.fin Rounded.mPi) then addD fl dphi (mulD fl 2 (.fin Rounded.mPi))
              else ifc .fin Rounded.mPi < dphi then subD fl dphi (mulD fl 2 (.fin Rounded.mPi)) else dphi
  ifc ¬ Dbl.eqv dphi 0 then
    divD fl (mulD fl (addD fl (mulD fl dx cosPhi0) (mulD fl dy sinPhi0)) dphi) (sinD lm dphi)
  else 0

end Rnd

end Verif
