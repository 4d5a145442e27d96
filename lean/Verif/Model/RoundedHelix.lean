import Verif.Model.RoundedArith
import Verif.Model.SurfaceIntersection

/-!
# Helix functions in double precision

The functions of `helixUtils.cc` that give points of a track for a path length, and the intersection with a disk, with the arithmetic of
Model/RoundedArith: every operation is rounded.  `sin` and `cos` of the C library are functions on the numbers of type `double`.
-/

open Classical

noncomputable section

namespace Verif

namespace Rnd

/-- `sin` and `cos` of the C library, for finite arguments -/
structure Libm where
  sin : ℝ → ℝ
  cos : ℝ → ℝ

/-- errors of less than one unit in the last place (glibc states this for `sin` and `cos`) -/
structure IsLibm (lm : Libm) : Prop where
  sin_err : ∀ x, |lm.sin x - Real.sin x| ≤ |Real.sin x| / 2 ^ 52 + 1 / 2 ^ 1074
  cos_err : ∀ x, |lm.cos x - Real.cos x| ≤ |Real.cos x| / 2 ^ 52 + 1 / 2 ^ 1074

/-- `sin` of a `double`; NaN for infinity -/
def sinD (lm : Libm) : Dbl → Dbl
  | .fin x => .fin (lm.sin x)
  | _ => .nan

/-- `cos` of a `double`; NaN for infinity -/
def cosD (lm : Libm) : Dbl → Dbl
  | .fin x => .fin (lm.cos x)
  | _ => .nan

/-- `calculateX0`, helixUtils.hh:48-51 -/
def calculateX0 (fl : ℝ → ℝ) (lm : Libm) (hp : V5) (rp : V3) : Dbl :=
  addD fl (mulD fl (sinD lm (-calculatePhi0 hp)) (calculateD0 hp)) rp.x

/-- `calculateY0`, helixUtils.hh:59-61 -/
def calculateY0 (fl : ℝ → ℝ) (lm : Libm) (hp : V5) (rp : V3) : Dbl :=
  addD fl (mulD fl (cosD lm (calculatePhi0 hp)) (calculateD0 hp)) rp.y

/-- `calculateXfromS`, helixUtils.cc:98-107 -/
def calculateXfromS (fl : ℝ → ℝ) (lm : Libm) (s : Dbl) (hp : V5) (rp : V3) : Dbl :=
  let x0 := calculateX0 fl lm hp rp
  let phi0 := calculatePhi0 hp
  let curvature := calculateCurvature hp
  ifc ¬ Dbl.eqv curvature 0 then
    addD fl x0 (mulD fl (mulD fl (divD fl 2 curvature) (sinD lm (divD fl (mulD fl curvature s) 2)))
      (cosD lm (subD fl phi0 (divD fl (mulD fl curvature s) 2))))
  else addD fl x0 (mulD fl s (cosD lm phi0))

/-- `calculateYfromS`, helixUtils.cc:111-120 -/
def calculateYfromS (fl : ℝ → ℝ) (lm : Libm) (s : Dbl) (hp : V5) (rp : V3) : Dbl :=
  let y0 := calculateY0 fl lm hp rp
  let phi0 := calculatePhi0 hp
  let curvature := calculateCurvature hp
  ifc ¬ Dbl.eqv curvature 0 then
    addD fl y0 (mulD fl (mulD fl (divD fl 2 curvature) (sinD lm (divD fl (mulD fl curvature s) 2)))
      (sinD lm (subD fl phi0 (divD fl (mulD fl curvature s) 2))))
  else addD fl y0 (mulD fl s (cosD lm phi0))

/-- `calculateZfromS`, helixUtils.cc:124-129 -/
def calculateZfromS (fl : ℝ → ℝ) (s : Dbl) (hp : V5) (rp : V3) : Dbl :=
  addD fl (addD fl (calculateZ0 hp) rp.z) (mulD fl s (calculateTanLambda hp))

/-- `pointAt`, helixUtils.cc:147-167 -/
def pointAt (fl : ℝ → ℝ) (lm : Libm) (s : Dbl) (hp : V5) (rp : V3) : V3 :=
  let omega := calculateOmega hp
  let phi0 := calculatePhi0 hp
  let tanl := calculateTanLambda hp
  let d0 := calculateD0 hp
  let z0 := calculateZ0 hp
  let sinphi := sinD lm phi0
  let cosphi := cosD lm phi0
  ⟨addD fl (subD fl rp.x (mulD fl d0 sinphi)) (mulD fl (divD fl 1 omega) (subD fl sinphi (sinD lm (subD fl phi0 (mulD fl s omega))))),
   subD fl (addD fl rp.y (mulD fl d0 cosphi)) (mulD fl (divD fl 1 omega) (subD fl cosphi (cosD lm (subD fl phi0 (mulD fl s omega))))),
   addD fl (addD fl rp.z z0) (mulD fl s tanl)⟩

/-- `intersectWithZDisk`, helixUtils.cc:633-652; `mode * s` is exact for the modes -1, 0 and 1 -/
def intersectWithZDisk (fl : ℝ → ℝ) (lm : Libm) (surf : Surface) (hp : V5) (rp : V3) (mode : ℤ) (checkBounds : Bool) : Hit :=
  let planePositionZ := surf.origin.z
  let helixPositionZ := addD fl rp.z (calculateZ0 hp)
  let s := divD fl (subD fl planePositionZ helixPositionZ) (calculateTanLambda hp)
  let x := calculateXfromS fl lm s hp rp
  let y := calculateYfromS fl lm s hp rp
  let xx : V3 := ⟨x, y, planePositionZ⟩
  ifc modeOk mode s then ⟨boundsOk surf checkBounds xx, s, xx⟩ else ⟨false, s, xx⟩

end Rnd

end Verif
