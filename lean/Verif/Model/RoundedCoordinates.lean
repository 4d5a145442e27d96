import Verif.Model.RoundedPath
import Verif.Model.RoundedPropagation

/-!
# Cylindrical and spherical coordinates of `Vector3D` in double precision

As in `Verif.Model.Vec`, with the arithmetic of Model/RoundedArith and the functions of the C library of Model/RoundedHelix and Model/RoundedPath.
-/

open Classical

noncomputable section

namespace Verif

namespace Rnd

/-- `phi()`, Vector3D.hh:162-165 -/
def phiV (fl : ℝ → ℝ) (at2 : ℝ → ℝ → ℝ) (v : V3) : Dbl :=
  ifc Dbl.eqv v.x 0 ∧ Dbl.eqv v.y 0 then 0 else atan2D fl at2 v.y v.x

/-- `trans2()`, Vector3D.hh:180-183 -/
def trans2V (fl : ℝ → ℝ) (v : V3) : Dbl := addD fl (mulD fl v.x v.x) (mulD fl v.y v.y)

/-- `rho()`, Vector3D.hh:168-171; `trans()` is `transV` of Model/RoundedPropagation -/
def rhoV (fl : ℝ → ℝ) (v : V3) : Dbl := transV fl v

/-- `r2()`, Vector3D.hh:193-196 -/
def r2V (fl : ℝ → ℝ) (v : V3) : Dbl := addD fl (addD fl (mulD fl v.x v.x) (mulD fl v.y v.y)) (mulD fl v.z v.z)

/-- `theta()`, Vector3D.hh:199-202 -/
def thetaV (fl : ℝ → ℝ) (at2 : ℝ → ℝ → ℝ) (v : V3) : Dbl :=
  ifc Dbl.eqv v.x 0 ∧ Dbl.eqv v.y 0 ∧ Dbl.eqv v.z 0 then 0 else atan2D fl at2 (rhoV fl v) v.z

/-- cylindrical constructor, Vector3D.hh:327-331 -/
def cylindricalV (fl : ℝ → ℝ) (lm : Libm) (rho phi z : Dbl) : V3 := ⟨mulD fl rho (cosD lm phi), mulD fl rho (sinD lm phi), z⟩

/-- spherical constructor, Vector3D.hh:338-344 -/
def sphericalV (fl : ℝ → ℝ) (lm : Libm) (r phi theta : Dbl) : V3 :=
  let rst := mulD fl r (sinD lm theta)
  ⟨mulD fl rst (cosD lm phi), mulD fl rst (sinD lm phi), mulD fl r (cosD lm theta)⟩

end Rnd

end Verif
