import Mathlib.Analysis.SpecialFunctions.Trigonometric.Deriv
import Mathlib.Analysis.SpecialFunctions.Trigonometric.Basic
import Mathlib.Data.Fin.VecNotation

/-!
# Specification: perigee, curvilinear and L3 parameters

The perigee parameters are (kappa, theta, phi, epsilon, zp), the L3 parameters (omega, tan lambda, phi0, d0, z0) with
omega = -kappa, lambda = pi/2 - theta, phi0 = phi, d0 = -epsilon, z0 = zp (utilities.cc:161-163).
-/

noncomputable section

namespace Verif.Spec

/-- conversion from perigee to L3 parameters -/
def perigeeToL3 (p : Fin 5 → ℝ) : Fin 5 → ℝ :=
  ![-p 0, Real.tan (Real.pi / 2 - p 1), p 2, -p 3, p 4]

end Verif.Spec
