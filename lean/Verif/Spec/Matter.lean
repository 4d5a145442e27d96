import Mathlib.Analysis.SpecialFunctions.Pow.Real
import Mathlib.Analysis.SpecialFunctions.Log.Basic

/-!
# Passage of particles through matter

Formulas of the Review of Particle Physics, for a particle of charge 1; units GeV, cm, g.  Independent of the model.
-/

noncomputable section

namespace Verif.Spec

/-- electron mass -/
def electronMass : ℝ := 0.510998902e-3

/-- maximal energy transfer to an electron in a collision, for momentum `p` and mass `m` -/
def maxTransfer (p m : ℝ) : ℝ :=
  2 * electronMass * (p / m) ^ 2 / (1 + 2 * Real.sqrt (1 + (p / m) ^ 2) * (electronMass / m) + (electronMass / m) ^ 2)

/-- square of the velocity -/
def betaSq (p m : ℝ) : ℝ := p ^ 2 / (p ^ 2 + m ^ 2)

/-- the Bethe formula: energy loss per path length times density for mean excitation energy `I` and density correction `δ` -/
def bethe (Z A I δ p m : ℝ) : ℝ :=
  0.307075e-3 * (Z / A) / betaSq p m *
    (1 / 2 * Real.log (2 * electronMass * (p / m) ^ 2 * maxTransfer p m / I ^ 2) - betaSq p m - δ / 2)

/-- Sternheimer's parametrisation of the density correction, with the plasma energy `hwp`; parameters x0 = 0, x1 = 3, k = 3
and 4.606 for 2 log 10 -/
def sternheimer (I hwp x : ℝ) : ℝ :=
  let C := 2 * Real.log (I / hwp) + 1
  if x < 0 then 0 else if x < 3 then 4.606 * x - C + C / 27 * (3 - x) ^ 3 else 4.606 * x - C

/-- mean excitation energy of an element -/
def excitation (Z : ℝ) : ℝ := (9.76 * Z + 58.8 * Z ^ (-0.19 : ℝ)) * 1e-9

/-- plasma energy -/
def plasma (rho Z A : ℝ) : ℝ := 28.816e-9 * Real.sqrt (rho * (Z / A))

/-- Highland's formula: width of the projected scattering angle for a path of `x` radiation lengths -/
def highland (x p m : ℝ) : ℝ := 0.0136 / (Real.sqrt (betaSq p m) * p) * Real.sqrt x * (1 + 0.038 * Real.log x)

end Verif.Spec
