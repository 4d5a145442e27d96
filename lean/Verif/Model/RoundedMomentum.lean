import Verif.Model.RoundedMaterial
import Verif.Model.RoundedNewton
import Verif.Model.RoundedPropagation

/-!
# Momentum at a surface in double precision

`calculatePhifromXY` (core/src/helixUtils.cc) and the variants of `computeQMS` and `computeEnergyLoss` (util/src/materialUtils.cc) that look
for the crossing point of a track themselves, with the arithmetic of Model/RoundedArith.  The magnetic field is any function.
-/

open Classical

noncomputable section

namespace Verif

namespace Rnd

/-- `calculatePhifromXY`, helixUtils.cc:56-65 -/
def calculatePhifromXY (fl : ℝ → ℝ) (lm : Libm) (at2 : ℝ → ℝ → ℝ) (x y : Dbl) (hp : V5) (rp : V3) : Dbl :=
  let x0 := calculateX0 fl lm hp rp
  let y0 := calculateY0 fl lm hp rp
  let phi0 := calculatePhi0 hp
  let curvature := calculateCurvature hp
  atan2D fl at2 (subD fl (sinD lm phi0) (mulD fl curvature (subD fl x x0))) (addD fl (cosD lm phi0) (mulD fl curvature (subD fl y y0)))

/-- the momentum at a crossing point, materialUtils.cc:24-33 and 218-227 -/
def momentumAt (fl : ℝ → ℝ) (lm : Libm) (at2 : ℝ → ℝ → ℝ) (bField : V3 → V3) (xx : V3) (hp : V5) (rp : V3) : V3 :=
  let phi := calculatePhifromXY fl lm at2 xx.x xx.y hp rp
  let omega := calculateOmega hp
  let tanl := calculateTanLambda hp
  let bfieldZ := (bField xx).z
  let pt := mulD fl (mulD fl (Dbl.abs (divD fl 1 omega)) bfieldZ) (convD fl)
  ⟨mulD fl pt (cosD lm phi), mulD fl pt (sinD lm phi), mulD fl pt tanl⟩

/-- `computeQMS` for a helix, materialUtils.cc:13-36 -/
def computeQMSHelix (fl : ℝ → ℝ) (lm : Libm) (at2 : ℝ → ℝ → ℝ) (asn atn : ℝ → ℝ) (lg : LogLib) (bField : V3 → V3) (surf : Surface) (hp : V5)
    (rp : V3) (mass : Dbl) : Out Dbl := do
  let h ← intersectWithSurface fl lm at2 asn atn surf hp rp 0 V3.zero 0 true
  if h.found then
    pure (computeQMS fl lg surf (surf.globalToLocal h.xx) (momentumAt fl lm at2 bField h.xx hp rp) mass)
  else pure 0

/-- `computeEnergyLoss` for track parameters, materialUtils.cc:200-230; `energy` and `beta` are the variables
passed by reference (they keep their content if the track does not cross the surface) -/
def computeEnergyLossTrack (fl : ℝ → ℝ) (lm : Libm) (at2 : ℝ → ℝ → ℝ) (asn atn : ℝ → ℝ) (lg : LogLib) (bField : V3 → V3) (surf : Surface)
    (tp : TP) (energy beta : Option Dbl) (mass : Dbl) : Out ELoss := do
  let h ← intersectWithSurface fl lm at2 asn atn surf tp.hp tp.rp 0 V3.zero 0 true
  if h.found then
    pure (computeEnergyLoss fl lg surf (surf.globalToLocal h.xx) (momentumAt fl lm at2 bField h.xx tp.hp tp.rp) mass)
  else pure ⟨0, energy, beta⟩

end Rnd

end Verif
