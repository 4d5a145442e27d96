import Verif.Model.SurfaceIntersection

/-!
# Material effects

Model of `util/src/materialUtils.cc`.  Log output is left out.  Out-parameters `double& energy, double& beta` are
passed in and returned; `none` stands for a variable that has not been initialised.
-/

open Classical

noncomputable section

namespace Verif

/-- `log10` of the C library -/
def dlog10 (x : Dbl) : Dbl := Dbl.log x / .fin (Real.log 10)

/-- `pionMass`, materialUtils.hh:15 -/
def pionMass : Dbl := (0.13957018 : Dbl)

/-- `computeQMS` for a crossing point and a momentum, materialUtils.cc:39-107 -/
def computeQMS (surf : Surface) (crossingPoint : V2) (momentum : V3) (mass : Dbl) : Dbl :=
  let r_i := surf.innerThickness
  let r_o := surf.outerThickness
  let X0_o := surf.outerMaterial.radLength
  let X0_i := surf.innerMaterial.radLength
  let r_tot := r_i + r_o
  let X0_eff := (r_i / X0_i + r_o / X0_o) / r_tot
  let up := momentum.unit
  let position := surf.localToGlobal crossingPoint
  let n := surf.normal position
  let cosTrk := Dbl.abs (up.dot n)
  let path := r_i + r_o
  let path := path / cosTrk
  let X_X0 := path * X0_eff
  let mom := momentum.r
  let beta := mom / Dbl.sqrt (mom * mom + mass * mass)
  (0.0136 : Dbl) / (mom * beta) * 1 * Dbl.sqrt X_X0 * (1 + (0.038 : Dbl) * Dbl.log X_X0)

/-- `computeQMS` for a helix, materialUtils.cc:13-36 -/
def computeQMSHelix (bField : V3 → V3) (surf : Surface) (hp : V5) (rp : V3) (mass : Dbl) : Out Dbl := do
  let h ← intersectWithSurface surf hp rp 0 V3.zero 0 true
  if h.found then
    let xx := h.xx
    let uv := surf.globalToLocal xx
    let phi := calculatePhifromXY xx.x xx.y hp rp
    let omega := calculateOmega hp
    let tanl := calculateTanLambda hp
    let bfieldZ := (bField xx).z
    let pt := Dbl.abs (1 / omega) * bfieldZ * convertBr2P_cm
    let p : V3 := ⟨pt * Dbl.cos phi, pt * Dbl.sin phi, pt * tanl⟩
    pure (computeQMS surf uv p mass)
  else pure 0

/-- mean excitation energy, materialUtils.cc:125 -/
def excitationEnergy (Z : Dbl) : Dbl := ((9.76 : Dbl) * Z + (58.8 : Dbl) * Dbl.pow Z (-(0.19 : Dbl))) * (1e-9 : Dbl)

/-- the density correction `del` of `computeBetheBloch` as function of `x` and `C0`, materialUtils.cc:131-135 -/
def densityCorrection (x C0 : Dbl) : Dbl :=
  let a := -C0 / 27
  ifc (3 : Dbl) ≤ x then (4.606 : Dbl) * x + C0
  else ifc 0 ≤ x ∧ x < 3 then (4.606 : Dbl) * x + C0 + a * Dbl.pow (3 - x) 3
  else 0

/-- `computeBetheBloch`, materialUtils.cc:111-141 -/
def computeBetheBloch (mat : Material) (mom mass : Dbl) : Dbl :=
  let kK : Dbl := (0.307075e-3 : Dbl)
  let kMe : Dbl := (0.510998902e-3 : Dbl)
  let dnsty := mat.density
  let A := mat.A
  let Z := mat.Z
  let I := excitationEnergy Z
  let hwp := (28.816 : Dbl) * Dbl.sqrt (dnsty * Z / A) * (1e-9 : Dbl)
  let bg2 := (mom * mom) / (mass * mass)
  let gm2 := 1 + bg2
  let meM := kMe / mass
  let x := dlog10 (Dbl.sqrt bg2)
  let C0 := -(2 * Dbl.log (I / hwp) + 1)
  let del := densityCorrection x C0
  let tmax := 2 * kMe * bg2 / (1 + meM * (2 * Dbl.sqrt gm2 + meM))
  kK * Z / A * gm2 / bg2 * ((0.5 : Dbl) * Dbl.log (2 * kMe * bg2 * tmax / (I * I)) - bg2 / gm2 - del)

/-- result of `computeEnergyLoss`: return value and out-parameters -/
structure ELoss where
  deltaE : Dbl
  energy : Option Dbl
  beta : Option Dbl

/-- `computeEnergyLoss` for a crossing point and a momentum, materialUtils.cc:144-197 -/
def computeEnergyLoss (surf : Surface) (crossingPoint : V2) (momentum : V3) (mass : Dbl) : ELoss :=
  let path_i := surf.innerThickness
  let path_o := surf.outerThickness
  let position := surf.localToGlobal crossingPoint
  let up := momentum.unit
  let n := surf.normal position
  let cosTrk := Dbl.abs (up.dot n)
  let path_i := path_i / cosTrk
  let path_o := path_o / cosTrk
  let mom := momentum.r
  let mom2 := mom * mom
  let energy := Dbl.sqrt (mom2 + mass * mass)
  let beta := mom / energy
  let density_i := surf.innerMaterial.density
  let density_o := surf.outerMaterial.density
  let dedx_i := computeBetheBloch surf.innerMaterial mom mass
  let dedx_o := computeBetheBloch surf.outerMaterial mom mass
  let deltaE := dedx_i * density_i * path_i
  let deltaE := deltaE + dedx_o * density_o * path_o
  ⟨deltaE, some energy, some beta⟩

/-- `computeEnergyLoss` for track parameters, materialUtils.cc:200-230; `energy` and `beta` are the variables
passed by reference (they keep their content if the track does not cross the surface) -/
def computeEnergyLossTrack (bField : V3 → V3) (surf : Surface) (tp : TP) (energy beta : Option Dbl) (mass : Dbl) :
    Out ELoss := do
  let h ← intersectWithSurface surf tp.hp tp.rp 0 V3.zero 0 true
  if h.found then
    let xx := h.xx
    let uv := surf.globalToLocal xx
    let phi := calculatePhifromXY xx.x xx.y tp.hp tp.rp
    let omega := calculateOmega tp.hp
    let tanl := calculateTanLambda tp.hp
    let bfieldZ := (bField xx).z
    let pt := Dbl.abs (1 / omega) * bfieldZ * convertBr2P_cm
    let p : V3 := ⟨pt * Dbl.cos phi, pt * Dbl.sin phi, pt * tanl⟩
    pure (computeEnergyLoss surf uv p mass)
  else pure ⟨0, energy, beta⟩

end Verif
