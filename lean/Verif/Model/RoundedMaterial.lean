import Verif.Model.Material
import Verif.Model.RoundedArith

/-!
# Material effects in double precision

`computeQMS`, `computeBetheBloch` and `computeEnergyLoss` (util/src/materialUtils.cc) for a crossing point and a momentum with the arithmetic
of Model/RoundedArith.  `log`, `log10` and `pow` of the C library are functions on the numbers of type `double`.  Thickness, materials, normal
and local coordinates come from the surface (DD4hep) and are any numbers.  Log output is left out.
-/

open Classical

noncomputable section

namespace Verif

namespace Rnd

/-- `log`, `log10` and `pow` of the C library -/
structure LogLib where
  log : ℝ → ℝ
  log10 : ℝ → ℝ
  pow : ℝ → ℝ → ℝ

/-- errors of less than one unit in the last place; `pow` for a positive base, and for base 0 and a positive exponent -/
structure IsLogLib (lg : LogLib) : Prop where
  log_err : ∀ x, 0 < x → |lg.log x - Real.log x| ≤ |Real.log x| / 2 ^ 52 + 1 / 2 ^ 1074
  log10_err : ∀ x, 0 < x → |lg.log10 x - Real.log x / Real.log 10| ≤ |Real.log x / Real.log 10| / 2 ^ 52 + 1 / 2 ^ 1074
  pow_err : ∀ x y, 0 < x ∨ x = 0 ∧ 0 < y → |lg.pow x y - x ^ y| ≤ x ^ y / 2 ^ 52 + 1 / 2 ^ 1074

/-- `log` of a `double`; negative numbers, zero, infinities and NaN as for Dbl -/
def logD (lg : LogLib) : Dbl → Dbl
  | .fin x => if 0 < x then .fin (lg.log x) else Dbl.log (.fin x)
  | x => Dbl.log x

/-- `log10` of a `double` -/
def log10D (lg : LogLib) : Dbl → Dbl
  | .fin x => if 0 < x then .fin (lg.log10 x) else dlog10 (.fin x)
  | x => dlog10 x

/-- `pow` of two numbers of type `double` -/
def powD (lg : LogLib) : Dbl → Dbl → Dbl
  | .fin x, .fin y => if 0 < x ∨ x = 0 ∧ 0 < y then .fin (lg.pow x y) else Dbl.pow (.fin x) (.fin y)
  | x, y => Dbl.pow x y

/-- a literal: the `double` next to the number -/
def lit (fl : ℝ → ℝ) (x : ℝ) : Dbl := rnd fl 1024 (.fin x)

/-- `computeQMS` for a crossing point and a momentum, materialUtils.cc:39-107 -/
def computeQMS (fl : ℝ → ℝ) (lg : LogLib) (surf : Surface) (crossingPoint : V2) (momentum : V3) (mass : Dbl) : Dbl :=
  let r_i := surf.innerThickness
  let r_o := surf.outerThickness
  let X0_o := surf.outerMaterial.radLength
  let X0_i := surf.innerMaterial.radLength
  let r_tot := addD fl r_i r_o
  let X0_eff := divD fl (addD fl (divD fl r_i X0_i) (divD fl r_o X0_o)) r_tot
  let up := unitV fl momentum
  let position := surf.localToGlobal crossingPoint
  let n := surf.normal position
  let cosTrk := Dbl.abs (dotV fl up n)
  let path := addD fl r_i r_o
  let path := divD fl path cosTrk
  let X_X0 := mulD fl path X0_eff
  let mom := rV fl momentum
  let beta := divD fl mom (sqrtD fl (addD fl (mulD fl mom mom) (mulD fl mass mass)))
  mulD fl (mulD fl (mulD fl (divD fl (lit fl 0.0136) (mulD fl mom beta)) 1) (sqrtD fl X_X0))
    (addD fl 1 (mulD fl (lit fl 0.038) (logD lg X_X0)))

/-- mean excitation energy, materialUtils.cc:125 -/
def excitationEnergy (fl : ℝ → ℝ) (lg : LogLib) (Z : Dbl) : Dbl :=
  mulD fl (addD fl (mulD fl (lit fl 9.76) Z) (mulD fl (lit fl 58.8) (powD lg Z (-lit fl 0.19)))) (lit fl 1e-9)

/-- the density correction `del` of `computeBetheBloch` as function of `x` and `C0`, materialUtils.cc:131-135 -/
def densityCorrection (fl : ℝ → ℝ) (lg : LogLib) (x C0 : Dbl) : Dbl :=
  let a := divD fl (-C0) 27
  ifc (3 : Dbl) ≤ x then addD fl (mulD fl (lit fl 4.606) x) C0
  else ifc 0 ≤ x ∧ x < 3 then addD fl (addD fl (mulD fl (lit fl 4.606) x) C0) (mulD fl a (powD lg (subD fl 3 x) 3))
  else 0

/-- `computeBetheBloch`, materialUtils.cc:111-141 -/
def computeBetheBloch (fl : ℝ → ℝ) (lg : LogLib) (mat : Material) (mom mass : Dbl) : Dbl :=
  let kK := lit fl 0.307075e-3
  let kMe := lit fl 0.510998902e-3
  let dnsty := mat.density
  let A := mat.A
  let Z := mat.Z
  let I := excitationEnergy fl lg Z
  let hwp := mulD fl (mulD fl (lit fl 28.816) (sqrtD fl (divD fl (mulD fl dnsty Z) A))) (lit fl 1e-9)
  let bg2 := divD fl (mulD fl mom mom) (mulD fl mass mass)
  let gm2 := addD fl 1 bg2
  let meM := divD fl kMe mass
  let x := log10D lg (sqrtD fl bg2)
  let C0 := -addD fl (mulD fl 2 (logD lg (divD fl I hwp))) 1
  let del := densityCorrection fl lg x C0
  let tmax := divD fl (mulD fl (mulD fl 2 kMe) bg2) (addD fl 1 (mulD fl meM (addD fl (mulD fl 2 (sqrtD fl gm2)) meM)))
  mulD fl (divD fl (mulD fl (divD fl (mulD fl kK Z) A) gm2) bg2)
    (subD fl (subD fl (mulD fl (lit fl 0.5) (logD lg (divD fl (mulD fl (mulD fl (mulD fl 2 kMe) bg2) tmax) (mulD fl I I))))
      (divD fl bg2 gm2)) del)

/-- `computeEnergyLoss` for a crossing point and a momentum, materialUtils.cc:144-197 -/
def computeEnergyLoss (fl : ℝ → ℝ) (lg : LogLib) (surf : Surface) (crossingPoint : V2) (momentum : V3) (mass : Dbl) : ELoss :=
  let path_i := surf.innerThickness
  let path_o := surf.outerThickness
  let position := surf.localToGlobal crossingPoint
  let up := unitV fl momentum
  let n := surf.normal position
  let cosTrk := Dbl.abs (dotV fl up n)
  let path_i := divD fl path_i cosTrk
  let path_o := divD fl path_o cosTrk
  let mom := rV fl momentum
  let mom2 := mulD fl mom mom
  let energy := sqrtD fl (addD fl mom2 (mulD fl mass mass))
  let beta := divD fl mom energy
  let density_i := surf.innerMaterial.density
  let density_o := surf.outerMaterial.density
  let dedx_i := computeBetheBloch fl lg surf.innerMaterial mom mass
  let dedx_o := computeBetheBloch fl lg surf.outerMaterial mom mass
  let deltaE := mulD fl (mulD fl dedx_i density_i) path_i
  let deltaE := addD fl deltaE (mulD fl (mulD fl dedx_o density_o) path_o)
  ⟨deltaE, some energy, some beta⟩

end Rnd

end Verif
