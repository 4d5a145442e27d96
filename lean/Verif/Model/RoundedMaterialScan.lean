import Verif.Model.MaterialScan
import Verif.Model.RoundedMaterial
import Verif.Model.RoundedTrajectory
import Verif.Model.RoundedUtilities

/-!
# The example programs `check_materials` and `material_ntuples` in double precision

The programs of Model/MaterialScan with the arithmetic of Model/RoundedArith.
-/

open Classical

noncomputable section

namespace Verif

namespace Rnd

/-- spherical constructor, Vector3D.hh:338-344 -/
def spherical (fl : ℝ → ℝ) (lm : Libm) (r phi theta : Dbl) : V3 :=
  let rst := mulD fl r (sinD lm theta)
  ⟨mulD fl rst (cosD lm phi), mulD fl rst (sinD lm phi), mulD fl r (cosD lm theta)⟩

/-- degrees to radians, check_materials.cpp:40,45, material_ntuples.cpp:79-80 -/
def radians (fl : ℝ → ℝ) (deg : Dbl) : Dbl := mulD fl (divD fl deg 180) (.fin Rounded.mPi)

/-- `dirVec`, check_materials.cpp:48, material_ntuples.cpp:83 -/
def scanDirection (fl : ℝ → ℝ) (lm : Libm) (theta phi : Dbl) : V3 := spherical fl lm 1 phi theta

/-- `tP`, check_materials.cpp:51-58 (`omega` is 1e-6), material_ntuples.cpp:86-96 (`omega` is 1e-9) -/
def scanTrack (fl : ℝ → ℝ) (tn : ℝ → ℝ) (omega theta phi : Dbl) : TP :=
  TP.ofHelix ![omega, tanD tn (subD fl (mulD fl (lit fl 0.5) (.fin Rounded.mPi)) theta), phi, 0, 0] V3.zero

/-- `X_X0` of a surface crossed at `xx`, check_materials.cpp:89-117, material_ntuples.cpp:126-154 -/
def xX0 (fl : ℝ → ℝ) (dir : V3) (surf : Surface) (xx : V3) : Dbl :=
  let r_i := surf.innerThickness
  let r_o := surf.outerThickness
  let X0_o := surf.outerMaterial.radLength
  let X0_i := surf.innerMaterial.radLength
  let r_tot := addD fl r_i r_o
  let X0_eff := divD fl (addD fl (divD fl r_i X0_i) (divD fl r_o X0_o)) r_tot
  let up := unitV fl dir
  let n := surf.normal xx
  let cosTrk := Dbl.abs (dotV fl up n)
  let path := addD fl r_i r_o
  let path := divD fl path cosTrk
  mulD fl path X0_eff

/-- the loop over the crossed surfaces, check_materials.cpp:77-130, material_ntuples.cpp:114-164; the return value of
`intersectWithSurface` is not used. -/
def scan (fl : ℝ → ℝ) (lm : Libm) (at2 : ℝ → ℝ → ℝ) (asn atn : ℝ → ℝ) (dir : V3) (tp : TP) (total : Dbl) :
    List (Dbl × Surface) → Out (List MatScan.Row)
  | [] => .ok []
  | (s, surf) :: rest => do
    let h ← intersectWithSurface fl lm at2 asn atn surf tp.hp tp.rp 0 V3.zero 0 true
    let x := xX0 fl dir surf h.xx
    let total := addD fl total x
    let rows ← scan fl lm at2 asn atn dir tp total rest
    pure (⟨s, surf, h.xx, x, total⟩ :: rows)

/-- the main part of both programs, check_materials.cpp:37-130, material_ntuples.cpp:79-164; angles in degrees -/
def runScan (fl : ℝ → ℝ) (lm : Libm) (at2 : ℝ → ℝ → ℝ) (asn atn tn : ℝ → ℝ) (sort : List (Dbl × Surface) → List (Dbl × Surface))
    (surfaces : List Surface) (omega thetaDeg phiDeg : Dbl) : Out (List MatScan.Row) := do
  let theta := radians fl thetaDeg
  let phi := radians fl phiDeg
  let tp := scanTrack fl tn omega theta phi
  let (_, r) := getIntersections fl lm at2 asn atn sort (Traj.make tp) surfaces
  let crossed ← r
  scan fl lm at2 asn atn (scanDirection fl lm theta phi) tp 0 crossed

/-- the loop over the materials, material_ntuples.cpp:176-198 -/
def matRows (fl : ℝ → ℝ) (dir : V3) (sumX0 sumLambda path : Dbl) : List MatScan.Layer → List MatScan.MatRow
  | [] => []
  | l :: rest =>
    let sumX0 := addD fl sumX0 (divD fl l.length l.radLen)
    let sumLambda := addD fl sumLambda (divD fl l.length l.intLen)
    let path := addD fl path l.length
    ⟨smulV fl path dir, sumX0, sumLambda⟩ :: matRows fl dir sumX0 sumLambda path rest

/-- the second half of `material_ntuples`, material_ntuples.cpp:167-198; `between` is `materialsBetween` -/
def materials (fl : ℝ → ℝ) (between : V3 → V3 → List MatScan.Layer) (rows : List MatScan.Row) : List MatScan.MatRow :=
  let p0 := V3.zero
  let p1 := MatScan.endPoint rows
  matRows fl (unitV fl (subV fl p1 p0)) 0 0 0 (between p0 p1)

end Rnd

end Verif
