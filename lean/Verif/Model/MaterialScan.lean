import Verif.Model.Trajectory

/-!
# The example programs `check_materials` and `material_ntuples`

Model of `examples/material_effects/check_materials.cpp` and `examples/material_effects/material_ntuples.cpp`, programs that list
the material along a direction.  Left out: reading of the command line, text output, and in the second program the conversion of the
entries to single precision.  The detailed list of materials of DD4hep is an arbitrary function.
-/

open Classical

noncomputable section

namespace Verif

namespace MatScan

/-- degrees to radians, check_materials.cpp:40,45, material_ntuples.cpp:79-80 -/
def radians (deg : Dbl) : Dbl := deg / 180 * Dbl.pi

/-- `dirVec`, check_materials.cpp:48, material_ntuples.cpp:83 -/
def direction (theta phi : Dbl) : V3 := V3.spherical 1 phi theta

/-- `tP`, check_materials.cpp:51-58 (`omega` is 1e-6), material_ntuples.cpp:86-96 (`omega` is 1e-9) -/
def track (omega theta phi : Dbl) : TP :=
  TP.ofHelix ![omega, Dbl.tan ((0.5 : Dbl) * Dbl.pi - theta), phi, 0, 0] V3.zero

/-- `X_X0` of a surface crossed at `xx`, check_materials.cpp:89-117, material_ntuples.cpp:126-154 -/
def xX0 (dir : V3) (surf : Surface) (xx : V3) : Dbl :=
  let r_i := surf.innerThickness
  let r_o := surf.outerThickness
  let X0_o := surf.outerMaterial.radLength
  let X0_i := surf.innerMaterial.radLength
  let r_tot := r_i + r_o
  let X0_eff := (r_i / X0_i + r_o / X0_o) / r_tot
  let up := dir.unit
  let n := surf.normal xx
  let cosTrk := Dbl.abs (up.dot n)
  let path := r_i + r_o
  let path := path / cosTrk
  path * X0_eff

/-- what is printed or filled for a crossed surface -/
structure Row where
  s : Dbl
  surf : Surface
  xx : V3
  xX0 : Dbl
  total : Dbl

/-- the loop over the crossed surfaces, check_materials.cpp:77-130, material_ntuples.cpp:114-164; the return value of
`intersectWithSurface` is not used. -/
def scan (dir : V3) (tp : TP) (total : Dbl) : List (Dbl × Surface) → Out (List Row)
  | [] => .ok []
  | (s, surf) :: rest => do
    let h ← intersectWithSurface surf tp.hp tp.rp 0 V3.zero 0 true
    let x := xX0 dir surf h.xx
    let total := total + x
    let rows ← scan dir tp total rest
    pure (⟨s, surf, h.xx, x, total⟩ :: rows)

/-- the main part of both programs, check_materials.cpp:48-130, material_ntuples.cpp:83-164; `theta` and `phi` in radians -/
def run (sort : List (Dbl × Surface) → List (Dbl × Surface)) (surfaces : List Surface) (omega theta phi : Dbl) : Out (List Row) := do
  let tp := track omega theta phi
  let (_, r) := (Traj.make tp).getIntersections sort surfaces
  let crossed ← r
  scan (direction theta phi) tp 0 crossed

/-- `p1`, material_ntuples.cpp:94,163: the last crossing -/
def endPoint (rows : List Row) : V3 := (rows.getLast?.map Row.xx).getD V3.zero

/-- an entry of the list of materials between two points: length, radiation length, interaction length -/
structure Layer where
  length : Dbl
  radLen : Dbl
  intLen : Dbl

/-- an entry of the second n-tuple: position, sums of length/radiation length and length/interaction length -/
structure MatRow where
  pos : V3
  x0 : Dbl
  lambda : Dbl

/-- the loop over the materials, material_ntuples.cpp:176-198 -/
def matRows (dir : V3) (sumX0 sumLambda path : Dbl) : List Layer → List MatRow
  | [] => []
  | l :: rest =>
    let sumX0 := sumX0 + l.length / l.radLen
    let sumLambda := sumLambda + l.length / l.intLen
    let path := path + l.length
    ⟨V3.smul path dir, sumX0, sumLambda⟩ :: matRows dir sumX0 sumLambda path rest

/-- the second half of `material_ntuples`, material_ntuples.cpp:167-198; `between` is `materialsBetween` -/
def materials (between : V3 → V3 → List Layer) (rows : List Row) : List MatRow :=
  let p0 := V3.zero
  let p1 := endPoint rows
  matRows (p1.sub p0).unit 0 0 0 (between p0 p1)

end MatScan

end Verif
