import Verif.Model.Surface
import Verif.Model.Helix
import Verif.Model.Intersections

/-!
# Intersections of a helix with surfaces

Model of `util/src/helixUtils.cc:413-810`.  The out-parameters `double& s, Vector3D& xx` are passed in and
returned, so that it is visible whether a call changes them.  Debug output is left out (it calls
`insideBounds` and `distance`, assumed to be free of side effects).
-/

open Classical

noncomputable section

namespace Verif

/-- return value and out-parameters of the intersection functions -/
structure Hit where
  found : Bool
  s : Dbl
  xx : V3

/-- `( checkBounds ? surf->insideBounds(xx) : true )` -/
def boundsOk (surf : Surface) (checkBounds : Bool) (xx : V3) : Bool :=
  if checkBounds then surf.insideBounds xx else true

/-- choice between the two solutions of `intersectWithZCylinder`, helixUtils.cc:486-523;
`none` is `return false`, `some true` selects solution 0, `some false` solution 1. -/
def cylinderSelect (mode : ℤ) (s0 s1 : Dbl) : Option Bool :=
  ifc s0 < 0 ∧ s1 < 0 then
    if mode < 1 then (ifc s1 < s0 then some true else some false) else none
  else ifc s0 < 0 ∧ 0 ≤ s1 then
    if mode < 0 then some true
    else if mode > 0 then some false
    else (ifc Dbl.abs s0 + (1e-4 : Dbl) < Dbl.abs s1 then some true else some false)
  else ifc 0 ≤ s0 ∧ s1 < 0 then
    if mode > 0 then some true
    else if mode < 0 then some false
    else (ifc Dbl.abs s0 < Dbl.abs s1 + (1e-4 : Dbl) then some true else some false)
  else
    if mode > -1 then (ifc s0 < s1 then some true else some false) else none

/-- the two candidate points in the transverse plane of `intersectWithZCylinder`,
helixUtils.cc:430-472; `none` is the `return false` of line 457. -/
def cylinderCandidates (rho : Dbl) (cylc : V3) (hp : V5) (rp : V3) :
    Option ((Dbl × Dbl) × (Dbl × Dbl)) :=
  let omega := calculateOmega hp
  let phi0 := calculatePhi0 hp
  let d0 := calculateD0 hp
  let sinph := Dbl.sin phi0
  let cosph := Dbl.cos phi0
  let x0 := rp.x - d0 * sinph
  let y0 := rp.y + d0 * cosph
  let xrho := cylc.x
  let yrho := cylc.y
  let dx := xrho - x0
  let dy := yrho - y0
  let sox := sinph - omega * dx
  let coy := cosph + omega * dy
  let gamma := 2 * dx * sinph - 2 * dy * cosph - omega * rho * rho - omega * (dx * dx + dy * dy)
  let gamma := gamma / (2 * rho * Dbl.sqrt (sox * sox + coy * coy))
  ifc 1 < Dbl.abs gamma then none
  else
    let phirho := Dbl.atan2 sox coy
    let asing := Dbl.asin gamma
    let phic0 := asing + phirho
    let phic1 := ifc 0 < asing then Dbl.pi - asing else -Dbl.pi - asing
    let phic1 := phic1 + phirho
    some ((xrho + rho * Dbl.cos phic0, yrho + rho * Dbl.sin phic0),
          (xrho + rho * Dbl.cos phic1, yrho + rho * Dbl.sin phic1))

/-- `intersectWithZCylinder`, helixUtils.cc:415-526 -/
def intersectWithZCylinder (surf : Surface) (hp : V5) (rp : V3) (s : Dbl) (xx : V3) (mode : ℤ)
    (checkBounds : Bool) : Out Hit :=
  match surf.cyl with
  | none => .throw " **** _intersectWithZCylinder: surface is not cylinder parallel to z"
  | some (rho, cylc) =>
    if surf.type.isParallelToZ then
      match cylinderCandidates rho cylc hp rp with
      | none => .ok ⟨false, s, xx⟩
      | some ((X0, Y0), (X1, Y1)) =>
        let s0 := calculateSfromXY X0 Y0 hp rp
        let s1 := calculateSfromXY X1 Y1 hp rp
        let Z0 := calculateZfromS s0 hp rp
        let Z1 := calculateZfromS s1 hp rp
        let sol0 : V3 := ⟨X0, Y0, Z0⟩
        let sol1 : V3 := ⟨X1, Y1, Z1⟩
        match cylinderSelect mode s0 s1 with
        | none => .ok ⟨false, s, xx⟩
        | some true => .ok ⟨boundsOk surf checkBounds sol0, s0, sol0⟩
        | some false => .ok ⟨boundsOk surf checkBounds sol1, s1, sol1⟩
    else .throw " **** _intersectWithZCylinder: surface is not cylinder parallel to z"

/-- choice between two solutions of `intersectWithZPlane`, helixUtils.cc:582-619 -/
def planeSelect (mode : ℤ) (s0 s1 : Dbl) : Option Bool :=
  ifc s0 < 0 ∧ s1 < 0 then
    if mode < 1 then (ifc s1 < s0 then some true else some false) else none
  else ifc s0 < 0 ∧ 0 ≤ s1 then
    if mode < 0 then some true
    else if mode > 0 then some false
    else (ifc Dbl.abs s0 < Dbl.abs s1 then some true else some false)
  else ifc 0 ≤ s0 ∧ s1 < 0 then
    if mode > 0 then some true
    else if mode < 0 then some false
    else (ifc Dbl.abs s0 < Dbl.abs s1 then some true else some false)
  else
    if mode > -1 then (ifc s0 < s1 then some true else some false) else none

/-- C++ `mode * s > 0 || mode == 0` with `int mode`, `double s` -/
def modeOk (mode : ℤ) (s : Dbl) : Prop := 0 < Dbl.fin (mode : ℝ) * s ∨ mode = 0

/-- `intersectWithZPlane`, helixUtils.cc:529-630 -/
def intersectWithZPlane (surf : Surface) (hp : V5) (rp : V3) (s : Dbl) (xx : V3) (mode : ℤ)
    (checkBounds : Bool) : Out Hit := do
  let nx := (surf.normal V3.zero).x
  let ny := (surf.normal V3.zero).y
  let dist := Dbl.abs (surf.origin.dot (surf.normal V3.zero))
  let line ← Line.make nx ny dist
  let radius := calculateRadius hp
  let xcenter := calculateXCenter hp rp
  let ycenter := calculateYCenter hp rp
  let circ ← Circle.make xcenter ycenter radius
  match intersectCircleStraightLine circ line with
  | [] => .ok ⟨false, s, xx⟩
  | [(X, Y)] =>
    let s := calculateSfromXY X Y hp rp
    let Z := calculateZfromS s hp rp
    let xx : V3 := ⟨X, Y, Z⟩
    ifc modeOk mode s then .ok ⟨boundsOk surf checkBounds xx, s, xx⟩ else .ok ⟨false, s, xx⟩
  | (X0, Y0) :: (X1, Y1) :: _ =>
    let s0 := calculateSfromXY X0 Y0 hp rp
    let Z0 := calculateZfromS s0 hp rp
    let s1 := calculateSfromXY X1 Y1 hp rp
    let Z1 := calculateZfromS s1 hp rp
    let sol0 : V3 := ⟨X0, Y0, Z0⟩
    let sol1 : V3 := ⟨X1, Y1, Z1⟩
    match planeSelect mode s0 s1 with
    | none => .ok ⟨false, s, xx⟩
    | some true => .ok ⟨boundsOk surf checkBounds sol0, s0, sol0⟩
    | some false => .ok ⟨boundsOk surf checkBounds sol1, s1, sol1⟩

/-- `intersectWithZDisk`, helixUtils.cc:633-652 -/
def intersectWithZDisk (surf : Surface) (hp : V5) (rp : V3) (_s : Dbl) (_xx : V3) (mode : ℤ)
    (checkBounds : Bool) : Out Hit :=
  let planePositionZ := surf.origin.z
  let helixPositionZ := rp.z + calculateZ0 hp
  let s := (planePositionZ - helixPositionZ) / calculateTanLambda hp
  let x := calculateXfromS s hp rp
  let y := calculateYfromS s hp rp
  let xx : V3 := ⟨x, y, planePositionZ⟩
  ifc modeOk mode s then .ok ⟨boundsOk surf checkBounds xx, s, xx⟩ else .ok ⟨false, s, xx⟩

/-- the unit `mm` in units of cm (DD4hep units, aidaTT-Units.hh:33) -/
def unit_mm : Dbl := .fin (1 / 10)

/-- local variables of the loop in `intersectWithSurfaceNewton`, helixUtils.cc:714-723.  `done` is
`some true` after `break`, `some false` after `return 0`; `evals` counts the calls of
`surf->distance` (specification only). -/
structure NewtonState where
  s : Dbl
  xx : V3
  prevXX : V3
  prevS : Dbl
  prevDist : Dbl
  alpha : Dbl
  count : ℕ
  done : Option Bool
  evals : ℕ

/-- one pass through the loop body, helixUtils.cc:729-804 -/
def newtonStep (surf : Surface) (hp : V5) (rp : V3) (st : NewtonState) : NewtonState :=
  if st.count > 100 then
    { st with s := st.prevS, xx := st.prevXX, done := some false }
  else
    let st := { st with count := st.count + 1 }
    let dist := surf.distance st.xx
    let st := { st with evals := st.evals + 1 }
    ifc Dbl.abs dist < (1e-3 : Dbl) * unit_mm then { st with done := some true }
    else
      let (st, dist) := ifc Dbl.abs dist < Dbl.abs st.prevDist then
          ({ st with prevDist := dist, prevS := st.s, prevXX := st.xx, alpha := st.alpha * (1 / 10) }, dist)
        else ({ st with s := st.prevS, xx := st.prevXX, alpha := st.alpha * 10 }, st.prevDist)
      let dDdxx := surf.normal st.xx
      let dxxds := calculateTangent st.s hp
      let dDds := dDdxx.dot dxxds
      let denom := (1 + st.alpha) * dDds
      let s := st.s - dist / denom
      { st with s := s, xx := pointAt s hp rp }

/-- loop start, helixUtils.cc:714-723 -/
def newtonInit (hp : V5) (rp : V3) (s : Dbl) : NewtonState :=
  let xx := pointAt s hp rp
  ⟨s, xx, xx, s, (1e10 : Dbl), (1e-10 : Dbl), 0, none, 0⟩

/-- the loop of `intersectWithSurfaceNewton`, helixUtils.cc:729-804 -/
def newtonLoop (surf : Surface) (hp : V5) (rp : V3) (s : Dbl) : Out NewtonState :=
  whileLoop (fun st => st.done = none) (newtonStep surf hp rp) (newtonInit hp rp s)

/-- `intersectWithSurfaceNewton`, helixUtils.cc:701-810 -/
def intersectWithSurfaceNewton (surf : Surface) (hp : V5) (rp : V3) (s : Dbl) (_xx : V3) (mode : ℤ)
    (checkBounds : Bool) : Out Hit := do
  let st ← newtonLoop surf hp rp s
  if st.done = some true then
    ifc modeOk mode st.s then .ok ⟨boundsOk surf checkBounds st.xx, st.s, st.xx⟩
    else .ok ⟨false, st.s, st.xx⟩
  else .ok ⟨false, st.s, st.xx⟩

/-- `intersectWithZCone`, helixUtils.cc:686-699 -/
def intersectWithZCone (surf : Surface) (hp : V5) (rp : V3) (s : Dbl) (xx : V3) (mode : ℤ)
    (checkBounds : Bool) : Out Hit := do
  let h ← intersectWithZCylinder surf hp rp s xx mode false
  if h.found then intersectWithSurfaceNewton surf hp rp h.s h.xx mode checkBounds
  else .ok ⟨false, h.s, h.xx⟩

/-- `intersectWithSurface`, helixUtils.cc:654-684 (the static message counter is left out) -/
def intersectWithSurface (surf : Surface) (hp : V5) (rp : V3) (s : Dbl) (xx : V3) (mode : ℤ)
    (checkBounds : Bool) : Out Hit :=
  if surf.type.isZCylinder then intersectWithZCylinder surf hp rp s xx mode checkBounds
  else if surf.type.isZPlane then intersectWithZPlane surf hp rp s xx mode checkBounds
  else if surf.type.isZDisk then intersectWithZDisk surf hp rp s xx mode checkBounds
  else if surf.isCone then intersectWithZCone surf hp rp s xx mode checkBounds
  else .ok ⟨false, s, xx⟩

end Verif
