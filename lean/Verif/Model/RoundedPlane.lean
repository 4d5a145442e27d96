import Verif.Model.RoundedPath
import Verif.Model.RoundedCross

/-!
# Crossings with planes parallel to z in double precision

`intersectWithZPlane` with the arithmetic of Model/RoundedArith.
-/

open Classical

noncomputable section

namespace Verif

namespace Rnd

/-- `calculateRadius`, helixUtils.cc:14-21 -/
def calculateRadius (fl : ℝ → ℝ) (hp : V5) : Dbl :=
  let curvature := calculateCurvature hp
  ifc ¬ Dbl.eqv curvature 0 then Dbl.abs (divD fl 1 curvature) else 0

/-- `calculateXCenter`, helixUtils.cc:25-37 -/
def calculateXCenter (fl : ℝ → ℝ) (lm : Libm) (hp : V5) (rp : V3) : Dbl :=
  let omega := calculateOmega hp
  ifc Dbl.eqv omega 0 then 0 else
    let radius := divD fl 1 omega
    let dzero := calculateD0 hp
    let phi0 := calculatePhi0 hp
    addD fl rp.x (mulD fl (subD fl radius dzero) (sinD lm phi0))

/-- `calculateYCenter`, helixUtils.cc:41-52 -/
def calculateYCenter (fl : ℝ → ℝ) (lm : Libm) (hp : V5) (rp : V3) : Dbl :=
  let omega := calculateOmega hp
  ifc Dbl.eqv omega 0 then 0 else
    let radius := divD fl 1 omega
    let dzero := calculateD0 hp
    let phi0 := calculatePhi0 hp
    subD fl rp.y (mulD fl (subD fl radius dzero) (cosD lm phi0))

/-- `intersectWithZPlane`, helixUtils.cc:529-630; the choice between two solutions compares without rounding, and `mode * s` is exact for
the modes -1, 0 and 1 -/
def intersectWithZPlane (fl : ℝ → ℝ) (lm : Libm) (at2 : ℝ → ℝ → ℝ) (surf : Surface) (hp : V5) (rp : V3) (s : Dbl) (xx : V3) (mode : ℤ)
    (checkBounds : Bool) : Out Hit := do
  let nx := (surf.normal V3.zero).x
  let ny := (surf.normal V3.zero).y
  let dist := Dbl.abs (dotV fl surf.origin (surf.normal V3.zero))
  let line ← makeLine fl nx ny dist
  let radius := calculateRadius fl hp
  let xcenter := calculateXCenter fl lm hp rp
  let ycenter := calculateYCenter fl lm hp rp
  let circ ← Circle.make xcenter ycenter radius
  match intersectCircleStraightLine fl circ line with
  | [] => .ok ⟨false, s, xx⟩
  | [(X, Y)] =>
    let s := calculateSfromXY fl lm at2 X Y hp rp
    let Z := calculateZfromS fl s hp rp
    let xx : V3 := ⟨X, Y, Z⟩
    ifc modeOk mode s then .ok ⟨boundsOk surf checkBounds xx, s, xx⟩ else .ok ⟨false, s, xx⟩
  | (X0, Y0) :: (X1, Y1) :: _ =>
    let s0 := calculateSfromXY fl lm at2 X0 Y0 hp rp
    let Z0 := calculateZfromS fl s0 hp rp
    let s1 := calculateSfromXY fl lm at2 X1 Y1 hp rp
    let Z1 := calculateZfromS fl s1 hp rp
    let sol0 : V3 := ⟨X0, Y0, Z0⟩
    let sol1 : V3 := ⟨X1, Y1, Z1⟩
    match planeSelect mode s0 s1 with
    | none => .ok ⟨false, s, xx⟩
    | some true => .ok ⟨boundsOk surf checkBounds sol0, s0, sol0⟩
    | some false => .ok ⟨boundsOk surf checkBounds sol1, s1, sol1⟩

end Rnd

end Verif
