import Verif.Model.RoundedArith
import Verif.Model.Intersections

/-!
# Crossings of circles and straight lines in double precision

`intersectCircleStraightLine`, `intersectCircleCircle` and `intersectStraightLineStraightLine` with the arithmetic of Model/RoundedArith.
-/

open Classical

noncomputable section

namespace Verif

namespace Rnd

/-- `straightLine::move`, intersections.hh:72-75 -/
def moveLine (fl : ℝ → ℝ) (l : Line) (d1 d2 : Dbl) : Line :=
  { l with d0 := subD fl l.d0 (addD fl (mulD fl l.n0 d1) (mulD fl l.n1 d2)) }

/-- `straightLine::normalSquare`, intersections.hh:68-71 -/
def normalSquare (fl : ℝ → ℝ) (l : Line) : Dbl := addD fl (mulD fl l.n0 l.n0) (mulD fl l.n1 l.n1)

/-- the literal `1e-9` -/
def tinyD (fl : ℝ → ℝ) : Dbl := rnd fl 1024 (1e-9 : Dbl)

/-- `intersectCircleStraightLine`, intersections.cc:50-80, with `circle::r2` (intersections.hh:32-35) and `straightLine::d2`
(intersections.hh:60-63) -/
def intersectCircleStraightLine (fl : ℝ → ℝ) (c : Circle) (line : Line) : Intersections :=
  let x0 := c.c0
  let y0 := c.c1
  let sL := moveLine fl line x0 y0
  let discriminant := subD fl (mulD fl (mulD fl c.r c.r) (normalSquare fl sL)) (mulD fl sL.d0 sL.d0)
  ifc discriminant < 0 ∧ tinyD fl < Dbl.abs discriminant then []
  else
    let nx := sL.n0
    let ny := sL.n1
    let d := sL.d0
    let DISC := sqrtD fl discriminant
    let normSquareInv := divD fl 1 (normalSquare fl sL)
    let x1 := addD fl x0 (mulD fl (addD fl (mulD fl nx d) (mulD fl ny DISC)) normSquareInv)
    let y1 := addD fl y0 (mulD fl (subD fl (mulD fl ny d) (mulD fl nx DISC)) normSquareInv)
    ifc Dbl.abs discriminant ≤ tinyD fl then [(x1, y1)]
    else
      let x2 := addD fl x0 (mulD fl (subD fl (mulD fl nx d) (mulD fl ny DISC)) normSquareInv)
      let y2 := addD fl y0 (mulD fl (addD fl (mulD fl ny d) (mulD fl nx DISC)) normSquareInv)
      [(x1, y1), (x2, y2)]

/-- the literal `1e-12` -/
def tinyNormalD (fl : ℝ → ℝ) : Dbl := rnd fl 1024 (1e-12 : Dbl)

/-- constructor of `straightLine`, intersections.cc:16-25 -/
def makeLine (fl : ℝ → ℝ) (n0 n1 d : Dbl) : Out Line :=
  ifc d < 0 then .throw "[straightLine::straightLine] Error: distance must be >= 0 when creating a straight line."
  else ifc Dbl.abs n0 < tinyNormalD fl ∧ Dbl.abs n1 < tinyNormalD fl then
    .throw "[straightLine::straightLine] Error: normal vector must be != zero."
  else .ok ⟨n0, n1, d⟩

/-- `intersectCircleCircle`, intersections.cc:29-46 -/
def intersectCircleCircle (fl : ℝ → ℝ) (circ1 circ2 : Circle) : Out Intersections := do
  let x1 := circ1.c0
  let y1 := circ1.c1
  let r1 := circ1.r
  let x2 := circ2.c0
  let y2 := circ2.c1
  let r2 := circ2.r
  let nx := mulD fl 2 (subD fl x2 x1)
  let ny := mulD fl 2 (subD fl y2 y1)
  let dist := addD fl (subD fl (addD fl (subD fl (subD fl (mulD fl r1 r1) (mulD fl r2 r2)) (mulD fl x1 x1)) (mulD fl x2 x2))
    (mulD fl y1 y1)) (mulD fl y2 y2)
  let reducedCircle ← makeLine fl nx ny dist
  pure (intersectCircleStraightLine fl circ1 reducedCircle)

/-- `intersectStraightLineStraightLine`, intersections.cc:84-106 -/
def intersectStraightLineStraightLine (fl : ℝ → ℝ) (line1 line2 : Line) : Intersections :=
  let nx1 := line1.n0
  let ny1 := line1.n1
  let d1 := line1.d0
  let nx2 := line2.n0
  let ny2 := line2.n1
  let d2 := line2.d0
  let discriminant := subD fl (mulD fl nx1 ny2) (mulD fl nx2 ny1)
  ifc discriminant < tinyD fl then []
  else
    let x := divD fl (subD fl (mulD fl d1 ny2) (mulD fl ny1 d2)) discriminant
    let y := divD fl (subD fl (mulD fl d2 nx1) (mulD fl d1 nx2)) discriminant
    [(x, y)]

end Rnd

end Verif
