import Verif.Dbl
import Verif.Out

/-!
# Circles, lines and their intersections

Model of `util/include/intersections.hh` and `util/src/intersections.cc`.
-/

open Classical

noncomputable section

namespace Verif

/-- data members of `circle`, intersections.hh:42 -/
structure Circle where
  c0 : Dbl
  c1 : Dbl
  r : Dbl

/-- data members of `straightLine`, intersections.hh:82: the points with `n0 x + n1 y = d0` -/
structure Line where
  n0 : Dbl
  n1 : Dbl
  d0 : Dbl

/-- constructor of `circle`, intersections.cc:8-12 -/
def Circle.make (c0 c1 r : Dbl) : Out Circle :=
  ifc r < 0 then .throw "[circle::circle] Error: radius must be >0  when creating a circle."
  else .ok ⟨c0, c1, r⟩

/-- `circle::r2`, intersections.hh:32-35 -/
def Circle.r2 (c : Circle) : Dbl := c.r * c.r

/-- constructor of `straightLine`, intersections.cc:16-25 -/
def Line.make (n0 n1 d : Dbl) : Out Line :=
  ifc d < 0 then
    .throw "[straightLine::straightLine] Error: distance must be >= 0 when creating a straight line."
  else ifc Dbl.abs n0 < (1e-12 : Dbl) ∧ Dbl.abs n1 < (1e-12 : Dbl) then
    .throw "[straightLine::straightLine] Error: normal vector must be != zero."
  else .ok ⟨n0, n1, d⟩

/-- `straightLine::d2`, intersections.hh:63-66 -/
def Line.d2 (l : Line) : Dbl := l.d0 * l.d0

/-- `straightLine::normalSquare`, intersections.hh:71-74 -/
def Line.normalSquare (l : Line) : Dbl := l.n0 * l.n0 + l.n1 * l.n1

/-- `straightLine::move`, intersections.hh:75-78 -/
def Line.move (l : Line) (d1 d2 : Dbl) : Line := { l with d0 := l.d0 - (l.n0 * d1 + l.n1 * d2) }

/-- `intersections`, intersections.hh:95-115: its only member is the vector of points; `number()` is
the length, `add` appends. -/
abbrev Intersections := List (Dbl × Dbl)

/-- `intersections::operator[]`, intersections.hh:109-112: `at` throws `std::out_of_range` -/
def Intersections.get (is : Intersections) (i : ℕ) : Out (Dbl × Dbl) :=
  if h : i < List.length is then .ok (is[i]'h) else .throw "std::out_of_range"

/-- `intersectCircleStraightLine`, intersections.cc:50-80 -/
def intersectCircleStraightLine (c : Circle) (line : Line) : Intersections :=
  let x0 := c.c0
  let y0 := c.c1
  let sL := line.move x0 y0
  let discriminant := c.r2 * sL.normalSquare - sL.d2
  ifc discriminant < 0 ∧ (1e-9 : Dbl) < Dbl.abs discriminant then []
  else
    let nx := sL.n0
    let ny := sL.n1
    let d := sL.d0
    let DISC := Dbl.sqrt discriminant
    let normSquareInv := 1 / sL.normalSquare
    let x1 := x0 + (nx * d + ny * DISC) * normSquareInv
    let y1 := y0 + (ny * d - nx * DISC) * normSquareInv
    ifc Dbl.abs discriminant ≤ (1e-9 : Dbl) then [(x1, y1)]
    else
      let x2 := x0 + (nx * d - ny * DISC) * normSquareInv
      let y2 := y0 + (ny * d + nx * DISC) * normSquareInv
      [(x1, y1), (x2, y2)]

/-- `intersectCircleCircle`, intersections.cc:29-46 -/
def intersectCircleCircle (circ1 circ2 : Circle) : Out Intersections := do
  let x1 := circ1.c0
  let y1 := circ1.c1
  let r1 := circ1.r
  let x2 := circ2.c0
  let y2 := circ2.c1
  let r2 := circ2.r
  let nx := 2 * (x2 - x1)
  let ny := 2 * (y2 - y1)
  let dist := r1 * r1 - r2 * r2 - x1 * x1 + x2 * x2 - y1 * y1 + y2 * y2
  let reducedCircle ← Line.make nx ny dist
  pure (intersectCircleStraightLine circ1 reducedCircle)

/-- `intersectStraightLineStraightLine`, intersections.cc:84-106 -/
def intersectStraightLineStraightLine (line1 line2 : Line) : Intersections :=
  let nx1 := line1.n0
  let ny1 := line1.n1
  let d1 := line1.d0
  let nx2 := line2.n0
  let ny2 := line2.n1
  let d2 := line2.d0
  let discriminant := nx1 * ny2 - nx2 * ny1
  ifc discriminant < (1e-9 : Dbl) then []
  else
    let x := (d1 * ny2 - ny1 * d2) / discriminant
    let y := (d2 * nx1 - d1 * nx2) / discriminant
    [(x, y)]

end Verif
