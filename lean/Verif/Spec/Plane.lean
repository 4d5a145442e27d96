import Mathlib.Data.Real.Basic

/-!
# Specification: points of the plane on circles and lines
-/

namespace Verif.Spec

/-- (x,y) is on the circle with centre (a,b) and radius r -/
def OnCircle (a b r x y : ℝ) : Prop := (x - a) ^ 2 + (y - b) ^ 2 = r ^ 2

/-- (x,y) is on the line n0 x + n1 y = d -/
def OnLine (n0 n1 d x y : ℝ) : Prop := n0 * x + n1 * y = d

/-- discriminant of circle and line: positive iff they cross, negative iff they do not meet -/
def clDisc (a b r n0 n1 d : ℝ) : ℝ := r ^ 2 * (n0 ^ 2 + n1 ^ 2) - (d - (n0 * a + n1 * b)) ^ 2

end Verif.Spec
