import Verif.Model.RoundedNewton
import Verif.Model.Trajectory

/-!
# Positions on a trajectory and the list of crossed surfaces in double precision

`trajectoryElementAt`, `pointAt` and `getIntersectionsWithSurfaces` (core/src/trajectory.cc) with the arithmetic of Model/RoundedArith.  Path lengths are only
compared in `trajectoryElementAt`, which is exact; the constant -1e99 is not a number of type `double`.
-/

open Classical

noncomputable section

namespace Verif

namespace Rnd

/-- `trajectoryElementAt`, trajectory.cc:47-68 -/
def elementAt (fl : ℝ → ℝ) (t : Traj) (s : Dbl) : Out Element :=
  match t.elems with
  | [] => .ub "begin()+1 of an empty vector"
  | e :: rest => .ok (Traj.elementAtLoop s (-(rnd fl 1024 (.fin 1e99))) e rest)

/-- `trajectory::pointAt`, trajectory.cc:71-79 -/
def positionAt (fl : ℝ → ℝ) (lm : Libm) (t : Traj) (s : Dbl) : Out V3 := do
  let element ← elementAt fl t s
  pure (pointAt fl lm (subD fl s element.arc) element.tp.hp element.tp.rp)

/-- the loop of `getIntersectionsWithSurfaces`, trajectory.cc:113-125: the content of `_intersectionsList` after it and how it ends -/
def intersectionLoop (fl : ℝ → ℝ) (lm : Libm) (at2 : ℝ → ℝ → ℝ) (asn atn : ℝ → ℝ) (ref : TP) (maxS : Dbl) (list : List (Dbl × Surface)) :
    List Surface → List (Dbl × Surface) × Out Unit
  | [] => (list, .ok ())
  | surf :: rest =>
    match intersectWithSurface fl lm at2 asn atn surf ref.hp ref.rp 0 V3.zero 1 true with
    | .ok h =>
      ifc h.found = true ∧ 0 ≤ h.s ∧ h.s < maxS then intersectionLoop fl lm at2 asn atn ref maxS (list ++ [(h.s, surf)]) rest
      else intersectionLoop fl lm at2 asn atn ref maxS list rest
    | .throw w => (list, .throw w)
    | .ub w => (list, .ub w)
    | .diverge => (list, .diverge)

/-- `maxS`, trajectory.cc:111; `M_PI` is the `double` of Model/Rounding -/
def maxArc (fl : ℝ → ℝ) (hp : V5) : Dbl := mulD fl (.fin Rounded.mPi) (Dbl.abs (calculateRadius fl hp))

/-- `getIntersectionsWithSurfaces`, trajectory.cc:108-131: appends to the member `_intersectionsList` and sorts it; the result is a
reference to this member. -/
def getIntersections (fl : ℝ → ℝ) (lm : Libm) (at2 : ℝ → ℝ → ℝ) (asn atn : ℝ → ℝ) (sort : List (Dbl × Surface) → List (Dbl × Surface))
    (t : Traj) (surfaces : List Surface) : Traj × Out (List (Dbl × Surface)) :=
  match intersectionLoop fl lm at2 asn atn t.ref (maxArc fl t.ref.hp) t.inters surfaces with
  | (l, .ok ()) =>
    match stdSort sort Traj.sortWithS l with
    | .ok l' => ({ t with inters := l' }, .ok l')
    | .throw w => ({ t with inters := l }, .throw w)
    | .ub w => ({ t with inters := l }, .ub w)
    | .diverge => ({ t with inters := l }, .diverge)
  | (l, .throw w) => ({ t with inters := l }, .throw w)
  | (l, .ub w) => ({ t with inters := l }, .ub w)
  | (l, .diverge) => ({ t with inters := l }, .diverge)

end Rnd

end Verif
