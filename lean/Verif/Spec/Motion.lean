import Mathlib.Analysis.Calculus.Deriv.Basic
import Mathlib.Analysis.Real.Sqrt
import Mathlib.Data.Fin.VecNotation

/-!
# Specification: motion in a homogeneous field and its linearisation

A particle with direction of motion T (unit vector) in a homogeneous field with direction h (unit vector) obeys, with respect to
its path length w,  dM/dw = T,  dT/dw = q h x T  where  q = -|B| c (charge/momentum).
Small changes (δM, δT) of a track, caused by changes at the start and by a change dq of q, obey the linearised
("variational") equation  d(δM)/dw = δT,  d(δT)/dw = dq h x T + q h x δT.

The curvilinear frame of a direction T not parallel to z is U = z x T/|z x T|, V = T x U.  A curvilinear correction
(dqop, dlam, dphi, x, y) is a change of q/p, of dip angle and azimuth of T and a displacement x U + y V.
-/

noncomputable section

namespace Verif.Spec

abbrev R3 := Fin 3 → ℝ

/-- scalar product -/
def dot (a b : R3) : ℝ := a 0 * b 0 + a 1 * b 1 + a 2 * b 2

/-- vector product -/
def cross (a b : R3) : R3 := ![a 1 * b 2 - a 2 * b 1, a 2 * b 0 - a 0 * b 2, a 0 * b 1 - a 1 * b 0]

/-- cosine of the dip angle of a unit vector -/
def cosDip (T : R3) : ℝ := Real.sqrt (T 0 * T 0 + T 1 * T 1)

/-- horizontal unit vector across T -/
def frameU (T : R3) : R3 := ![-T 1 / cosDip T, T 0 / cosDip T, 0]

/-- completes T, U to a right-handed frame -/
def frameV (T : R3) : R3 := cross T (frameU T)

/-- T is the direction of motion of a particle starting with direction T0 -/
structure IsDirection (q : ℝ) (h T0 : R3) (T : ℝ → R3) : Prop where
  start : T 0 = T0
  deriv : ∀ w, HasDerivAt T (q • cross h (T w)) w

/-- (δM, δT) solves the variational equation along T -/
structure IsVariation (q dq : ℝ) (h : R3) (T : ℝ → R3) (dM0 dT0 : R3) (dM dT : ℝ → R3) : Prop where
  startM : dM 0 = dM0
  startT : dT 0 = dT0
  derivM : ∀ w, HasDerivAt dM (dT w) w
  derivT : ∀ w, HasDerivAt dT (dq • cross h (T w) + q • cross h (dT w)) w

/-- displacement belonging to a curvilinear correction at direction T -/
def toM (T : R3) (c : Fin 5 → ℝ) : R3 := c 3 • frameU T + c 4 • frameV T

/-- change of direction belonging to a curvilinear correction at direction T -/
def toT (T : R3) (c : Fin 5 → ℝ) : R3 := c 1 • frameV T + (c 2 * cosDip T) • frameU T

/-- the curvilinear correction belonging to (δM, δT) at direction T: first move along the track to the plane through the
reference point across T (by the path length -T·δM), then read off the components -/
def toCurvilinear (q : ℝ) (h T : R3) (dqop : ℝ) (dM dT : R3) : Fin 5 → ℝ :=
  let dw := -dot T dM
  let dM' := dM + dw • T
  let dT' := dT + (dw * q) • cross h T
  ![dqop, dot (frameV T) dT', dot (frameU T) dT' / cosDip T, dot (frameU T) dM', dot (frameV T) dM']

end Verif.Spec
