import Verif.Model.Loop
import Mathlib.Data.Real.Basic
import Mathlib.Algebra.Order.AbsoluteValue.Basic

/-!
# Rounded arithmetic

The other models compute with real numbers.  Here the result of every operation is rounded to one of the numbers a `double`
can hold.  Overflow is left out (the numbers below only become smaller).
-/

open Classical

noncomputable section

namespace Verif

namespace Rounded

/-- the finite numbers of type `double` (IEEE 754 binary64), and larger numbers of the same form -/
def Rep (x : ℝ) : Prop := ∃ (m : ℤ) (e : ℕ), |m| ≤ 2 ^ 53 ∧ x * 2 ^ 1074 = m * 2 ^ e

/-- rounding to nearest; nothing is said about ties -/
structure Nearest (fl : ℝ → ℝ) : Prop where
  rep : ∀ x, Rep (fl x)
  near : ∀ x y, Rep y → |fl x - x| ≤ |y - x|

/-- `M_PI` as a `double` -/
def mPi : ℝ := 884279719003555 / 2 ^ 48

/-- `kTwoPi`, helixUtils.cc:268 -/
def twoPi (fl : ℝ → ℝ) : ℝ := fl (2 * mPi)

/-- `while(a < 0.) a += kTwoPi; while(a > kTwoPi) a -= kTwoPi;`, helixUtils.cc:275-276, 312-313, 326-327 -/
def norm02 (fl : ℝ → ℝ) (a : ℝ) : Out ℝ := do
  let a ← whileLoop (fun a => a < 0) (fun a => fl (a + twoPi fl)) a
  whileLoop (fun a => a > twoPi fl) (fun a => fl (a - twoPi fl)) a

/-- `fi0` of `moveHelixTo`, helixUtils.cc:273-276 -/
def startAngle (fl : ℝ → ℝ) (phi0 : ℝ) : Out ℝ := norm02 fl (fl (phi0 - fl (mPi / 2)))

/-- the new azimuth of `moveHelixTo`, helixUtils.cc:334-336, from `fi0p` after line 313 -/
def endAngle (fl : ℝ → ℝ) (fi0p : ℝ) : Out ℝ := do
  let a ← whileLoop (fun a => a < -mPi) (fun a => fl (a + twoPi fl)) (fl (fi0p + fl (mPi / 2)))
  whileLoop (fun a => a > mPi) (fun a => fl (a - twoPi fl)) a

/-- All that `moveHelixTo` does with angles, helixUtils.cc:273-276, 309-313, 325-328, 334-336: `fi0`, the angle `fid` and the new
azimuth.  `atan2` stands for the call in line 309 or 310, which depends on `fi0`. -/
def moveAngles (fl : ℝ → ℝ) (phi0 : ℝ) (atan2 : ℝ → ℝ) : Out (ℝ × ℝ × ℝ) := do
  let fi0 ← startAngle fl phi0
  let fi0p ← norm02 fl (atan2 fi0)
  let fid ← norm02 fl (fl (fi0p - fi0))
  let fid := if fid > mPi then fl (fid - twoPi fl) else fid
  let phi ← endAngle fl fi0p
  pure (fi0, fid, phi)

end Rounded

end Verif
