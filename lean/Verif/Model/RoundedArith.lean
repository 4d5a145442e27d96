import Verif.Model.Lcio
import Mathlib.Data.Real.Basic

/-!
# Arithmetic of `double` and `float`

The other models compute with real numbers (except Rounding, which has the angles of `moveHelixTo`).  Here the result of every
operation is rounded to one of the numbers of the type, with overflow to infinity.  Models with this arithmetic: the unit conversions
of `LCIOPersistency.cc` and the class `Vector3D`.
-/

open Classical

noncomputable section

namespace Verif

namespace Rnd

/-- the numbers `m 2^(e-k)` with `e ≥ 0` and `p` bits for `m`: binary floating point numbers with unlimited exponents above.
`double`: p = 53, k = 1074; `float`: p = 24, k = 149. -/
def RepF (p k : ℕ) (x : ℝ) : Prop := ∃ (m : ℤ) (e : ℕ), |m| ≤ 2 ^ p ∧ x * 2 ^ k = m * 2 ^ e

/-- rounding to nearest; nothing is said about ties -/
structure NearestF (p k : ℕ) (fl : ℝ → ℝ) : Prop where
  rep : ∀ x, RepF p k (fl x)
  near : ∀ x y, RepF p k y → |fl x - x| ≤ |y - x|

/-- the number of type `double` or `float` for the result of an operation: rounding, and infinity from `2^top` on -/
def rnd (fl : ℝ → ℝ) (top : ℕ) : Dbl → Dbl
  | .fin x => if |fl x| < 2 ^ top then .fin (fl x) else .inf (decide (x < 0))
  | .inf s => .inf s
  | .nan => .nan

/-- operations with numbers of type `double`; `fl` is the rounding -/
def mulD (fl : ℝ → ℝ) (a b : Dbl) : Dbl := rnd fl 1024 (a * b)
def divD (fl : ℝ → ℝ) (a b : Dbl) : Dbl := rnd fl 1024 (a / b)
def addD (fl : ℝ → ℝ) (a b : Dbl) : Dbl := rnd fl 1024 (a + b)
def subD (fl : ℝ → ℝ) (a b : Dbl) : Dbl := rnd fl 1024 (a - b)
def sqrtD (fl : ℝ → ℝ) (a : Dbl) : Dbl := rnd fl 1024 (Dbl.sqrt a)

/-- conversion of a `double` to `float` -/
def toFloat (fl : ℝ → ℝ) (a : Dbl) : Dbl := rnd fl 128 a

/-- `dd4hep::mm`, the `double` next to 0.1 -/
def mmD (fl : ℝ → ℝ) : Dbl := rnd fl 1024 (.fin (1 / 10))

/-- `readLCIO`, LCIOPersistency.cc:21-93, with the arithmetic of `double` -/
def readLCIO (fl : ℝ → ℝ) (ts : TrackState) : Out TP := do
  let mm := mmD fl
  let param := V5.zero
  let param := param.set OMEGA (divD fl ts.omega mm)
  let param := param.set TANL ts.tanLambda
  let param := param.set PHI0 ts.phi
  let param := param.set D0 (mulD fl ts.d0 mm)
  let param := param.set Z0 (mulD fl ts.z0 mm)
  let refPoint : V3 := ⟨mulD fl ts.ref.x mm, mulD fl ts.ref.y mm, mulD fl ts.ref.z mm⟩
  let c := M5.zero
  let c := c.set 0 0 (divD fl (← vecAt ts.cov 5) (mulD fl mm mm))
  let c := c.set 1 1 (← vecAt ts.cov 14)
  let c := c.set 2 2 (← vecAt ts.cov 2)
  let c := c.set 3 3 (mulD fl (mulD fl (← vecAt ts.cov 0) mm) mm)
  let c := c.set 4 4 (mulD fl (mulD fl (← vecAt ts.cov 9) mm) mm)
  let c := c.set 1 0 (divD fl (← vecAt ts.cov 12) mm)
  let c := c.set 0 1 (divD fl (← vecAt ts.cov 12) mm)
  let c := c.set 2 0 (divD fl (← vecAt ts.cov 4) mm)
  let c := c.set 0 2 (divD fl (← vecAt ts.cov 4) mm)
  let c := c.set 3 0 (← vecAt ts.cov 3)
  let c := c.set 0 3 (← vecAt ts.cov 3)
  let c := c.set 4 0 (← vecAt ts.cov 8)
  let c := c.set 0 4 (← vecAt ts.cov 8)
  let c := c.set 1 2 (← vecAt ts.cov 11)
  let c := c.set 2 1 (← vecAt ts.cov 11)
  let c := c.set 1 3 (mulD fl (← vecAt ts.cov 10) mm)
  let c := c.set 3 1 (mulD fl (← vecAt ts.cov 10) mm)
  let c := c.set 1 4 (mulD fl (← vecAt ts.cov 13) mm)
  let c := c.set 4 1 (mulD fl (← vecAt ts.cov 13) mm)
  let c := c.set 3 2 (mulD fl (← vecAt ts.cov 1) mm)
  let c := c.set 2 3 (mulD fl (← vecAt ts.cov 1) mm)
  let c := c.set 2 4 (mulD fl (← vecAt ts.cov 7) mm)
  let c := c.set 4 2 (mulD fl (← vecAt ts.cov 7) mm)
  let c := c.set 3 4 (mulD fl (mulD fl (← vecAt ts.cov 6) mm) mm)
  let c := c.set 4 3 (mulD fl (mulD fl (← vecAt ts.cov 6) mm) mm)
  pure (TP.default.setAll param c refPoint)

/-- `createLCIO`, LCIOPersistency.cc:97-154, with the arithmetic of `double` and the conversion to `float` (`sl`) -/
def createLCIO (fl sl : ℝ → ℝ) (tp : TP) : TrackState :=
  let mm := mmD fl
  let c := tp.cov
  { location := 0
    d0 := toFloat sl (divD fl (calculateD0 tp.hp) mm)
    phi := toFloat sl (calculatePhi0 tp.hp)
    omega := toFloat sl (mulD fl (calculateOmega tp.hp) mm)
    z0 := toFloat sl (divD fl (calculateZ0 tp.hp) mm)
    tanLambda := toFloat sl (calculateTanLambda tp.hp)
    cov :=
      [toFloat sl (divD fl (c 3 3) (mulD fl mm mm)),
       toFloat sl (divD fl (c 3 2) mm),
       toFloat sl (c 2 2),
       toFloat sl (c 3 0),
       toFloat sl (mulD fl (c 0 2) mm),
       toFloat sl (mulD fl (c 0 0) (mulD fl mm mm)),
       toFloat sl (divD fl (c 3 4) (mulD fl mm mm)),
       toFloat sl (divD fl (c 2 4) mm),
       toFloat sl (c 4 0),
       toFloat sl (divD fl (c 4 4) (mulD fl mm mm)),
       toFloat sl (divD fl (c 1 3) mm),
       toFloat sl (c 1 2),
       toFloat sl (mulD fl (c 0 1) mm),
       toFloat sl (divD fl (c 1 4) mm),
       toFloat sl (c 1 1)]
    ref := ⟨toFloat sl (divD fl tp.rp.x mm), toFloat sl (divD fl tp.rp.y mm), toFloat sl (divD fl tp.rp.z mm)⟩ }

/-! ## `Vector3D` -/

/-- `operator+`, Vector3D.hh:275-278 -/
def addV (fl : ℝ → ℝ) (a b : V3) : V3 := ⟨addD fl a.x b.x, addD fl a.y b.y, addD fl a.z b.z⟩

/-- `operator-`, Vector3D.hh:281-284 -/
def subV (fl : ℝ → ℝ) (a b : V3) : V3 := ⟨subD fl a.x b.x, subD fl a.y b.y, subD fl a.z b.z⟩

/-- `operator*` with a number, Vector3D.hh:296-299 -/
def smulV (fl : ℝ → ℝ) (s : Dbl) (v : V3) : V3 := ⟨mulD fl s v.x, mulD fl s v.y, mulD fl s v.z⟩

/-- `dot`, Vector3D.hh:205-208 -/
def dotV (fl : ℝ → ℝ) (a b : V3) : Dbl := addD fl (addD fl (mulD fl a.x b.x) (mulD fl a.y b.y)) (mulD fl a.z b.z)

/-- `cross`, Vector3D.hh:212-215 -/
def crossV (fl : ℝ → ℝ) (a b : V3) : V3 :=
  ⟨subD fl (mulD fl a.y b.z) (mulD fl a.z b.y), subD fl (mulD fl a.z b.x) (mulD fl a.x b.z), subD fl (mulD fl a.x b.y) (mulD fl a.y b.x)⟩

/-- `r()`, Vector3D.hh:186-189 -/
def rV (fl : ℝ → ℝ) (v : V3) : Dbl := sqrtD fl (dotV fl v v)

/-- `unit()`, Vector3D.hh:218-222 -/
def unitV (fl : ℝ → ℝ) (v : V3) : V3 := let n := rV fl v; ⟨divD fl v.x n, divD fl v.y n, divD fl v.z n⟩

end Rnd

end Verif
