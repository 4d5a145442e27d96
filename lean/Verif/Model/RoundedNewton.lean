import Verif.Model.RoundedPlane
import Verif.Model.RoundedCylinder

/-!
# The Newton iteration in double precision

`calculateTangent`, `intersectWithSurfaceNewton`, `intersectWithZCone` and `intersectWithSurface` with the arithmetic of
Model/RoundedArith.  `sin`, `cos`, `atan`, `atan2` and `asin` of the C library are functions on the numbers of type `double`.  Distance and
normal are computed by the surface (DD4hep), they are any functions.
-/

open Classical

noncomputable section

namespace Verif

namespace Rnd

/-- errors of `atan` of the C library of less than one unit in the last place -/
def IsAtan (atn : ℝ → ℝ) : Prop := ∀ x, |atn x - Real.arctan x| ≤ |Real.arctan x| / 2 ^ 52 + 1 / 2 ^ 1074

/-- `atan` of a `double` -/
def atanD (fl : ℝ → ℝ) (atn : ℝ → ℝ) : Dbl → Dbl
  | .fin x => .fin (atn x)
  | x => rnd fl 1024 (Dbl.atan x)

/-- `calculateTangent`, helixUtils.cc:133-144, with `calculateLambda`, trackParameterizationLCIO.hh:93-95 -/
def calculateTangent (fl : ℝ → ℝ) (lm : Libm) (atn : ℝ → ℝ) (s : Dbl) (hp : V5) : V3 :=
  let omega := calculateCurvature hp
  let phi0 := calculatePhi0 hp
  let lambda := atanD fl atn (calculateTanLambda hp)
  let t0 := mulD fl (cosD lm (subD fl phi0 (mulD fl omega s))) (cosD lm lambda)
  let t1 := mulD fl (sinD lm (subD fl phi0 (mulD fl omega s))) (cosD lm lambda)
  let t2 := sinD lm lambda
  ⟨t0, t1, t2⟩

/-- `epsilon`, helixUtils.cc:708 -/
def newtonEps (fl : ℝ → ℝ) : Dbl := mulD fl (rnd fl 1024 (1e-3 : Dbl)) (mmD fl)

/-- `alphaDecr`, helixUtils.cc:712 -/
def alphaDecr (fl : ℝ → ℝ) : Dbl := divD fl 1 10

/-- one pass through the loop body, helixUtils.cc:729-804 -/
def newtonStep (fl : ℝ → ℝ) (lm : Libm) (atn : ℝ → ℝ) (surf : Surface) (hp : V5) (rp : V3) (st : NewtonState) : NewtonState :=
  if st.count > 100 then
    { st with s := st.prevS, xx := st.prevXX, done := some false }
  else
    let st := { st with count := st.count + 1 }
    let dist := surf.distance st.xx
    let st := { st with evals := st.evals + 1 }
    ifc Dbl.abs dist < newtonEps fl then { st with done := some true }
    else
      let (st, dist) := ifc Dbl.abs dist < Dbl.abs st.prevDist then
          ({ st with prevDist := dist, prevS := st.s, prevXX := st.xx, alpha := mulD fl st.alpha (alphaDecr fl) }, dist)
        else ({ st with s := st.prevS, xx := st.prevXX, alpha := mulD fl st.alpha 10 }, st.prevDist)
      let dDdxx := surf.normal st.xx
      let dxxds := calculateTangent fl lm atn st.s hp
      let dDds := dotV fl dDdxx dxxds
      let denom := mulD fl (addD fl 1 st.alpha) dDds
      let s := subD fl st.s (divD fl dist denom)
      { st with s := s, xx := pointAt fl lm s hp rp }

/-- loop start, helixUtils.cc:714-723; `1.e10` is a number of type `double` -/
def newtonInit (fl : ℝ → ℝ) (lm : Libm) (hp : V5) (rp : V3) (s : Dbl) : NewtonState :=
  let xx := pointAt fl lm s hp rp
  ⟨s, xx, xx, s, (1e10 : Dbl), rnd fl 1024 (1e-10 : Dbl), 0, none, 0⟩

/-- the loop of `intersectWithSurfaceNewton`, helixUtils.cc:729-804 -/
def newtonLoop (fl : ℝ → ℝ) (lm : Libm) (atn : ℝ → ℝ) (surf : Surface) (hp : V5) (rp : V3) (s : Dbl) : Out NewtonState :=
  whileLoop (fun st => st.done = none) (newtonStep fl lm atn surf hp rp) (newtonInit fl lm hp rp s)

/-- `intersectWithSurfaceNewton`, helixUtils.cc:701-810; `mode * s` is exact for the modes -1, 0 and 1 -/
def intersectWithSurfaceNewton (fl : ℝ → ℝ) (lm : Libm) (atn : ℝ → ℝ) (surf : Surface) (hp : V5) (rp : V3) (s : Dbl) (_xx : V3) (mode : ℤ)
    (checkBounds : Bool) : Out Hit := do
  let st ← newtonLoop fl lm atn surf hp rp s
  if st.done = some true then
    ifc modeOk mode st.s then .ok ⟨boundsOk surf checkBounds st.xx, st.s, st.xx⟩
    else .ok ⟨false, st.s, st.xx⟩
  else .ok ⟨false, st.s, st.xx⟩

/-- `intersectWithZCone`, helixUtils.cc:686-699 -/
def intersectWithZCone (fl : ℝ → ℝ) (lm : Libm) (at2 : ℝ → ℝ → ℝ) (asn atn : ℝ → ℝ) (surf : Surface) (hp : V5) (rp : V3) (s : Dbl) (xx : V3)
    (mode : ℤ) (checkBounds : Bool) : Out Hit := do
  let h ← intersectWithZCylinder fl lm at2 asn surf hp rp s xx mode false
  if h.found then intersectWithSurfaceNewton fl lm atn surf hp rp h.s h.xx mode checkBounds
  else .ok ⟨false, h.s, h.xx⟩

/-- `intersectWithSurface`, helixUtils.cc:654-684 (the static message counter is left out) -/
def intersectWithSurface (fl : ℝ → ℝ) (lm : Libm) (at2 : ℝ → ℝ → ℝ) (asn atn : ℝ → ℝ) (surf : Surface) (hp : V5) (rp : V3) (s : Dbl)
    (xx : V3) (mode : ℤ) (checkBounds : Bool) : Out Hit :=
  if surf.type.isZCylinder then intersectWithZCylinder fl lm at2 asn surf hp rp s xx mode checkBounds
  else if surf.type.isZPlane then intersectWithZPlane fl lm at2 surf hp rp s xx mode checkBounds
  else if surf.type.isZDisk then .ok (intersectWithZDisk fl lm surf hp rp mode checkBounds)
  else if surf.isCone then intersectWithZCone fl lm at2 asn atn surf hp rp s xx mode checkBounds
  else .ok ⟨false, s, xx⟩

end Rnd

end Verif
