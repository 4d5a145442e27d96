import Verif.Model.RoundedPath

/-!
# `moveHelixTo` in double precision

The new parameters, with the arithmetic of Model/RoundedArith.  The covariance matrix is in Model/RoundedMoveCov.  (Model/Rounding has only the
operations with angles, for any result of `atan2` and azimuths of any size.)
-/

open Classical

noncomputable section

namespace Verif

namespace Rnd

open Rounded (mPi)

/-- `kTwoPi`, helixUtils.cc:267-268 -/
def twoPiD (fl : ℝ → ℝ) : Dbl := mulD fl 2 (.fin mPi)

/-- `while(a < 0.) a += kTwoPi; while(a > kTwoPi) a -= kTwoPi;`, helixUtils.cc:275-276, 312-313, 326-327 -/
def norm02D (fl : ℝ → ℝ) (a : Dbl) : Out Dbl := do
  let a ← whileLoop (· < 0) (fun a => addD fl a (twoPiD fl)) a
  whileLoop (twoPiD fl < ·) (fun a => subD fl a (twoPiD fl)) a

/-- the sine of an angle from its cosine, helixUtils.cc:301-302, 316-317 -/
def sineD (fl : ℝ → ℝ) (fi cs : Dbl) : Dbl :=
  let sn := sqrtD fl (Dbl.max 0 (mulD fl (subD fl 1 cs) (addD fl 1 cs)))
  ifc .fin mPi < fi then -sn else sn

/-- `moveHelixTo`, the new parameters and the returned angle, helixUtils.cc:272-345 -/
def moveParams (fl : ℝ → ℝ) (lm : Libm) (at2 : ℝ → ℝ → ℝ) (hp : V5) (rp refNew : V3) : Out (V5 × Dbl) := do
  let halfPi := divD fl (.fin mPi) 2
  let dr := -hp D0
  let fi0 := subD fl (hp PHI0) halfPi
  let fi0 ← norm02D fl fi0
  let cpa := hp OMEGA
  let dz := hp Z0
  let tnl := hp TANL
  let x0 := rp.x
  let y0 := rp.y
  let z0 := rp.z
  let xv := refNew.x
  let yv := refNew.y
  let zv := refNew.z
  let r := divD fl 1 cpa
  let rdr := addD fl r dr
  let csf0 := cosD lm fi0
  let snf0 := sineD fl fi0 csf0
  let xc := addD fl x0 (mulD fl rdr csf0)
  let yc := addD fl y0 (mulD fl rdr snf0)
  let fi0p : Dbl := 0
  let fi0p := ifc 0 < cpa then atan2D fl at2 (subD fl yc yv) (subD fl xc xv) else fi0p
  let fi0p := ifc cpa < 0 then atan2D fl at2 (subD fl yv yc) (subD fl xv xc) else fi0p
  let fi0p ← norm02D fl fi0p
  let csf := cosD lm fi0p
  let snf := sineD fl fi0p csf
  let anrm := divD fl 1 (sqrtD fl (addD fl (mulD fl csf csf) (mulD fl snf snf)))
  let csf := mulD fl csf anrm
  let snf := mulD fl snf anrm
  let fid := subD fl fi0p fi0
  let fid ← norm02D fl fid
  let fid := ifc .fin mPi < fid then subD fl fid (twoPiD fl) else fid
  let drp := subD fl (addD fl (mulD fl (subD fl xc xv) csf) (mulD fl (subD fl yc yv) snf)) r
  let dzp := subD fl (addD fl (subD fl z0 zv) dz) (mulD fl (mulD fl r tnl) fid)
  let fi0p := addD fl fi0p halfPi
  let fi0p ← whileLoop (· < -(.fin mPi)) (fun a => addD fl a (twoPiD fl)) fi0p
  let fi0p ← whileLoop (.fin mPi < ·) (fun a => subD fl a (twoPiD fl)) fi0p
  pure (V5.mk cpa tnl fi0p (-drp) dzp, fid)

end Rnd

end Verif
