import Verif.Model.RoundedMove
import Verif.Model.RoundedUtilities

/-!
# `moveHelixTo` with the covariance matrix, in double precision

The same steps as in Model/Helix.lean with the arithmetic of Model/RoundedArith.  The products of matrices are those of Eigen: sums of five
products, added in any order (`IsProduct`).
-/

open Classical

noncomputable section

namespace Verif

namespace Rnd

open Rounded (mPi)

/-- `moveHelixTo`, the local variables, helixUtils.cc:272-336 -/
def moveVals (fl : ℝ → ℝ) (lm : Libm) (at2 : ℝ → ℝ → ℝ) (hp : V5) (rp refNew : V3) : Out MoveVals := do
  let halfPi := divD fl (.fin mPi) 2
  let dr := -hp D0
  let fi0 := subD fl (hp PHI0) halfPi
  let fi0 ← norm02D fl fi0
  let cpa := hp OMEGA
  let dz := hp Z0
  let tnl := hp TANL
  let x0 := rp.x
  let y0 := rp.y
  let z0 := rp.z
  let xv := refNew.x
  let yv := refNew.y
  let zv := refNew.z
  let r := divD fl 1 cpa
  let rdr := addD fl r dr
  let csf0 := cosD lm fi0
  let snf0 := sineD fl fi0 csf0
  let xc := addD fl x0 (mulD fl rdr csf0)
  let yc := addD fl y0 (mulD fl rdr snf0)
  let fi0p : Dbl := 0
  let fi0p := ifc 0 < cpa then atan2D fl at2 (subD fl yc yv) (subD fl xc xv) else fi0p
  let fi0p := ifc cpa < 0 then atan2D fl at2 (subD fl yv yc) (subD fl xv xc) else fi0p
  let fi0p ← norm02D fl fi0p
  let csf := cosD lm fi0p
  let snf := sineD fl fi0p csf
  let anrm := divD fl 1 (sqrtD fl (addD fl (mulD fl csf csf) (mulD fl snf snf)))
  let csf := mulD fl csf anrm
  let snf := mulD fl snf anrm
  let csfd := addD fl (mulD fl csf csf0) (mulD fl snf snf0)
  let snfd := subD fl (mulD fl snf csf0) (mulD fl csf snf0)
  let fid := subD fl fi0p fi0
  let fid ← norm02D fl fid
  let fid := ifc .fin mPi < fid then subD fl fid (twoPiD fl) else fid
  let drp := subD fl (addD fl (mulD fl (subD fl xc xv) csf) (mulD fl (subD fl yc yv) snf)) r
  let dzp := subD fl (addD fl (subD fl z0 zv) dz) (mulD fl (mulD fl r tnl) fid)
  let fi0p := addD fl fi0p halfPi
  let fi0p ← whileLoop (· < -(.fin mPi)) (fun a => addD fl a (twoPiD fl)) fi0p
  let fi0p ← whileLoop (.fin mPi < ·) (fun a => subD fl a (twoPiD fl)) fi0p
  pure ⟨r, rdr, cpa, tnl, csfd, snfd, fid, drp, dzp, fi0p⟩

/-- the matrix `F` of `moveHelixTo`, helixUtils.cc:349-396 -/
def moveF (fl : ℝ → ℝ) (v : MoveVals) : M5 :=
  let rdrpr := divD fl 1 (addD fl v.r v.drp)
  let rcpar := divD fl v.r v.cpa
  ![![1, 0, 0, 0, 0],
    ![0, 1, 0, 0, 0],
    ![mulD fl (mulD fl rcpar rdrpr) v.snfd, 0, mulD fl (mulD fl v.rdr rdrpr) v.csfd, mulD fl (-rdrpr) v.snfd, 0],
    ![mulD fl rcpar (subD fl 1 v.csfd), 0, mulD fl v.rdr v.snfd, v.csfd, 0],
    ![mulD fl (mulD fl rcpar v.tnl) (subD fl v.fid (mulD fl (mulD fl v.r rdrpr) v.snfd)), mulD fl (-v.r) v.fid,
      mulD fl (mulD fl v.r v.tnl) (subD fl 1 (mulD fl (mulD fl v.rdr rdrpr) v.csfd)), mulD fl (mulD fl (mulD fl v.r rdrpr) v.tnl) v.snfd, 1]]

/-- `moveHelixTo`, helixUtils.cc:255-410: the updated track parameters and the returned angle -/
def moveHelixTo (fl : ℝ → ℝ) (lm : Libm) (at2 : ℝ → ℝ → ℝ) (mm : M5 → M5 → M5) (tp : TP) (refNew : V3) (covMat : Bool) : Out (TP × Dbl) := do
  let v ← moveVals fl lm at2 tp.hp tp.rp refNew
  let tp1 : TP := { cov := tp.cov, hp := V5.mk v.cpa v.tnl v.fi0p (-v.drp) v.dzp, rp := refNew }
  let tp2 : TP := if covMat then tp1.setCov (mm (mm (moveF fl v) tp1.cov) (M5.transpose (moveF fl v))) else tp1
  pure (tp2, v.fid)

end Rnd

end Verif
