import Verif.Model.RoundedPath

/-!
# Crossings with cylinders in double precision

`intersectWithZCylinder` with the arithmetic of Model/RoundedArith.  `sin`, `cos`, `atan2` and `asin` of the C library are functions on
the numbers of type `double`.
-/

open Classical

noncomputable section

namespace Verif

namespace Rnd

/-- errors of `asin` of the C library of less than one unit in the last place -/
def IsAsin (asn : ℝ → ℝ) : Prop := ∀ x, |x| ≤ 1 → |asn x - Real.arcsin x| ≤ |Real.arcsin x| / 2 ^ 52 + 1 / 2 ^ 1074

/-- `asin` of a `double`; NaN outside of [-1, 1] -/
def asinD (asn : ℝ → ℝ) : Dbl → Dbl
  | .fin x => if |x| ≤ 1 then .fin (asn x) else .nan
  | _ => .nan

/-- the literal `1e-4` -/
def preferD (fl : ℝ → ℝ) : Dbl := rnd fl 1024 (1e-4 : Dbl)

/-- choice between the two solutions of `intersectWithZCylinder`, helixUtils.cc:486-523; `none` is `return false`, `some true` selects
solution 0, `some false` solution 1 -/
def cylinderSelect (fl : ℝ → ℝ) (mode : ℤ) (s0 s1 : Dbl) : Option Bool :=
  ifc s0 < 0 ∧ s1 < 0 then
    if mode < 1 then (ifc s1 < s0 then some true else some false) else none
  else ifc s0 < 0 ∧ 0 ≤ s1 then
    if mode < 0 then some true
    else if mode > 0 then some false
    else (ifc addD fl (Dbl.abs s0) (preferD fl) < Dbl.abs s1 then some true else some false)
  else ifc 0 ≤ s0 ∧ s1 < 0 then
    if mode > 0 then some true
    else if mode < 0 then some false
    else (ifc Dbl.abs s0 < addD fl (Dbl.abs s1) (preferD fl) then some true else some false)
  else
    if mode > -1 then (ifc s0 < s1 then some true else some false) else none

/-- the two candidate points in the transverse plane, helixUtils.cc:430-472; `none` is the `return false` of line 457; `M_PI` is the
`double` of Model/Rounding -/
def cylinderCandidates (fl : ℝ → ℝ) (lm : Libm) (at2 : ℝ → ℝ → ℝ) (asn : ℝ → ℝ) (rho : Dbl) (cylc : V3) (hp : V5) (rp : V3) :
    Option ((Dbl × Dbl) × (Dbl × Dbl)) :=
  let omega := calculateOmega hp
  let phi0 := calculatePhi0 hp
  let d0 := calculateD0 hp
  let sinph := sinD lm phi0
  let cosph := cosD lm phi0
  let x0 := subD fl rp.x (mulD fl d0 sinph)
  let y0 := addD fl rp.y (mulD fl d0 cosph)
  let xrho := cylc.x
  let yrho := cylc.y
  let dx := subD fl xrho x0
  let dy := subD fl yrho y0
  let sox := subD fl sinph (mulD fl omega dx)
  let coy := addD fl cosph (mulD fl omega dy)
  let gamma := subD fl (subD fl (subD fl (mulD fl (mulD fl 2 dx) sinph) (mulD fl (mulD fl 2 dy) cosph)) (mulD fl (mulD fl omega rho) rho))
    (mulD fl omega (addD fl (mulD fl dx dx) (mulD fl dy dy)))
  let gamma := divD fl gamma (mulD fl (mulD fl 2 rho) (sqrtD fl (addD fl (mulD fl sox sox) (mulD fl coy coy))))
  ifc 1 < Dbl.abs gamma then none
  else
    let phirho := atan2D fl at2 sox coy
    let asing := asinD asn gamma
    let phic0 := addD fl asing phirho
    let phic1 := ifc 0 < asing then subD fl (.fin Rounded.mPi) asing else subD fl (-.fin Rounded.mPi) asing
    let phic1 := addD fl phic1 phirho
    some ((addD fl xrho (mulD fl rho (cosD lm phic0)), addD fl yrho (mulD fl rho (sinD lm phic0))),
          (addD fl xrho (mulD fl rho (cosD lm phic1)), addD fl yrho (mulD fl rho (sinD lm phic1))))

/-- `intersectWithZCylinder`, helixUtils.cc:415-526 -/
def intersectWithZCylinder (fl : ℝ → ℝ) (lm : Libm) (at2 : ℝ → ℝ → ℝ) (asn : ℝ → ℝ) (surf : Surface) (hp : V5) (rp : V3) (s : Dbl)
    (xx : V3) (mode : ℤ) (checkBounds : Bool) : Out Hit :=
  match surf.cyl with
  | none => .throw " **** _intersectWithZCylinder: surface is not cylinder parallel to z"
  | some (rho, cylc) =>
    if surf.type.isParallelToZ then
      match cylinderCandidates fl lm at2 asn rho cylc hp rp with
      | none => .ok ⟨false, s, xx⟩
      | some ((X0, Y0), (X1, Y1)) =>
        let s0 := calculateSfromXY fl lm at2 X0 Y0 hp rp
        let s1 := calculateSfromXY fl lm at2 X1 Y1 hp rp
        let Z0 := calculateZfromS fl s0 hp rp
        let Z1 := calculateZfromS fl s1 hp rp
        let sol0 : V3 := ⟨X0, Y0, Z0⟩
        let sol1 : V3 := ⟨X1, Y1, Z1⟩
        match cylinderSelect fl mode s0 s1 with
        | none => .ok ⟨false, s, xx⟩
        | some true => .ok ⟨boundsOk surf checkBounds sol0, s0, sol0⟩
        | some false => .ok ⟨boundsOk surf checkBounds sol1, s1, sol1⟩
    else .throw " **** _intersectWithZCylinder: surface is not cylinder parallel to z"

end Rnd

end Verif
