import Verif.Model.Vec

/-!
# Track parameters and fit results

Model of `core/include/trackParameters.hh`, `core/src/trackParameters.cc`,
`core/include/trackParameterizationLCIO.hh`, `util/include/fitResults.hh`.
-/

noncomputable section

namespace Verif

/-! index constants, trackParameterizationLCIO.hh:17-23 -/
/-- OMEGA = 0 -/
abbrev OMEGA : Fin 5 := 0
/-- TANL = 1 -/
abbrev TANL : Fin 5 := 1
/-- PHI0 = 2 -/
abbrev PHI0 : Fin 5 := 2
/-- D0 = 3 -/
abbrev D0 : Fin 5 := 3
/-- Z0 = 4 -/
abbrev Z0 : Fin 5 := 4

/-- `trackParameters`, core/include/trackParameters.hh:28-106 -/
structure TP where
  cov : M5
  hp : V5
  rp : V3

namespace TP

/-- default constructor, trackParameters.cc:7-9 -/
def default : TP := ⟨M5.zero, V5.zero, V3.zero⟩

/-- constructor from helix, trackParameters.hh:35-37 -/
def ofHelix (hp : V5) (rp : V3) : TP := ⟨M5.zero, hp, rp⟩

/-- `setTrackParameters(Vector5)`, trackParameters.cc:42-45 -/
def setHp (t : TP) (p : V5) : TP := { t with hp := p }

/-- `setReferencePoint`, trackParameters.cc:49-52 -/
def setRef (t : TP) (p : V3) : TP := { t with rp := p }

/-- `setCovarianceMatrix`, trackParameters.cc:56-59 -/
def setCov (t : TP) (c : M5) : TP := { t with cov := c }

/-- `setTrackParameters(Vector5, fullCovariance, Vector3D)`, trackParameters.cc:33-38 -/
def setAll (t : TP) (p : V5) (c : M5) (q : V3) : TP := ((t.setHp p).setRef q).setCov c

/-- assignment, trackParameters.cc:19-29 -/
def assign (_t o : TP) : TP := ⟨o.cov, o.hp, o.rp⟩

end TP

/-- `calculateOmega`, trackParameterizationLCIO.hh:26-28 (of `trackParameters`), 63-65 (of `Vector5`) -/
def calculateOmega (hp : V5) : Dbl := hp OMEGA
/-- `calculateTanLambda`, trackParameterizationLCIO.hh:31-33 (of `trackParameters`), 68-70 (of `Vector5`) -/
def calculateTanLambda (hp : V5) : Dbl := hp TANL
/-- `calculatePhi0`, trackParameterizationLCIO.hh:36-38 (of `trackParameters`), 73-75 (of `Vector5`) -/
def calculatePhi0 (hp : V5) : Dbl := hp PHI0
/-- `calculateD0`, trackParameterizationLCIO.hh:41-43 (of `trackParameters`), 78-80 (of `Vector5`) -/
def calculateD0 (hp : V5) : Dbl := hp D0
/-- `calculateZ0`, trackParameterizationLCIO.hh:46-48 (of `trackParameters`), 83-85 (of `Vector5`) -/
def calculateZ0 (hp : V5) : Dbl := hp Z0
/-- `calculateCurvature`, trackParameterizationLCIO.hh:51-53 (of `trackParameters`), 88-90 (of `Vector5`) -/
def calculateCurvature (hp : V5) : Dbl := hp OMEGA
/-- `calculateLambda`, trackParameterizationLCIO.hh:56-58 (of `trackParameters`), 93-95 (of `Vector5`) -/
def calculateLambda (hp : V5) : Dbl := Dbl.atan (hp TANL)

/-- finite helix parameters in the order omega, tan(lambda), phi0, d0, z0 -/
def hpR (om tl ph d z : ℝ) : V5 := ![.fin om, .fin tl, .fin ph, .fin d, .fin z]

@[simp] theorem calculateOmega_hpR (om tl ph d z : ℝ) :
    calculateOmega (hpR om tl ph d z) = .fin om := rfl
@[simp] theorem calculateTanLambda_hpR (om tl ph d z : ℝ) :
    calculateTanLambda (hpR om tl ph d z) = .fin tl := rfl
@[simp] theorem calculatePhi0_hpR (om tl ph d z : ℝ) :
    calculatePhi0 (hpR om tl ph d z) = .fin ph := rfl
@[simp] theorem calculateD0_hpR (om tl ph d z : ℝ) :
    calculateD0 (hpR om tl ph d z) = .fin d := rfl
@[simp] theorem calculateZ0_hpR (om tl ph d z : ℝ) :
    calculateZ0 (hpR om tl ph d z) = .fin z := rfl
@[simp] theorem calculateCurvature_hpR (om tl ph d z : ℝ) :
    calculateCurvature (hpR om tl ph d z) = .fin om := rfl
@[simp] theorem calculateLambda_hpR (om tl ph d z : ℝ) :
    calculateLambda (hpR om tl ph d z) = .fin (Real.arctan tl) := rfl

/-- `fitResults`, util/include/fitResults.hh:10-65 -/
structure FitResults where
  valid : Bool
  chisquare : Dbl
  ndf : ℕ
  lostweight : Dbl
  estParams : TP

namespace FitResults

/-- default constructor, fitResults.hh:14 -/
def default : FitResults := ⟨false, 0, 0, 0, TP.default⟩

/-- `setResults`, fitResults.hh:42-50 -/
def setResults (_f : FitResults) (v : Bool) (chs : Dbl) (n : ℕ) (wl : Dbl) (tp : TP) : FitResults :=
  ⟨v, chs, n, wl, tp⟩

end FitResults

end Verif
