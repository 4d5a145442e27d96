import Verif.Model.UnitTests
import Verif.Model.Geometry

/-!
# The tests of the program of unit tests

Model of `test/unitTests/tpsimple.cc`, `constantbfield.cc`, `spacevectors.cc`, `intersectionTest.cc`, `resultTest.cc`,
`helixCalculations.cc`, `initialTrackTest.cc`, `finalTrackTest.cc` and of `addSimpleTests` in `test/aidaTT-unitTests.cpp`.

A test is the list of what it checks.  Numbers of type `double` are real numbers here: the decimal numbers in the tests are not rounded,
`M_PI_4` is a quarter of pi, and the functions that are tested are those of the exact models.  Numbers of type `float` are rounded
(`sl`).  Objects that tests create with `new` in each run and never delete are left out.
-/

open Classical

noncomputable section

namespace Verif

namespace UT

/-- the argument of `test_`: a condition, or `floatCompare(a, b)` -/
inductive Check where
  | holds (b : Bool)
  | fcmp (a b : Dbl)

/-- whether a check succeeds -/
def Check.eval (fl sl : ℝ → ℝ) : Check → Bool
  | .holds b => b
  | .fcmp a b => floatCompare fl sl a b

open Check

/-- a new test: UnitTest.hh:53-59; `checks n` is what is checked in the n-th run -/
def newTest (fl sl : ℝ → ℝ) (checks : ℕ → List Check) : Test := ⟨true, 0, 0, 0, fun n => (checks n).map (Check.eval fl sl)⟩

/-- `cm`, the same in tpsimple.cc:15-20, resultTest.cc:35-40, helixCalculations.cc:17-22, initialTrackTest.cc:27-32 and
finalTrackTest.cc:28-33 -/
def cm : List Dbl :=
  [1, 0, 0, 0, 0,
   0, 1, 0, 0, 0,
   0, 0, 1, 0, 0,
   0, 0, 0, 1, 0,
   0, 0, 0, 0, 1]

/-- `rp`, tpsimple.cc:22, resultTest.cc:42, helixCalculations.cc:24 -/
def rp : V3 := ⟨2, 3, 5⟩

/-- `hp`, tpsimple.cc:23, resultTest.cc:43 -/
def hp : List Dbl := [1, 0.02, 1.2, 0.2, 0.3]

/-! ## tpsimple -/

/-- `_test`, tpsimple.cc:41-118, with the data members made in the constructor, tpsimple.cc:6-37 -/
def tpsimpleChecks : Out (List Check) := do
  let covmatrix ← M5.ofList cm
  let helix ← V5.ofList hp
  let refpoint := rp
  let one := TP.default
  let two := TP.default
  let three := TP.default
  let four := TP.default
  let c1 := (List.finRange 5).map fun i => fcmp (one.hp i) 0
  let two := two.setRef refpoint
  let three := three.setHp helix
  let four := four.setCov covmatrix
  let c2 := (List.finRange 5).flatMap fun i => [fcmp (one.hp i) 0, fcmp (two.hp i) 0, fcmp (four.hp i) 0]
  let c3 := (List.range 3).flatMap fun (i : ℕ) => [fcmp (one.rp.get i) 0, fcmp (three.rp.get i) 0, fcmp (four.rp.get i) 0]
  let c4 := indices.flatMap fun p => [fcmp (one.cov p.1 p.2) 0, fcmp (two.cov p.1 p.2) 0, fcmp (three.cov p.1 p.2) 0]
  let one := one.setAll helix covmatrix refpoint
  let c5 := (List.finRange 5).flatMap fun i => [fcmp (one.hp i) (helix i), fcmp (three.hp i) (helix i)]
  let c6 := (List.range 3).flatMap fun (i : ℕ) => [fcmp (one.rp.get i) (refpoint.get i), fcmp (two.rp.get i) (refpoint.get i)]
  let c7 := indices.flatMap fun p =>
    if p.1 ≠ p.2 then [fcmp (one.cov p.1 p.2) 0, fcmp (four.cov p.1 p.2) 0] else [fcmp (one.cov p.1 p.2) 1, fcmp (four.cov p.1 p.2) 1]
  let c8 := (List.finRange 5).map fun i => fcmp (one.hp i) (one.hp i)
  pure (c1 ++ c2 ++ c3 ++ c4 ++ c5 ++ c6 ++ c7 ++ c8)

/-! ## constantbfield -/

/-- `_test`, constantbfield.cc:22-49, with the constructor, constantbfield.cc:5-18 -/
def constantbfieldChecks : List Check :=
  let a : Dbl := -1.2
  let b : Dbl := 2.3
  let point : V3 := ⟨0, 3, 2⟩
  let bf1 : ConstantSolenoidBField := ⟨a⟩
  let bf2 : ConstantSolenoidBField := ⟨b⟩
  [fcmp (bf1.Bx point) 0, fcmp (bf1.By point) 0, fcmp (bf1.Bz point) a,
   fcmp (bf2.Bx point) 0, fcmp (bf2.By point) 0, fcmp (bf2.Bz point) b,
   fcmp (bf1.BField point).x 0, fcmp (bf1.BField point).y 0, fcmp (bf1.BField point).z a,
   fcmp (bf2.BField point).x 0, fcmp (bf2.BField point).y 0, fcmp (bf2.BField point).z b,
   fcmp (bf1.BField3 2 3.14 (-23.4)).x 0, fcmp (bf1.BField3 2 3.14 (-23.4)).y 0, fcmp (bf1.BField3 2 3.14 (-23.4)).z a]

/-! ## spacevectors -/

/-- `_f`, an array of type `float`, spacevectors.cc:9-11 -/
def spaceF (sl : ℝ → ℝ) : V3 := ⟨.fin (sl 0.1), .fin (sl 0.2), .fin (sl 0.3)⟩

/-- `_d`, spacevectors.cc:12-14 -/
def spaceD : V3 := ⟨1.1, 1.2, 1.3⟩

/-- `_a`, `_b`, `_c`, spacevectors.cc:7 -/
def spaceA : Dbl := 3.1
def spaceB : Dbl := 2.7
def spaceC : Dbl := 1.414

/-- `_test`, spacevectors.cc:25-57, given `*_vecB`: the checks and `*_vecB` afterwards.  The other vectors do not change. -/
def spacevectorsTest (sl : ℝ → ℝ) (vecB : V3) : List Check × V3 :=
  let f := spaceF sl
  let d := spaceD
  let vecA := V3.zero
  let vecC := d
  let vecD : V3 := ⟨spaceA, spaceB, spaceC⟩
  let c1 := [fcmp vecA.x 0, fcmp vecA.y 0, fcmp vecA.z 0,
    fcmp vecB.x f.x, fcmp vecB.y f.y, fcmp vecB.z f.z,
    fcmp (vecB.get 0) f.x, fcmp (vecB.get 1) f.y, fcmp (vecB.get 2) f.z,
    fcmp vecC.x d.x, fcmp vecC.y d.y, fcmp vecC.z d.z,
    fcmp vecD.x spaceA, fcmp vecD.y spaceB, fcmp vecD.z spaceC,
    fcmp vecA.rho 0, fcmp vecB.rho 0.22360679774997896964, fcmp vecC.trans 1.62788205960997063873]
  let vecB := { vecB with x := spaceA }
  let vecB := { vecB with y := spaceB }
  let c2 := [fcmp vecB.x spaceA, fcmp vecB.y spaceB, fcmp vecB.rho (Dbl.sqrt (spaceA * spaceA + spaceB * spaceB))]
  (c1 ++ c2, vecB)

/-- `*_vecB` before the n-th run; at first it has the values of `_f`, spacevectors.cc:18 -/
def spacevectorsState (sl : ℝ → ℝ) : ℕ → V3
  | 0 => spaceF sl
  | n + 1 => (spacevectorsTest sl (spacevectorsState sl n)).2

def spacevectorsChecks (sl : ℝ → ℝ) (n : ℕ) : List Check := (spacevectorsTest sl (spacevectorsState sl n)).1

/-! ## intersectionTest -/

/-- `try { new … } catch(std::invalid_argument&) { test_(true); }`: a check only if there is an exception -/
def checkThrow {α : Type} : Out α → Out (List Check)
  | .ok _ => .ok []
  | .throw _ => .ok [holds true]
  | .ub w => .ub w
  | .diverge => .diverge

/-- `_test`, intersectionTest.cc:17-70, with the constructor, intersectionTest.cc:7-13 -/
def intersectionChecks : Out (List Check) := do
  let c1 ← Circle.make 0 0 1
  let c2 ← Circle.make 1 1 1
  let sL1 ← Line.make 0 1 0.5
  let sL2 ← Line.make 1 1 0
  let sectCC ← intersectCircleCircle c1 c2
  let p0 ← Intersections.get sectCC 0
  let p1 ← Intersections.get sectCC 1
  let k1 := [holds (decide (sectCC.length = 2)), fcmp p0.1 1, fcmp p0.2 0, fcmp p1.1 0, fcmp p1.2 1]
  let sectCL := intersectCircleStraightLine c1 sL1
  let p0 ← Intersections.get sectCL 0
  let p1 ← Intersections.get sectCL 1
  let k2 := [holds (decide (sectCL.length = 2)), fcmp p0.1 (Dbl.sqrt 0.75), fcmp p0.2 0.5, fcmp p1.1 (-Dbl.sqrt 0.75), fcmp p1.2 0.5]
  let sectLL := intersectStraightLineStraightLine sL2 sL1
  let p0 ← Intersections.get sectLL 0
  let k3 := [holds (decide (sectLL.length = 1)), fcmp p0.1 (-0.5), fcmp p0.2 0.5]
  let k4 ← checkThrow (Circle.make 0 0 (-1))
  let k5 ← checkThrow (Line.make 0 (-1) (-1))
  let k6 ← checkThrow (Line.make 0 0 12)
  pure (k1 ++ k2 ++ k3 ++ k4 ++ k5 ++ k6)

/-! ## resultTest -/

/-- `_test`, resultTest.cc:13-80, given `*_fR`: the checks and `*_fR` afterwards -/
def resultTestStep (fR : FitResults) : Out (List Check × FitResults) := do
  let tp := fR.estParams
  let c1 := [holds (fR.valid == false), holds (fR.ndf == 0), fcmp fR.chisquare 0, fcmp fR.lostweight 0,
    fcmp (tp.hp 0) 0, fcmp (tp.hp 1) 0, fcmp (tp.hp 2) 0, fcmp (tp.hp 3) 0, fcmp (tp.hp 4) 0]
  let covmatrix ← M5.ofList cm
  let helix ← V5.ofList hp
  let TP := TP.default.setAll helix covmatrix rp
  let n := 64
  let wl : Dbl := 12.34
  let chs : Dbl := 225.256
  let fR := fR.setResults true chs n wl TP
  let tp2 := fR.estParams
  let c2 := [holds (fR.valid == true), holds (fR.ndf == n), fcmp fR.chisquare chs, fcmp fR.lostweight wl,
    fcmp (tp2.hp 0) 1, fcmp (tp2.hp 1) 0.02, fcmp (tp2.hp 2) 1.2, fcmp (tp2.hp 3) 0.2, fcmp (tp2.hp 4) 0.3]
  pure (c1 ++ c2, fR)

/-- the checks of the n-th run; `_fR` is made once, resultTest.cc:8 -/
def resultTestRun : ℕ → Out (List Check × FitResults)
  | 0 => resultTestStep FitResults.default
  | n + 1 => do
    let (_, fR) ← resultTestRun n
    resultTestStep fR

/-! ## helixCalculations -/

/-- `hp`, helixCalculations.cc:26 -/
def hpHelix : List Dbl := [0.1, 1, .fin (Real.pi / 4), 0, 0]

/-- `_test`, helixCalculations.cc:44-75; the constructor, helixCalculations.cc:9-40 -/
def helixChecks : Out (List Check) := do
  let helix ← V5.ofList hpHelix
  let one := TP.default
  let two := TP.default.setHp helix
  let quarter : Dbl := .fin (Real.pi / 4)
  pure [
    fcmp (calculateRadius one.hp) 0,
    fcmp (calculateXCenter one.hp one.rp) 0,
    fcmp (calculateYCenter one.hp one.rp) 0,
    fcmp (calculatePhifromXY 0 0 one.hp one.rp) 0,
    fcmp (calculateSfromXY 0 0 one.hp one.rp) 0,
    fcmp (calculateXfromS 0 one.hp one.rp) 0,
    fcmp (calculateYfromS 0 one.hp one.rp) 0,
    fcmp (calculateZfromS 0 one.hp one.rp) 0,
    fcmp (calculateRadius two.hp) 10,
    fcmp (calculateXCenter two.hp two.rp) 7.07106781186547524401,
    fcmp (calculateYCenter two.hp two.rp) (-7.07106781186547524401),
    fcmp (calculatePhifromXY 0 0 two.hp two.rp) quarter,
    fcmp (calculateSfromXY 7.07106781186547524401 2.92893218813452475599 two.hp two.rp) (10 * quarter),
    fcmp (calculateXfromS (10 * quarter) two.hp two.rp) 7.07106781186547524401,
    fcmp (calculateYfromS (10 * quarter) two.hp two.rp) 2.92893218813452475599,
    fcmp (calculateZfromS (1.234567 / 10) two.hp two.rp) (1.234567 / 10)]

/-! ## initialTrackTest -/

/-- `TrackStateImpl` with values set as in initialTrackTest.cc:36-46; the class has members of type `float`, `setCovMatrix` copies the
first 15 numbers.  The location is 1 (`AtIP`). -/
def initialState (sl : ℝ → ℝ) : TrackState :=
  { location := 1
    omega := .fin (sl (-0.00021121))
    tanLambda := .fin (sl 0.874685)
    phi := .fin (sl (-0.411434))
    d0 := .fin (sl 9.3253e-06)
    z0 := .fin (sl (-0.000176128))
    cov := cm.take 15
    ref := V3.zero }

/-- `_test`, initialTrackTest.cc:14-99; the state at the interaction point is the one that has been added -/
def initialTrackChecks (sl : ℝ → ℝ) : Out (List Check) := do
  let ts := initialState sl
  let iTP ← readLCIO ts
  let cmvec ← M5.ofList cm
  let iTP := iTP.setCov cmvec
  let c1 := [fcmp (iTP.hp 0) (ts.omega / unit_mm), fcmp (iTP.hp 1) ts.tanLambda, fcmp (iTP.hp 2) ts.phi, fcmp (iTP.hp 3) (ts.d0 * unit_mm),
    fcmp (iTP.hp 4) (ts.z0 * unit_mm)]
  let c2 := indices.map fun p => fcmp (iTP.cov p.1 p.2) (cm.getD (5 * p.1.val + p.2.val) 0)
  let c3 := [fcmp (iTP.hp 0) (calculateCurvature iTP.hp), fcmp (Dbl.atan (iTP.hp 1)) (calculateLambda iTP.hp)]
  pure (c1 ++ c2 ++ c3)

/-! ## finalTrackTest -/

/-- `_test`, finalTrackTest.cc:14-82 -/
def finalTrackChecks (sl : ℝ → ℝ) : Out (List Check) := do
  let fTP := TP.default.setHp ![-0.00021121, 0.874685, -0.411434, 9.3253e-06, -0.000176128]
  let cmvec ← M5.ofList cm
  let fTP := fTP.setCov cmvec
  let ts := createLCIO sl fTP
  let c1 := [fcmp (fTP.hp 0) (ts.omega / unit_mm), fcmp (fTP.hp 1) ts.tanLambda, fcmp (fTP.hp 2) ts.phi, fcmp (fTP.hp 3) (ts.d0 * unit_mm),
    fcmp (fTP.hp 4) (ts.z0 * unit_mm)]
  let C := fTP.cov
  let c : ℕ → Dbl := fun i => ts.cov.getD i 0
  let c2 := [
    fcmp (C 0 0) (c 5 / (unit_mm * unit_mm)),
    fcmp (C 0 1) (c 12 / unit_mm),
    fcmp (C 0 2) (c 4 / unit_mm),
    fcmp (C 0 3) (c 3),
    fcmp (C 0 4) (c 8),
    fcmp (C 1 0) (c 12 / unit_mm),
    fcmp (C 1 1) (c 14),
    fcmp (C 1 2) (c 11),
    fcmp (C 1 3) (c 10 * unit_mm),
    fcmp (C 1 4) (c 13 * unit_mm),
    fcmp (C 2 0) (c 4 / unit_mm),
    fcmp (C 2 1) (c 11),
    fcmp (C 2 2) (c 2),
    fcmp (C 2 3) (c 1 * unit_mm),
    fcmp (C 2 4) (c 7 * unit_mm),
    fcmp (C 3 0) (c 3),
    fcmp (C 3 1) (c 10 * unit_mm),
    fcmp (C 3 2) (c 1 * unit_mm),
    fcmp (C 3 3) (c 0 * unit_mm * unit_mm),
    fcmp (C 3 4) (c 6 * unit_mm * unit_mm),
    fcmp (C 4 0) (c 8),
    fcmp (C 4 1) (c 13 * unit_mm),
    fcmp (C 4 2) (c 7 * unit_mm),
    fcmp (C 4 3) (c 6 * unit_mm * unit_mm),
    fcmp (C 4 4) (c 9 * unit_mm * unit_mm)]
  pure (c1 ++ c2)

/-! ## the program -/

/-- the tests of `addSimpleTests`, aidaTT-unitTests.cpp:18-29, as they are in the first run; an exception in one of them ends the
program -/
def simpleTests (fl sl : ℝ → ℝ) : Out (List Test) := do
  let tpsimple ← tpsimpleChecks
  let intersection ← intersectionChecks
  let result ← resultTestRun 0
  let helix ← helixChecks
  let initial ← initialTrackChecks sl
  let final ← finalTrackChecks sl
  let new := newTest fl sl
  pure [
    new fun _ => tpsimple,
    new fun _ => constantbfieldChecks,
    matrixOps fl sl,
    new (spacevectorsChecks sl),
    new fun _ => intersection,
    new fun n => if n = 0 then result.1 else [],
    new fun _ => helix,
    new fun _ => initial,
    new fun _ => final]

/-- the whole program, aidaTT-unitTests.cpp:33-46: the numbers of fails and successes printed and the value returned -/
def program (nd : Bool) (fl sl : ℝ → ℝ) : Out (Option (ℤ × ℤ) × ℤ) := do
  let ts ← simpleTests fl sl
  main nd ts

end UT

end Verif
