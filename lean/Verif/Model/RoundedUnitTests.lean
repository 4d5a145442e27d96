import Verif.Model.UnitTestPrograms
import Verif.Model.RoundedCoordinates
import Verif.Model.RoundedMomentum
import Verif.Model.RoundedPlane
import Verif.Model.RoundedFit
import Verif.Model.RoundedMaterial

/-!
# The program of unit tests in double precision

The tests of Model/UnitTestPrograms and the test `matrixOps` of Model/UnitTests with the arithmetic of Model/RoundedArith: decimal numbers in
the tests are the numbers of type `double` next to them (`lit`), `M_PI_4` is a quarter of the `double` `M_PI`, and the functions that are
tested are those of the models in double precision.
-/

open Classical

noncomputable section

namespace Verif

/-- arithmetic, functions of the C library and products of Eigen that the tests use -/
structure TestLib where
  fl : ℝ → ℝ
  sl : ℝ → ℝ
  lm : Rnd.Libm
  at2 : ℝ → ℝ → ℝ
  atn : ℝ → ℝ
  mm : M5 → M5 → M5
  mv : M5 → V5 → V5

namespace RUT

open Rnd UT UT.Check

variable (A : TestLib)

/-- a decimal number in the tests -/
def dec (x : ℝ) : Dbl := lit A.fl x

/-- `hp`, tpsimple.cc:23, resultTest.cc:43 -/
def hp : List Dbl := [1, dec A 0.02, dec A 1.2, dec A 0.2, dec A 0.3]

/-! ## tpsimple -/

/-- `_test`, tpsimple.cc:41-118, with the data members made in the constructor, tpsimple.cc:6-37 -/
def tpsimpleChecks : Out (List Check) := do
  let covmatrix ← M5.ofList UT.cm
  let helix ← V5.ofList (hp A)
  let refpoint := UT.rp
  let one := TP.default
  let two := TP.default
  let three := TP.default
  let four := TP.default
  let c1 := (List.finRange 5).map fun i => fcmp (one.hp i) 0
  let two := two.setRef refpoint
  let three := three.setHp helix
  let four := four.setCov covmatrix
  let c2 := (List.finRange 5).flatMap fun i => [fcmp (one.hp i) 0, fcmp (two.hp i) 0, fcmp (four.hp i) 0]
  let c3 := (List.range 3).flatMap fun (i : ℕ) => [fcmp (one.rp.get i) 0, fcmp (three.rp.get i) 0, fcmp (four.rp.get i) 0]
  let c4 := indices.flatMap fun p => [fcmp (one.cov p.1 p.2) 0, fcmp (two.cov p.1 p.2) 0, fcmp (three.cov p.1 p.2) 0]
  let one := one.setAll helix covmatrix refpoint
  let c5 := (List.finRange 5).flatMap fun i => [fcmp (one.hp i) (helix i), fcmp (three.hp i) (helix i)]
  let c6 := (List.range 3).flatMap fun (i : ℕ) => [fcmp (one.rp.get i) (refpoint.get i), fcmp (two.rp.get i) (refpoint.get i)]
  let c7 := indices.flatMap fun p =>
    if p.1 ≠ p.2 then [fcmp (one.cov p.1 p.2) 0, fcmp (four.cov p.1 p.2) 0] else [fcmp (one.cov p.1 p.2) 1, fcmp (four.cov p.1 p.2) 1]
  let c8 := (List.finRange 5).map fun i => fcmp (one.hp i) (one.hp i)
  pure (c1 ++ c2 ++ c3 ++ c4 ++ c5 ++ c6 ++ c7 ++ c8)

/-! ## constantbfield -/

/-- `_test`, constantbfield.cc:22-49, with the constructor, constantbfield.cc:5-18 -/
def constantbfieldChecks : List Check :=
  let a : Dbl := -dec A 1.2
  let b : Dbl := dec A 2.3
  let point : V3 := ⟨0, 3, 2⟩
  let bf1 : ConstantSolenoidBField := ⟨a⟩
  let bf2 : ConstantSolenoidBField := ⟨b⟩
  let y := dec A 3.14
  let z := -dec A 23.4
  [fcmp (bf1.Bx point) 0, fcmp (bf1.By point) 0, fcmp (bf1.Bz point) a,
   fcmp (bf2.Bx point) 0, fcmp (bf2.By point) 0, fcmp (bf2.Bz point) b,
   fcmp (bf1.BField point).x 0, fcmp (bf1.BField point).y 0, fcmp (bf1.BField point).z a,
   fcmp (bf2.BField point).x 0, fcmp (bf2.BField point).y 0, fcmp (bf2.BField point).z b,
   fcmp (bf1.BField3 2 y z).x 0, fcmp (bf1.BField3 2 y z).y 0, fcmp (bf1.BField3 2 y z).z a]

/-! ## matrixOps -/

/-- `_vec1`, matrixOps.cc:20 -/
def vec1 : V5 := ![dec A 1.1, dec A 2.2, dec A 3.3, dec A 4.4, dec A 5.5]

/-- `_vvv`, matrixOps.cc:16-18, from which `_vec4` and `_vec5` are made -/
def vvv : V5 := ![dec A 0.1, dec A 0.2, dec A 0.3, dec A 0.4, dec A 0.5]

/-- `_test`, matrixOps.cc:33-136, given the content of `_matrix1`: the checks, and `_matrix1` afterwards.  The numbers in `_values` and the
expected products are exact. -/
def matrixOpsTest (matrix1 : M5) : List Check × M5 :=
  let matrix2 := values
  let c1 := indices.map fun p => fcmp (matrix1 p.1 p.2) 0
  let matrix1 := indices.foldl (fun m p => m.set p.1 p.2 (values p.1 p.2)) matrix1
  let c2 := indices.map fun p => fcmp (matrix2 p.1 p.2) (values p.1 p.2)
  let matrix1 := matrix1.unit
  let c3 := indices.map fun p => if p.1 = p.2 then fcmp (matrix1 p.1 p.2) 1 else fcmp (matrix1 p.1 p.2) 0
  let c4 := indices.map fun p => fcmp (matrix2 p.1 p.2) (values p.1 p.2)
  let c5 := indices.map fun p => fcmp (A.mm matrix2 matrix2 p.1 p.2) (.fin (productMM p.1 p.2 : ℝ))
  let c6 := (List.finRange 5).map fun i => fcmp (A.mv matrix2 (vec1 A) i) (productMV i)
  let c7 := (List.finRange 5).flatMap fun j =>
    [fcmp (V5.zero j) 0, fcmp (vec1 A j) (vec1 A j), fcmp (vvv A j) (vvv A j), fcmp (vvv A j) (vvv A j)]
  (c1 ++ c2 ++ c3 ++ c4 ++ c5 ++ c6 ++ c7, matrix1)

/-- `_matrix1` before the n-th run: the zero matrix at first, matrixOps.cc:13 -/
def matrixOpsState : ℕ → M5
  | 0 => M5.zero
  | n + 1 => (matrixOpsTest A (matrixOpsState n)).2

def matrixOpsChecks (n : ℕ) : List Check := (matrixOpsTest A (matrixOpsState A n)).1

/-! ## spacevectors -/

/-- `_f`, an array of type `float`, spacevectors.cc:9-11 -/
def spaceF : V3 := ⟨toFloat A.sl (dec A 0.1), toFloat A.sl (dec A 0.2), toFloat A.sl (dec A 0.3)⟩

/-- `_d`, spacevectors.cc:12-14 -/
def spaceD : V3 := ⟨dec A 1.1, dec A 1.2, dec A 1.3⟩

/-- `_test`, spacevectors.cc:25-57, given `*_vecB`: the checks and `*_vecB` afterwards; `_a`, `_b`, `_c` are those of spacevectors.cc:7 -/
def spacevectorsTest (vecB : V3) : List Check × V3 :=
  let f := spaceF A
  let d := spaceD A
  let a := dec A 3.1
  let b := dec A 2.7
  let c := dec A 1.414
  let vecA := V3.zero
  let vecC := d
  let vecD : V3 := ⟨a, b, c⟩
  let c1 := [fcmp vecA.x 0, fcmp vecA.y 0, fcmp vecA.z 0,
    fcmp vecB.x f.x, fcmp vecB.y f.y, fcmp vecB.z f.z,
    fcmp (vecB.get 0) f.x, fcmp (vecB.get 1) f.y, fcmp (vecB.get 2) f.z,
    fcmp vecC.x d.x, fcmp vecC.y d.y, fcmp vecC.z d.z,
    fcmp vecD.x a, fcmp vecD.y b, fcmp vecD.z c,
    fcmp (rhoV A.fl vecA) 0, fcmp (rhoV A.fl vecB) (dec A 0.22360679774997896964), fcmp (transV A.fl vecC) (dec A 1.62788205960997063873)]
  let vecB := { vecB with x := a }
  let vecB := { vecB with y := b }
  let c2 := [fcmp vecB.x a, fcmp vecB.y b, fcmp (rhoV A.fl vecB) (sqrtD A.fl (addD A.fl (mulD A.fl a a) (mulD A.fl b b)))]
  (c1 ++ c2, vecB)

/-- `*_vecB` before the n-th run; at first it has the values of `_f`, spacevectors.cc:18 -/
def spacevectorsState : ℕ → V3
  | 0 => spaceF A
  | n + 1 => (spacevectorsTest A (spacevectorsState n)).2

def spacevectorsChecks (n : ℕ) : List Check := (spacevectorsTest A (spacevectorsState A n)).1

/-! ## intersectionTest -/

/-- `_test`, intersectionTest.cc:17-70, with the constructor, intersectionTest.cc:7-13; 0.5 and 0.75 are exact -/
def intersectionChecks : Out (List Check) := do
  let c1 ← Circle.make 0 0 1
  let c2 ← Circle.make 1 1 1
  let sL1 ← makeLine A.fl 0 1 0.5
  let sL2 ← makeLine A.fl 1 1 0
  let sectCC ← Rnd.intersectCircleCircle A.fl c1 c2
  let p0 ← Intersections.get sectCC 0
  let p1 ← Intersections.get sectCC 1
  let k1 := [holds (decide (sectCC.length = 2)), fcmp p0.1 1, fcmp p0.2 0, fcmp p1.1 0, fcmp p1.2 1]
  let sectCL := Rnd.intersectCircleStraightLine A.fl c1 sL1
  let p0 ← Intersections.get sectCL 0
  let p1 ← Intersections.get sectCL 1
  let k2 := [holds (decide (sectCL.length = 2)), fcmp p0.1 (sqrtD A.fl 0.75), fcmp p0.2 0.5, fcmp p1.1 (-sqrtD A.fl 0.75), fcmp p1.2 0.5]
  let sectLL := Rnd.intersectStraightLineStraightLine A.fl sL2 sL1
  let p0 ← Intersections.get sectLL 0
  let k3 := [holds (decide (sectLL.length = 1)), fcmp p0.1 (-0.5), fcmp p0.2 0.5]
  let k4 ← checkThrow (Circle.make 0 0 (-1))
  let k5 ← checkThrow (makeLine A.fl 0 (-1) (-1))
  let k6 ← checkThrow (makeLine A.fl 0 0 12)
  pure (k1 ++ k2 ++ k3 ++ k4 ++ k5 ++ k6)

/-! ## resultTest -/

/-- `_test`, resultTest.cc:13-80, given `*_fR`: the checks and `*_fR` afterwards -/
def resultTestStep (fR : FitResults) : Out (List Check × FitResults) := do
  let tp := fR.estParams
  let c1 := [holds (fR.valid == false), holds (fR.ndf == 0), fcmp fR.chisquare 0, fcmp fR.lostweight 0,
    fcmp (tp.hp 0) 0, fcmp (tp.hp 1) 0, fcmp (tp.hp 2) 0, fcmp (tp.hp 3) 0, fcmp (tp.hp 4) 0]
  let covmatrix ← M5.ofList UT.cm
  let helix ← V5.ofList (hp A)
  let TP := TP.default.setAll helix covmatrix UT.rp
  let n := 64
  let wl : Dbl := dec A 12.34
  let chs : Dbl := dec A 225.256
  let fR := fR.setResults true chs n wl TP
  let tp2 := fR.estParams
  let c2 := [holds (fR.valid == true), holds (fR.ndf == n), fcmp fR.chisquare chs, fcmp fR.lostweight wl,
    fcmp (tp2.hp 0) 1, fcmp (tp2.hp 1) (dec A 0.02), fcmp (tp2.hp 2) (dec A 1.2), fcmp (tp2.hp 3) (dec A 0.2), fcmp (tp2.hp 4) (dec A 0.3)]
  pure (c1 ++ c2, fR)

/-- the checks of the n-th run; `_fR` is made once, resultTest.cc:8 -/
def resultTestRun : ℕ → Out (List Check × FitResults)
  | 0 => resultTestStep A FitResults.default
  | n + 1 => do
    let (_, fR) ← resultTestRun n
    resultTestStep A fR

/-! ## helixCalculations -/

/-- `M_PI_4` -/
def quarter : Dbl := .fin (Rounded.mPi / 4)

/-- `hp`, helixCalculations.cc:26 -/
def hpHelix : List Dbl := [dec A 0.1, 1, quarter, 0, 0]

/-- `_test`, helixCalculations.cc:44-75; the constructor, helixCalculations.cc:9-40 -/
def helixChecks : Out (List Check) := do
  let helix ← V5.ofList (hpHelix A)
  let one := TP.default
  let two := TP.default.setHp helix
  let s := mulD A.fl 10 quarter
  let x := dec A 7.07106781186547524401
  let y := dec A 2.92893218813452475599
  let t := divD A.fl (dec A 1.234567) 10
  pure [
    fcmp (Rnd.calculateRadius A.fl one.hp) 0,
    fcmp (Rnd.calculateXCenter A.fl A.lm one.hp one.rp) 0,
    fcmp (Rnd.calculateYCenter A.fl A.lm one.hp one.rp) 0,
    fcmp (Rnd.calculatePhifromXY A.fl A.lm A.at2 0 0 one.hp one.rp) 0,
    fcmp (Rnd.calculateSfromXY A.fl A.lm A.at2 0 0 one.hp one.rp) 0,
    fcmp (Rnd.calculateXfromS A.fl A.lm 0 one.hp one.rp) 0,
    fcmp (Rnd.calculateYfromS A.fl A.lm 0 one.hp one.rp) 0,
    fcmp (Rnd.calculateZfromS A.fl 0 one.hp one.rp) 0,
    fcmp (Rnd.calculateRadius A.fl two.hp) 10,
    fcmp (Rnd.calculateXCenter A.fl A.lm two.hp two.rp) x,
    fcmp (Rnd.calculateYCenter A.fl A.lm two.hp two.rp) (-x),
    fcmp (Rnd.calculatePhifromXY A.fl A.lm A.at2 0 0 two.hp two.rp) quarter,
    fcmp (Rnd.calculateSfromXY A.fl A.lm A.at2 x y two.hp two.rp) s,
    fcmp (Rnd.calculateXfromS A.fl A.lm s two.hp two.rp) x,
    fcmp (Rnd.calculateYfromS A.fl A.lm s two.hp two.rp) y,
    fcmp (Rnd.calculateZfromS A.fl t two.hp two.rp) t]

/-! ## initialTrackTest -/

/-- `TrackStateImpl` with values set as in initialTrackTest.cc:36-46; the class has members of type `float`, `setCovMatrix` copies the
first 15 numbers.  The location is 1 (`AtIP`). -/
def initialState : TrackState :=
  { location := 1
    omega := toFloat A.sl (-dec A 0.00021121)
    tanLambda := toFloat A.sl (dec A 0.874685)
    phi := toFloat A.sl (-dec A 0.411434)
    d0 := toFloat A.sl (dec A 9.3253e-06)
    z0 := toFloat A.sl (-dec A 0.000176128)
    cov := UT.cm.take 15
    ref := V3.zero }

/-- `_test`, initialTrackTest.cc:14-99; the state at the interaction point is the one that has been added -/
def initialTrackChecks : Out (List Check) := do
  let mm := mmD A.fl
  let ts := initialState A
  let iTP ← Rnd.readLCIO A.fl ts
  let cmvec ← M5.ofList UT.cm
  let iTP := iTP.setCov cmvec
  let c1 := [fcmp (iTP.hp 0) (divD A.fl ts.omega mm), fcmp (iTP.hp 1) ts.tanLambda, fcmp (iTP.hp 2) ts.phi, fcmp (iTP.hp 3) (mulD A.fl ts.d0 mm),
    fcmp (iTP.hp 4) (mulD A.fl ts.z0 mm)]
  let c2 := indices.map fun p => fcmp (iTP.cov p.1 p.2) (UT.cm.getD (5 * p.1.val + p.2.val) 0)
  let c3 := [fcmp (iTP.hp 0) (calculateCurvature iTP.hp), fcmp (atanD A.fl A.atn (iTP.hp 1)) (Rnd.calculateLambda A.fl A.atn iTP.hp)]
  pure (c1 ++ c2 ++ c3)

/-! ## finalTrackTest -/

/-- `_test`, finalTrackTest.cc:14-82 -/
def finalTrackChecks : Out (List Check) := do
  let mm := mmD A.fl
  let mul := mulD A.fl
  let div := divD A.fl
  let fTP := TP.default.setHp ![-dec A 0.00021121, dec A 0.874685, -dec A 0.411434, dec A 9.3253e-06, -dec A 0.000176128]
  let cmvec ← M5.ofList UT.cm
  let fTP := fTP.setCov cmvec
  let ts := Rnd.createLCIO A.fl A.sl fTP
  let c1 := [fcmp (fTP.hp 0) (div ts.omega mm), fcmp (fTP.hp 1) ts.tanLambda, fcmp (fTP.hp 2) ts.phi, fcmp (fTP.hp 3) (mul ts.d0 mm),
    fcmp (fTP.hp 4) (mul ts.z0 mm)]
  let C := fTP.cov
  let c : ℕ → Dbl := fun i => ts.cov.getD i 0
  let c2 := [
    fcmp (C 0 0) (div (c 5) (mul mm mm)),
    fcmp (C 0 1) (div (c 12) mm),
    fcmp (C 0 2) (div (c 4) mm),
    fcmp (C 0 3) (c 3),
    fcmp (C 0 4) (c 8),
    fcmp (C 1 0) (div (c 12) mm),
    fcmp (C 1 1) (c 14),
    fcmp (C 1 2) (c 11),
    fcmp (C 1 3) (mul (c 10) mm),
    fcmp (C 1 4) (mul (c 13) mm),
    fcmp (C 2 0) (div (c 4) mm),
    fcmp (C 2 1) (c 11),
    fcmp (C 2 2) (c 2),
    fcmp (C 2 3) (mul (c 1) mm),
    fcmp (C 2 4) (mul (c 7) mm),
    fcmp (C 3 0) (c 3),
    fcmp (C 3 1) (mul (c 10) mm),
    fcmp (C 3 2) (mul (c 1) mm),
    fcmp (C 3 3) (mul (mul (c 0) mm) mm),
    fcmp (C 3 4) (mul (mul (c 6) mm) mm),
    fcmp (C 4 0) (c 8),
    fcmp (C 4 1) (mul (c 13) mm),
    fcmp (C 4 2) (mul (c 7) mm),
    fcmp (C 4 3) (mul (mul (c 6) mm) mm),
    fcmp (C 4 4) (mul (mul (c 9) mm) mm)]
  pure (c1 ++ c2)

/-! ## the program -/

/-- the tests of `addSimpleTests`, aidaTT-unitTests.cpp:18-29, as they are in the first run; an exception in one of them ends the
program -/
def simpleTests : Out (List Test) := do
  let tpsimple ← tpsimpleChecks A
  let intersection ← intersectionChecks A
  let result ← resultTestRun A 0
  let helix ← helixChecks A
  let initial ← initialTrackChecks A
  let final ← finalTrackChecks A
  let new := newTest A.fl A.sl
  pure [
    new fun _ => tpsimple,
    new fun _ => constantbfieldChecks A,
    new (matrixOpsChecks A),
    new (spacevectorsChecks A),
    new fun _ => intersection,
    new fun n => if n = 0 then result.1 else [],
    new fun _ => helix,
    new fun _ => initial,
    new fun _ => final]

/-- the whole program, aidaTT-unitTests.cpp:33-46: the numbers of fails and successes printed and the value returned -/
def program (nd : Bool) : Out (Option (ℤ × ℤ) × ℤ) := do
  let ts ← simpleTests A
  main nd ts

end RUT

end Verif
