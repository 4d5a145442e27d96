import Verif.Model.RoundedArith

/-!
# The unit tests

Model of `test/unitTests/UnitTest.{hh,cc}`, `UnitTestSuite.{hh,cc}`, `test/aidaTT-unitTests.cpp` and of the test
`test/unitTests/matrixOps.cc`.

A test is an object in memory.  What its `run()` does is the list of the conditions it checks, which may be different each time it is
run (tests keep data between runs).  `long` counters do not overflow.  Text output is left out, except that numbers are only printed
if there is a stream.  A failed `assert` is `throw "abort"`; with `nd` (the macro `NDEBUG`) assertions are not compiled.
-/

open Classical

noncomputable section

namespace Verif

namespace UT

open Rnd

/-- `UnitTest`, UnitTest.hh:22-51 -/
structure Test where
  /-- `osptr` is not null -/
  stream : Bool
  nPass : ℤ
  nFail : ℤ
  /-- how often `run` has been called -/
  runs : ℕ
  /-- the conditions of the checks in each call of `run` -/
  checks : ℕ → List Bool

namespace Test

/-- `succeed_`, UnitTest.hh:83-86 -/
def succeed (t : Test) : Test := { t with nPass := t.nPass + 1 }

/-- `do_fail`, UnitTest.cc:20-27 -/
def doFail (t : Test) : Test := { t with nFail := t.nFail + 1 }

/-- `do_test`, UnitTest.cc:10-16 -/
def doTest (t : Test) (cond : Bool) : Test := if !cond then t.doFail else t.succeed

/-- `reset`, UnitTest.hh:88-91 -/
def reset (t : Test) : Test := { t with nPass := 0, nFail := 0 }

/-- `run` of the derived class: the checks one after the other -/
def run (t : Test) : Test := { (t.checks t.runs).foldl doTest t with runs := t.runs + 1 }

end Test

/-- memory: the objects at the addresses; `none` if there is no object -/
abbrev Mem := ℕ → Option Test

/-- assignment to the object at an address -/
def Mem.put (m : Mem) (a : ℕ) (t : Option Test) : Mem := fun b => if b = a then t else m b

/-- a pointer: null or an address -/
abbrev Ptr := Option ℕ

/-- use of `*p` -/
def deref (m : Mem) (p : Ptr) : Out (ℕ × Test) :=
  match p with
  | none => .ub "null pointer"
  | some a =>
    match m a with
    | none => .ub "dangling pointer"
    | some t => .ok (a, t)

/-- `assert(p)` -/
def assertNonnull (nd : Bool) (p : Ptr) : Out Unit :=
  if nd then .ok () else if p = none then .throw "abort" else .ok ()

/-- `UnitTestSuite`, UnitTestSuite.hh:19-42 -/
structure Suite where
  /-- `osptr` is not null -/
  stream : Bool
  tests : List Ptr

/-- the constructor, UnitTestSuite.hh:44-47 -/
def Suite.new (stream : Bool) : Suite := ⟨stream, []⟩

/-- `addTest`, UnitTestSuite.cc:8-17 -/
def addTest (m : Mem) (s : Suite) (t : Ptr) : Out (Mem × Suite) := do
  if t = none then .throw "UnitTestSuiteError" else
  let (a, o) ← deref m t
  let o := if s.stream && !o.stream then { o with stream := true } else o
  let s := { s with tests := s.tests ++ [t] }
  pure (m.put a (some o.reset), s)

/-- `assert(tests[i])` -/
def assertIndex (nd : Bool) (tests : List Ptr) (i : ℕ) : Out Unit :=
  if nd then .ok () else
    match tests[i]? with
    | none => .ub "index out of range"
    | some p => assertNonnull nd p

/-- `addSuite` of another suite, UnitTestSuite.cc:21-28, from index `i` on; `rest` are the remaining tests of the other one.  The
assertion is about the test with the same index in this suite. -/
def addSuiteFrom (nd : Bool) (i : ℕ) (m : Mem) (s : Suite) : List Ptr → Out (Mem × Suite)
  | [] => .ok (m, s)
  | t :: rest => do
    let _ ← assertIndex nd s.tests i
    let (m, s) ← addTest m s t
    addSuiteFrom nd (i + 1) m s rest

def addSuite (nd : Bool) (m : Mem) (s o : Suite) : Out (Mem × Suite) := addSuiteFrom nd 0 m s o.tests

/-- one pass of the loop of `addSuite` when both suites are the same object -/
def addSelfStep (nd : Bool) : Out (ℕ × Mem × Suite) → Out (ℕ × Mem × Suite)
  | .ok (i, m, s) => do
    let _ ← assertIndex nd s.tests i
    match s.tests[i]? with
    | none => .ub "index out of range"
    | some t =>
    let (m, s) ← addTest m s t
    pure (i + 1, m, s)
  | o => o

/-- the loop goes on: `i < s.tests.size()` -/
def addSelfCond : Out (ℕ × Mem × Suite) → Prop
  | .ok (i, _, s) => i < s.tests.length
  | _ => False

/-- `s.addSuite(s)`, UnitTestSuite.cc:21-28: the size is read again in each pass -/
def addSelf (nd : Bool) (m : Mem) (s : Suite) : Out (Mem × Suite) := do
  let r ← whileLoop addSelfCond (addSelfStep nd) (.ok (0, m, s))
  let (_, m, s) ← r
  pure (m, s)

/-- `free`, UnitTestSuite.cc:32-39; deleting a null pointer has no effect -/
def free (m : Mem) : List Ptr → Out Mem
  | [] => .ok m
  | none :: rest => free m rest
  | some a :: rest =>
    match m a with
    | none => .ub "double delete"
    | some _ => free (m.put a none) rest

/-- `free` as a member -/
def Suite.free (m : Mem) (s : Suite) : Out (Mem × Suite) := do
  let m ← UT.free m s.tests
  pure (m, { s with tests := s.tests.map fun _ => none })

/-- a loop over the tests that changes them -/
def forTests (nd : Bool) (f : Test → Test) (m : Mem) : List Ptr → Out Mem
  | [] => .ok m
  | p :: rest => do
    let _ ← assertNonnull nd p
    let (a, t) ← deref m p
    forTests nd f (m.put a (some (f t))) rest

/-- `reset`, UnitTestSuite.cc:125-132 -/
def Suite.reset (nd : Bool) (m : Mem) (s : Suite) : Out Mem := forTests nd Test.reset m s.tests

/-- `run`, UnitTestSuite.cc:43-53 -/
def Suite.run (nd : Bool) (m : Mem) (s : Suite) : Out Mem := do
  let m ← s.reset nd m
  forTests nd Test.run m s.tests

/-- a sum over the tests -/
def sumTests (nd : Bool) (f : Test → ℤ) (m : Mem) (tot : ℤ) : List Ptr → Out ℤ
  | [] => .ok tot
  | p :: rest => do
    let _ ← assertNonnull nd p
    let (_, t) ← deref m p
    sumTests nd f m (tot + f t) rest

/-- `getNumPassed`, UnitTestSuite.cc:99-108 -/
def Suite.getNumPassed (nd : Bool) (m : Mem) (s : Suite) : Out ℤ := sumTests nd Test.nPass m 0 s.tests

/-- `getNumFailed`, UnitTestSuite.cc:112-121 -/
def Suite.getNumFailed (nd : Bool) (m : Mem) (s : Suite) : Out ℤ := sumTests nd Test.nFail m 0 s.tests

/-- `report`, UnitTestSuite.cc:69-95: the numbers of fails and successes printed, if there is a stream, and the value returned -/
def Suite.report (nd : Bool) (m : Mem) (s : Suite) : Out (Option (ℤ × ℤ) × ℤ) := do
  if s.stream then
    let totFail ← sumTests nd Test.nFail m 0 s.tests
    let totSuccess ← sumTests nd Test.nPass m 0 s.tests
    pure (some (totFail, totSuccess), totFail)
  else
    let n ← s.getNumFailed nd m
    pure (none, n)

/-- adding new tests one after the other, at the addresses from `a` on -/
def addNew (m : Mem) (s : Suite) (a : ℕ) : List Test → Out (Mem × Suite)
  | [] => .ok (m, s)
  | t :: rest => do
    let (m, s) ← addTest (m.put a (some t)) s (some a)
    addNew m s (a + 1) rest

/-- `main`, aidaTT-unitTests.cpp:33-46, with any tests in place of those of `addSimpleTests`: the numbers printed at the end and the
value returned to the system -/
def main (nd : Bool) (ts : List Test) : Out (Option (ℤ × ℤ) × ℤ) := do
  let (m, s) ← addNew (fun _ => none) (Suite.new true) 0 ts
  let m ← s.run nd m
  let (printed, _) ← s.report nd m
  pure (printed, 0)

/-! ## Comparison of numbers -/

/-- subtraction of two numbers of type `float` -/
def subF (sl : ℝ → ℝ) (a b : Dbl) : Dbl := rnd sl 128 (a - b)

/-- `floatCompare`, UnitTest.cc:31-36: the arguments are converted to `float`; the constant is the `double` next to 1e-9 -/
def floatCompare (fl sl : ℝ → ℝ) (x1 x2 : Dbl) : Bool :=
  decide (Dbl.abs (subF sl (toFloat sl x1) (toFloat sl x2)) < rnd fl 1024 (.fin (1 / 10 ^ 9)))

/-- `roughFloatCompare`, UnitTest.cc:40-45 -/
def roughFloatCompare (fl sl : ℝ → ℝ) (x1 x2 : Dbl) : Bool :=
  decide (Dbl.abs (subF sl (toFloat sl x1) (toFloat sl x2)) < rnd fl 1024 (.fin (1 / 10 ^ 5)))

/-! ## The test `matrixOps` -/

/-- row and column of the elements, row by row -/
def indices : List (Fin 5 × Fin 5) := (List.finRange 5).flatMap fun i => (List.finRange 5).map fun j => (i, j)

/-- `_values`, matrixOps.cc:10-12 -/
def values : M5 := fun i j => .fin ((5 * i.val + j.val + 1 : ℕ) : ℝ)

/-- the expected product, matrixOps.cc:70-98 -/
def productMM : Fin 5 → Fin 5 → ℕ :=
  ![![215, 230, 245, 260, 275], ![490, 530, 570, 610, 650], ![765, 830, 895, 960, 1025], ![1040, 1130, 1220, 1310, 1400],
    ![1315, 1430, 1545, 1660, 1775]]

/-- the expected product with the vector, matrixOps.cc:102-106 -/
def productMV : V5 := ![60.5, 143, 225.5, 308, 390.5]

/-- `_vec1`, matrixOps.cc:20 -/
def vec1 : V5 := ![1.1, 2.2, 3.3, 4.4, 5.5]

/-- `_vvv`, matrixOps.cc:16-18, from which `_vec4` and `_vec5` are made -/
def vvv : V5 := ![0.1, 0.2, 0.3, 0.4, 0.5]

/-- `_test`, matrixOps.cc:33-136, given the content of `_matrix1`: the results of the checks, and `_matrix1` afterwards.  The products
are those of the exact model. -/
def matrixOpsTest (fl sl : ℝ → ℝ) (matrix1 : M5) : List Bool × M5 :=
  let cmp := floatCompare fl sl
  let matrix2 := values
  let c1 := indices.map fun p => cmp (matrix1 p.1 p.2) 0
  let matrix1 := indices.foldl (fun m p => m.set p.1 p.2 (values p.1 p.2)) matrix1
  let c2 := indices.map fun p => cmp (matrix2 p.1 p.2) (values p.1 p.2)
  let matrix1 := matrix1.unit
  let c3 := indices.map fun p => if p.1 = p.2 then cmp (matrix1 p.1 p.2) 1 else cmp (matrix1 p.1 p.2) 0
  let c4 := indices.map fun p => cmp (matrix2 p.1 p.2) (values p.1 p.2)
  let c5 := indices.map fun p => cmp (matrix2.mul matrix2 p.1 p.2) (.fin (productMM p.1 p.2 : ℝ))
  let c6 := (List.finRange 5).map fun i => cmp (matrix2.mulVec vec1 i) (productMV i)
  let c7 := (List.finRange 5).flatMap fun j => [cmp (V5.zero j) 0, cmp (vec1 j) (vec1 j), cmp (vvv j) (vvv j), cmp (vvv j) (vvv j)]
  (c1 ++ c2 ++ c3 ++ c4 ++ c5 ++ c6 ++ c7, matrix1)

/-- `_matrix1` before the n-th run: the zero matrix at first, matrixOps.cc:13 -/
def matrixOpsState (fl sl : ℝ → ℝ) : ℕ → M5
  | 0 => M5.zero
  | n + 1 => (matrixOpsTest fl sl (matrixOpsState fl sl n)).2

/-- `new matrixOps`, matrixOps.cc:7-29 -/
def matrixOps (fl sl : ℝ → ℝ) : Test :=
  ⟨true, 0, 0, 0, fun n => (matrixOpsTest fl sl (matrixOpsState fl sl n)).1⟩

end UT

end Verif
