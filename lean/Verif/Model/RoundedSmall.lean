import Verif.Model.SmallPrograms
import Verif.Model.RoundedTrajectory
import Verif.Model.RoundedMaterial

/-!
# The program intersection_calculator in double precision

`examples/intersection_calculator/intersection_calculator.cpp` with the arithmetic of Model/RoundedArith.  The other two programs of
Model/SmallPrograms compute with integers only.
-/

open Classical

noncomputable section

namespace Verif

namespace Rnd

open SmallPrograms

/-- the track of intersection_calculator.cpp:23-33 -/
def calcTrack (fl : ℝ → ℝ) : TP := TP.default.setHp ![lit fl 0.23, lit fl 0.01, lit fl 1.57, 0, 0]

/-- `main`, intersection_calculator.cpp:8-44 and 92: the value returned and the lines printed.  The name of the file is read and not
used. -/
def intersectionCalculator (fl : ℝ → ℝ) (lm : Libm) (at2 : ℝ → ℝ → ℝ) (asn atn : ℝ → ℝ) (dd : Dd4hep)
    (sort : List (Dbl × Surface) → List (Dbl × Surface)) : List String → Out (ℕ × List (Dbl × Surface))
  | [] => .ok (1, [])
  | _inFile :: _ =>
    match dd.unloaded with
    | none => .throw "DD4hepGeometry"
    | some surfaces => do
      let l ← (getIntersections fl lm at2 asn atn sort (Traj.make (calcTrack fl)) surfaces).2
      pure (0, l)

end Rnd

end Verif
