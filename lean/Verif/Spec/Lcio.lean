import Mathlib.Data.Matrix.Basic
import Mathlib.LinearAlgebra.Matrix.Notation
import Mathlib.Data.Real.Basic

/-!
# Specification: the track state of LCIO

LCIO orders the parameters d0, phi, omega, z0, tan(lambda), uses mm as unit of length, and stores the lower triangle of the
covariance matrix row by row.  aidaTT orders omega, tan(lambda), phi0, d0, z0 and uses cm.  Mentions nothing of the model.
-/

namespace Verif.Spec

/-- index of the element in row `i`, column `j` of a symmetric matrix stored as lower triangle -/
def triangle (i j : ℕ) : ℕ := if j ≤ i then i * (i + 1) / 2 + j else j * (j + 1) / 2 + i

/-- the symmetric matrix encoded by the numbers `c` -/
def lcioMatrix (c : ℕ → ℝ) : Matrix (Fin 5) (Fin 5) ℝ := Matrix.of fun i j => c (triangle i j)

/-- the linear map from LCIO parameters to aidaTT parameters: reordering, and mm to cm -/
noncomputable def lcioToAida : Matrix (Fin 5) (Fin 5) ℝ :=
  !![0, 0, 10, 0, 0;
     0, 0, 0, 0, 1;
     0, 1, 0, 0, 0;
     1 / 10, 0, 0, 0, 0;
     0, 0, 0, 1 / 10, 0]

end Verif.Spec
