import Verif.Model.TrackParameters
import Mathlib.Data.Matrix.Mul
import Mathlib.Algebra.BigOperators.Fin

/-! Helper lemmas: finite 5x5 matrices are Mathlib matrices. -/

noncomputable section

namespace Verif

open Matrix

theorem M5.mul_re (A B : Matrix (Fin 5) (Fin 5) ℝ) : M5.mul (M5.re A) (M5.re B) = M5.re (A * B) := by
  funext i j
  simp [M5.mul, M5.re, Matrix.mul_apply, Fin.sum_univ_five]

theorem M5.mulVec_re (A : Matrix (Fin 5) (Fin 5) ℝ) (v : Fin 5 → ℝ) :
    M5.mulVec (M5.re A) (V5.re v) = V5.re (A *ᵥ v) := by
  funext i
  simp [M5.mulVec, M5.re, V5.re, Matrix.mulVec, dotProduct, Fin.sum_univ_five]

theorem M5.transpose_re (A : Matrix (Fin 5) (Fin 5) ℝ) :
    M5.transpose (M5.re A) = M5.re Aᵀ := rfl

/-- every finite matrix is of the form `re A` -/
theorem M5.exists_re {m : M5} (h : ∀ i j, (m i j).IsFin) : ∃ A : Matrix (Fin 5) (Fin 5) ℝ, m = M5.re A := by
  choose f hf using h
  exact ⟨f, by funext i j; exact hf i j⟩

theorem V5.exists_re {v : V5} (h : ∀ i, (v i).IsFin) : ∃ f : Fin 5 → ℝ, v = V5.re f := by
  choose f hf using h
  exact ⟨f, by funext i; exact hf i⟩

theorem M5.re_injective {A B : Matrix (Fin 5) (Fin 5) ℝ} (h : M5.re A = M5.re B) : A = B := by
  ext i j
  have := congrFun (congrFun h i) j
  simpa [M5.re] using this

theorem hpR_eq_re (om tl ph d z : ℝ) : hpR om tl ph d z = V5.re ![om, tl, ph, d, z] := by
  funext i; fin_cases i <;> rfl

end Verif
