import Verif.Model.Utilities
import Verif.Lemmas.Containers
import Verif.Lemmas.Helix
import Verif.Spec.Perigee
import Mathlib.LinearAlgebra.Matrix.ToLin
import Mathlib.Topology.Algebra.Module.FiniteDimension
import Mathlib.Analysis.Calculus.FDeriv.Pi
import Mathlib.Analysis.SpecialFunctions.Trigonometric.ArctanDeriv

/-!
# C39, C40: conversions between perigee and L3 parameters
-/

noncomputable section

namespace Verif

open Dbl Matrix Spec

variable {om tl ph d z : ℝ}

/-! ## C39 -/

/-- the matrix, for finite parameters -/
theorem perigeeToL3_re : perigeeToL3Jacobian (hpR om tl ph d z) =
    M5.re (Matrix.diagonal ![-1, -1 * (1 + tl * tl), 1, -1, 1]) := by
  funext i j
  have e : calculateTanLambda (hpR om tl ph d z) = fin tl := rfl
  fin_cases i <;> fin_cases j <;>
    simp [perigeeToL3Jacobian, M5.set, M5.re, M5.zero, e, Matrix.diagonal, OMEGA, TANL, PHI0, D0, Z0, perigeeKAPPA,
      perigeeTHETA, perigeePHI, perigeeEPSILON, perigeeZP]

/-- C39: at the perigee parameters `p` (polar angle not a multiple of pi), `perigeeToL3Jacobian`, evaluated for the
corresponding L3 parameters, is the total derivative of the parameter conversion. -/
theorem C39_perigeeToL3 (p : Fin 5 → ℝ) (hth : Real.sin (p 1) ≠ 0) :
    ∃ J : Matrix (Fin 5) (Fin 5) ℝ, perigeeToL3Jacobian (V5.re (perigeeToL3 p)) = M5.re J ∧
      HasFDerivAt perigeeToL3 (LinearMap.toContinuousLinearMap (Matrix.toLin' J)) p := by
  have hv : V5.re (perigeeToL3 p) = hpR (-p 0) (Real.tan (Real.pi / 2 - p 1)) (p 2) (-p 3) (p 4) := by
    rw [hpR_eq_re]; rfl
  refine ⟨_, by rw [hv]; exact perigeeToL3_re, ?_⟩
  have hc : Real.cos (Real.pi / 2 - p 1) ≠ 0 := by rw [Real.cos_pi_div_two_sub]; exact hth
  have hproj : ∀ i : Fin 5, HasFDerivAt (fun q : Fin 5 → ℝ => q i) (ContinuousLinearMap.proj (R := ℝ) (φ := fun _ : Fin 5 => ℝ) i) p :=
    fun i => hasFDerivAt_apply i p
  rw [hasFDerivAt_pi']
  intro i
  have lin : ∀ (i : Fin 5) (v : Fin 5 → ℝ) (c : Fin 5 → ℝ),
      ((ContinuousLinearMap.proj (R := ℝ) (φ := fun _ : Fin 5 => ℝ) i).comp
        (LinearMap.toContinuousLinearMap (Matrix.toLin' (Matrix.diagonal c)))) v = c i * v i := by
    intro i v c
    simp [Matrix.mulVec_diagonal]
  have htan : HasFDerivAt (fun q : Fin 5 → ℝ => Real.tan (Real.pi / 2 - q 1))
      ((-(1 + Real.tan (Real.pi / 2 - p 1) * Real.tan (Real.pi / 2 - p 1))) •
        ContinuousLinearMap.proj (R := ℝ) (φ := fun _ : Fin 5 => ℝ) 1) p := by
    have h1 := (Real.hasDerivAt_tan hc).comp_hasFDerivAt p ((hproj 1).const_sub (Real.pi / 2))
    refine h1.congr_fderiv ?_
    have e : (1 + Real.tan (Real.pi / 2 - p 1) * Real.tan (Real.pi / 2 - p 1)) = 1 / Real.cos (Real.pi / 2 - p 1) ^ 2 := by
      rw [Real.tan_eq_sin_div_cos]
      have := Real.sin_sq_add_cos_sq (Real.pi / 2 - p 1)
      generalize Real.sin (Real.pi / 2 - p 1) = S at *
      generalize Real.cos (Real.pi / 2 - p 1) = C at *
      rw [div_mul_div_comm, eq_div_iff (pow_ne_zero 2 hc), ← pow_two, ← pow_two, add_mul, div_mul_cancel₀ _ (pow_ne_zero 2 hc)]
      linarith
    rw [e]
    ext v
    simp
  fin_cases i
  · refine (hproj 0).neg.congr_fderiv ?_
    ext1 v; rw [lin]; simp
  · refine htan.congr_fderiv ?_
    ext1 v; rw [lin]; simp
  · refine (hproj 2).congr_fderiv ?_
    ext1 v; rw [lin]; simp
  · refine (hproj 3).neg.congr_fderiv ?_
    ext1 v; rw [lin]; simp
  · refine (hproj 4).congr_fderiv ?_
    ext1 v; rw [lin]; simp

/-- a track perpendicular to z -/
example : Real.sin ((![1, Real.pi / 2, 0, 2, 3] : Fin 5 → ℝ) 1) ≠ 0 := by simp

/-! ## C40 -/

theorem L3ToPerigee_re : L3ToPerigeeJacobian (hpR om tl ph d z) =
    M5.re !![-1, 0, 0, 0, 0; 0, 0, 1, 0, 0; 0, 0, 0, -1, 0; 0, 0, 0, 0, 1; 0, -1 / (1 + tl * tl), 0, 0, 0] := by
  funext i j
  have e : calculateTanLambda (hpR om tl ph d z) = fin tl := rfl
  have h : (1 + tl * tl) ≠ 0 := by have := mul_self_nonneg tl; linarith
  fin_cases i <;> fin_cases j <;>
    simp [L3ToPerigeeJacobian, M5.set, M5.re, M5.zero, e, h]

/-- C40 as stated is false, for all parameters: the polar angle is mapped to something else than itself. -/
theorem C40_false : ∀ om tl ph d z : ℝ,
    ¬ (∀ i j, M5.mul (L3ToPerigeeJacobian (hpR om tl ph d z)) (perigeeToL3Jacobian (hpR om tl ph d z)) i j =
      if i = j then 1 else 0) := by
  intro om tl ph d z h
  have h1 := h 1 1
  rw [L3ToPerigee_re, perigeeToL3_re, M5.mul_re] at h1
  simp [M5.re, Matrix.mul_apply, Matrix.diagonal] at h1

/-- C40 (partial): the curvature entry is right, and the *transposed* matrix is the inverse of `perigeeToL3Jacobian` if
the L3 parameters are in the order (omega, phi0, d0, z0, tan lambda) used in the comment above the function.
Missing for C40: rows and columns are exchanged and the order is not the one of the rest of the code. -/
theorem C40_transposed_partial (i j : Fin 5) :
    let L := L3ToPerigeeJacobian (hpR om tl ph d z)
    let P := perigeeToL3Jacobian (hpR om tl ph d z)
    let order : Fin 5 → Fin 5 := ![OMEGA, PHI0, D0, Z0, TANL]
    L 0 i * P (order 0) j + L 1 i * P (order 1) j + L 2 i * P (order 2) j + L 3 i * P (order 3) j +
      L 4 i * P (order 4) j = if i = j then 1 else 0 := by
  have h : (1 + tl * tl) ≠ 0 := by have := mul_self_nonneg tl; linarith
  simp only [L3ToPerigee_re, perigeeToL3_re]
  fin_cases i <;> fin_cases j <;> simp [M5.re, Matrix.diagonal, OMEGA, TANL, PHI0, D0, Z0]
  rw [div_mul_eq_mul_div, div_eq_iff h]
  ring

end Verif
