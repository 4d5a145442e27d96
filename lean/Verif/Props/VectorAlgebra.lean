import Verif.Props.LocalFrames
import Verif.Model.Geometry
import Mathlib.LinearAlgebra.CrossProduct
import Mathlib.Analysis.InnerProductSpace.PiL2

/-!
# C81, C82: vector operations and the field in units of Tesla
-/

open Classical

noncomputable section

namespace Verif

open Dbl

/-! ## C81 -/

theorem of_inj {a b : Fin 3 → ℝ} (h : V3.of a = V3.of b) : a = b := by
  simp only [V3.of, V3.re, V3.mk.injEq, fin_inj] at h
  funext i
  fin_cases i
  · exact h.1
  · exact h.2.1
  · exact h.2.2

/-- C81: on finite vectors the operators and functions are those of the Euclidean space. -/
theorem C81_space (a b : Fin 3 → ℝ) (c : ℝ) :
    (V3.of a).add (V3.of b) = V3.of (a + b) ∧ (V3.of a).sub (V3.of b) = V3.of (a - b) ∧ (V3.of a).neg = V3.of (-a) ∧
    V3.smul (fin c) (V3.of a) = V3.of (c • a) ∧ V3.zero = V3.of 0 ∧ (V3.of a).dot (V3.of b) = fin (a ⬝ᵥ b) ∧
    (V3.of a).cross (V3.of b) = V3.of (crossProduct a b) ∧ (V3.of a).r = fin ‖WithLp.toLp 2 a‖ ∧
    (V3.of a).r2 = fin (‖WithLp.toLp 2 a‖ ^ 2) := by
  have hn : ‖WithLp.toLp 2 a‖ ^ 2 = a 0 * a 0 + a 1 * a 1 + a 2 * a 2 := by
    rw [EuclideanSpace.norm_sq_eq, Fin.sum_univ_three]
    simp only [Real.norm_eq_abs, sq_abs]
    ring
  have h0 : 0 ≤ a 0 * a 0 + a 1 * a 1 + a 2 * a 2 := by rw [← hn]; positivity
  refine ⟨?_, ?_, ?_, ?_, ?_, ?_, ?_, ?_, ?_⟩
  · simp [V3.add, V3.of, V3.re]
  · simp [V3.sub, V3.of, V3.re]
  · simp [V3.neg, V3.of, V3.re]
  · simp [V3.smul, V3.of, V3.re]
  · simp [V3.zero, V3.of, V3.re]
  · simp only [V3.dot, V3.of, V3.re, fin_mul, fin_add, dotProduct, Fin.sum_univ_three]
  · simp [V3.cross, V3.of, V3.re, cross_apply]
  · simp only [V3.r, V3.of, V3.re, fin_mul, fin_add]
    rw [sqrt_fin h0, ← hn, Real.sqrt_sq (norm_nonneg _)]
  · simp only [V3.r2, V3.of, V3.re, fin_mul, fin_add, hn]

/-- C81: finite vectors compare equal exactly if they are equal; a vector with an undefined component equals no vector, not
even itself. -/
theorem C81_equality (a b : Fin 3 → ℝ) (v w : V3) (h : v.x = nan ∨ v.y = nan ∨ v.z = nan) :
    ((V3.of a).eqv (V3.of b) ↔ a = b) ∧ ¬ v.eqv w ∧ ¬ w.eqv v := by
  refine ⟨⟨fun h => ?_, fun h => ?_⟩, ?_, ?_⟩
  · simp only [V3.eqv, V3.of, V3.re, fin_eqv] at h
    funext i
    fin_cases i
    · exact h.1
    · exact h.2.1
    · exact h.2.2
  · subst h; simp [V3.eqv, V3.of, V3.re]
  · rintro ⟨h1, h2, h3⟩
    rcases h with h | h | h <;> simp_all [Dbl.eqv]
  · rintro ⟨h1, h2, h3⟩
    rcases h with h | h | h
    · rw [h] at h1; cases hw : w.x <;> simp_all [Dbl.eqv]
    · rw [h] at h2; cases hw : w.y <;> simp_all [Dbl.eqv]
    · rw [h] at h3; cases hw : w.z <;> simp_all [Dbl.eqv]

/-- non-trivial case for `C81_equality` -/
example : ¬ (⟨nan, 1, 2⟩ : V3).eqv ⟨nan, 1, 2⟩ := (C81_equality 0 0 ⟨nan, 1, 2⟩ ⟨nan, 1, 2⟩ (Or.inl rfl)).2.1

/-! ## C82 -/

/-- C82: whatever the unit is, if the detector gives the field `B` (in Tesla) in its unit, `getBField` returns `B`. -/
theorem C82_tesla (T : ℝ) (hT : T ≠ 0) (B : V3 → Fin 3 → ℝ) (field : V3 → V3) (hf : ∀ x, field x = V3.of (T • B x)) (x : V3) :
    getBField (fin T) field x = V3.of (B x) := by
  unfold getBField
  simp only [hf, one_eq, fin_div _ hT]
  rw [(C81_space _ 0 (1 / T)).2.2.2.1, smul_smul, one_div, inv_mul_cancel₀ hT, one_smul]

/-- non-trivial case for C82 -/
example : getBField (fin (10 ^ 13)) (fun _ => V3.of ((10 ^ 13 : ℝ) • ![0, 0, 3.5])) V3.zero = V3.of ![0, 0, 3.5] :=
  C82_tesla _ (by norm_num) (fun _ => ![0, 0, 3.5]) _ (fun _ => rfl) _

end Verif
