import Verif.Props.RoundedPlane
import Verif.Lemmas.StartHelix
import Mathlib.Analysis.Calculus.MeanValue

/-!
# Lemmas for C148
-/

open Classical

noncomputable section

namespace Verif

open Dbl Spec

variable {om tl ph x0 y0 z0 : ℝ} {x y w : ℝ → ℝ}

/-- the track moves by at most the path length in x and in y -/
theorem track_lip (ht : Spec.IsTrack om tl ph x0 y0 z0 x y w) (s t : ℝ) : |x s - x t| ≤ |s - t| ∧ |y s - y t| ≤ |s - t| := by
  have key : ∀ {f f' : ℝ → ℝ}, (∀ r, HasDerivAt f (f' r) r) → (∀ r, |f' r| ≤ 1) → |f s - f t| ≤ |s - t| := by
    intro f f' hf hb
    have := Convex.norm_image_sub_le_of_norm_hasDerivWithin_le (f := f) (C := 1) (s := Set.univ) (x := t) (y := s)
      (fun r _ => (hf r).hasDerivWithinAt) (fun r _ => hb r) convex_univ (Set.mem_univ _) (Set.mem_univ _)
    rw [one_mul] at this
    exact this
  exact ⟨key ht.vel_x fun r => Real.abs_cos_le_one _, key ht.vel_y fun r => Real.abs_sin_le_one _⟩

/-- triangle inequality in the plane -/
theorem plane_triangle (a b c d e f : ℝ) : √((a - e) ^ 2 + (b - f) ^ 2) ≤ √((a - c) ^ 2 + (b - d) ^ 2) + √((c - e) ^ 2 + (d - f) ^ 2) := by
  have n : ∀ p q : ℝ, √(p ^ 2 + q ^ 2) = ‖(⟨p, q⟩ : ℂ)‖ := fun p q => by
    rw [Complex.norm_def, Complex.normSq_mk]
    congr 1
    ring
  rw [n, n, n]
  have : (⟨a - e, b - f⟩ : ℂ) = ⟨a - c, b - d⟩ + ⟨c - e, d - f⟩ := by
    apply Complex.ext <;> simp
  rw [this]
  exact norm_add_le _ _

/-- a track that is inside a cylinder at one point and outside at another one: the cylinder has points inside and outside of the circle of the
track -/
theorem inside_outside {d rx ry rz z a b rho τ : ℝ} (ho : om ≠ 0) (hρ : 0 ≤ rho)
    (ht : Spec.IsTrack om tl ph (rx - d * Real.sin ph) (ry + d * Real.cos ph) (rz + z) x y w) {t1 t2 : ℝ}
    (h1 : √((x t1 - a) ^ 2 + (y t1 - b) ^ 2) + τ ≤ rho) (h2 : rho + τ ≤ √((x t2 - a) ^ 2 + (y t2 - b) ^ 2)) :
    ∃ φ1 φ2 r1 r2 : ℝ, 0 ≤ r1 ∧ 0 ≤ r2 ∧
      r1 ^ 2 = (a + rho * Real.cos φ1 - (rx - d * Real.sin ph + Real.sin ph / om)) ^ 2 + (b + rho * Real.sin φ1 - (ry + d * Real.cos ph - Real.cos ph / om)) ^ 2 ∧
      r2 ^ 2 = (a + rho * Real.cos φ2 - (rx - d * Real.sin ph + Real.sin ph / om)) ^ 2 + (b + rho * Real.sin φ2 - (ry + d * Real.cos ph - Real.cos ph / om)) ^ 2 ∧
      r1 + τ ≤ 1 / |om| ∧ 1 / |om| + τ ≤ r2 := by
  obtain ⟨e1, e2⟩ := center_eq (om := om) (ph := ph) (d := d) (rx := rx) (ry := ry)
  have k1 := (track_circle ho ht (x t1) (y t1)).2 ⟨t1, rfl, rfl⟩
  have k2 := (track_circle ho ht (x t2) (y t2)).2 ⟨t2, rfl, rfl⟩
  rw [e1, e2, abs_div, abs_one] at k1 k2
  generalize rx - d * Real.sin ph + Real.sin ph / om = cx at *
  generalize ry + d * Real.cos ph - Real.cos ph / om = cy at *
  have R0 : 0 ≤ 1 / |om| := by positivity
  generalize 1 / |om| = R at *
  have q1 : √((x t1 - cx) ^ 2 + (y t1 - cy) ^ 2) = R := by rw [k1, Real.sqrt_sq R0]
  have q2 : √((x t2 - cx) ^ 2 + (y t2 - cy) ^ 2) = R := by rw [k2, Real.sqrt_sq R0]
  have sw : ∀ p q r s : ℝ, √((p - q) ^ 2 + (r - s) ^ 2) = √((q - p) ^ 2 + (s - r) ^ 2) := fun p q r s => by
    congr 1
    ring
  obtain ⟨p, px, py⟩ := exists_polar (cx - a) (cy - b)
  have D0 : 0 ≤ √((cx - a) ^ 2 + (cy - b) ^ 2) := Real.sqrt_nonneg _
  have i1 := plane_triangle (x t1) (y t1) a b cx cy
  have i2 := plane_triangle cx cy (x t1) (y t1) a b
  have i3 := plane_triangle (x t2) (y t2) cx cy a b
  rw [sw a cx b cy] at i1
  rw [sw cx (x t1) cy (y t1)] at i2
  rw [q1] at i1 i2
  rw [q2] at i3
  generalize √((cx - a) ^ 2 + (cy - b) ^ 2) = D at *
  have sc := Real.sin_sq_add_cos_sq p
  refine ⟨p, p + Real.pi, |D - rho|, D + rho, abs_nonneg _, by linarith, ?_, ?_, ?_, ?_⟩
  · rw [sq_abs, show cx = a + D * Real.cos p by linarith, show cy = b + D * Real.sin p by linarith]
    linear_combination -(D - rho) ^ 2 * sc
  · rw [Real.cos_add_pi, Real.sin_add_pi, show cx = a + D * Real.cos p by linarith, show cy = b + D * Real.sin p by linarith]
    linear_combination -(D + rho) ^ 2 * sc
  · have : |D - rho| ≤ R - τ := abs_le.2 ⟨by linarith, by linarith⟩
    linarith
  · linarith

end Verif
