import Verif.Model.Vec
import Mathlib.Tactic.Linarith
import Mathlib.Tactic.FieldSimp
import Mathlib.Tactic.Ring
import Mathlib.Tactic.LinearCombination
import Mathlib.Tactic.NormNum

/-!
# C05, C06: three-vectors
-/

noncomputable section

namespace Verif

open Dbl

/-! ## C05 -/

/-- C05: the cross product of finite vectors is orthogonal to both and satisfies Lagrange's
identity (all values finite). -/
theorem C05_cross (a1 a2 a3 b1 b2 b3 : ℝ) :
    let a := V3.re a1 a2 a3
    let b := V3.re b1 b2 b3
    (a.cross b).dot a = .fin 0 ∧ (a.cross b).dot b = .fin 0 ∧
    (a.cross b).r2 + a.dot b * a.dot b = a.r2 * b.r2 := by
  refine ⟨?_, ?_, ?_⟩ <;> simp [V3.re, V3.cross, V3.dot, V3.r2] <;> ring

/-- C05: right-handedness, `e_x × e_y = e_z` and bilinearity fix the orientation. -/
theorem C05_cross_orientation (a1 a2 a3 b1 b2 b3 c1 c2 c3 : ℝ) :
    (V3.re a1 a2 a3).dot ((V3.re b1 b2 b3).cross (V3.re c1 c2 c3)) =
      .fin (a1 * (b2 * c3 - b3 * c2) - a2 * (b1 * c3 - b3 * c1) + a3 * (b1 * c2 - b2 * c1)) := by
  simp [V3.re, V3.cross, V3.dot]; ring

/-- C05: `unit()` of a non-zero finite vector has length one and is a positive multiple of it. -/
theorem C05_unit (a1 a2 a3 : ℝ) (h : ¬ (a1 = 0 ∧ a2 = 0 ∧ a3 = 0)) :
    ∃ u1 u2 u3 k : ℝ, (V3.re a1 a2 a3).unit = V3.re u1 u2 u3 ∧
      u1 ^ 2 + u2 ^ 2 + u3 ^ 2 = 1 ∧ 0 < k ∧ a1 = k * u1 ∧ a2 = k * u2 ∧ a3 = k * u3 := by
  have hpos : 0 < a1 * a1 + a2 * a2 + a3 * a3 := by
    by_contra hc
    apply h
    have h1 := mul_self_nonneg a1
    have h2 := mul_self_nonneg a2
    have h3 := mul_self_nonneg a3
    exact ⟨mul_self_eq_zero.mp (by linarith), mul_self_eq_zero.mp (by linarith),
      mul_self_eq_zero.mp (by linarith)⟩
  set k := Real.sqrt (a1 * a1 + a2 * a2 + a3 * a3) with hk
  have hk0 : 0 < k := Real.sqrt_pos.mpr hpos
  have hk2 : k * k = a1 * a1 + a2 * a2 + a3 * a3 := Real.mul_self_sqrt hpos.le
  refine ⟨a1 / k, a2 / k, a3 / k, k, ?_, ?_, hk0, ?_, ?_, ?_⟩
  · have : (V3.re a1 a2 a3).r = .fin k := by simp [V3.r, V3.re, hpos.le, hk]
    simp only [V3.unit, this]
    simp [V3.re, hk0.ne']
  · field_simp
    nlinarith
  all_goals field_simp

/-- hypotheses of `C05_unit` are met -/
example : ¬ ((1 : ℝ) = 0 ∧ (2 : ℝ) = 0 ∧ (-3 : ℝ) = 0) := by norm_num

/-- C05: `unit()` of the zero vector has no finite component (0/0). -/
theorem C05_unit_zero : V3.zero.unit = ⟨.nan, .nan, .nan⟩ := by
  have : V3.zero.r = .fin 0 := by simp [V3.r, V3.zero]
  simp only [V3.unit, this]
  simp [V3.zero]

/-! ## C06 -/

/-- C06: cylindrical coordinates with ρ > 0 and φ in (-π,π] are reported back. -/
theorem C06_cylindrical (ρ φ z : ℝ) (hρ : 0 < ρ) (h1 : -Real.pi < φ) (h2 : φ ≤ Real.pi) :
    let v := V3.cylindrical (.fin ρ) (.fin φ) (.fin z)
    v.rho = .fin ρ ∧ v.phi = .fin φ ∧ v.z = .fin z := by
  have hs : ρ * Real.cos φ * (ρ * Real.cos φ) + ρ * Real.sin φ * (ρ * Real.sin φ) = ρ * ρ := by
    nlinarith [Real.sin_sq_add_cos_sq φ]
  refine ⟨?_, ?_, rfl⟩
  · simp only [V3.rho, V3.trans, V3.cylindrical, sin_fin, cos_fin, fin_mul, fin_add]
    rw [hs, sqrt_fin (mul_self_nonneg ρ), Real.sqrt_mul_self hρ.le]
  · simp only [V3.phi, V3.cylindrical, sin_fin, cos_fin, fin_mul, zero_eq, fin_eqv, atan2_fin]
    rw [cif_neg, ratan2_polar hρ h1 h2]
    rintro ⟨ha, hb⟩
    rw [ha, hb] at hs
    nlinarith

/-- C06: conversely every finite vector is rebuilt from its reported cylindrical coordinates
(including vectors on the z axis). -/
theorem C06_cylindrical_inv (x y z : ℝ) :
    let v := V3.re x y z
    V3.cylindrical v.rho v.phi v.z = v := by
  have hnn : 0 ≤ x * x + y * y := add_nonneg (mul_self_nonneg x) (mul_self_nonneg y)
  have hρ : (V3.re x y z).rho = .fin (Real.sqrt (x * x + y * y)) := by
    simp [V3.rho, V3.trans, V3.re, hnn]
  by_cases h0 : x = 0 ∧ y = 0
  · obtain ⟨rfl, rfl⟩ := h0
    have hφ : (V3.re 0 0 z).phi = .fin 0 := by simp [V3.phi, V3.re]
    simp only [V3.cylindrical, hρ, hφ]
    simp [V3.re]
  · have hφ : (V3.re x y z).phi = .fin (ratan2 y x) := by simp [V3.phi, V3.re, h0]
    have hs : Real.sqrt (x ^ 2 + y ^ 2) ≠ 0 := by
      intro hc
      rw [Real.sqrt_eq_zero (by positivity)] at hc
      apply h0
      constructor <;> nlinarith [sq_nonneg x, sq_nonneg y]
    have e : x * x + y * y = x ^ 2 + y ^ 2 := by ring
    simp only [V3.cylindrical, hρ, hφ, cos_fin, sin_fin, fin_mul, cos_ratan2 y x h0, sin_ratan2, e]
    simp only [V3.re, V3.mk.injEq, fin_inj]
    refine ⟨?_, ?_, trivial⟩ <;> field_simp

/-- C06: `trans`, `trans2` and `r2` agree with the coordinates given: the square of the distance from the axis and of the length. -/
theorem C06_squares (ρ r φ θ z : ℝ) :
    (V3.cylindrical (.fin ρ) (.fin φ) (.fin z)).trans2 = .fin (ρ ^ 2) ∧
    (V3.cylindrical (.fin ρ) (.fin φ) (.fin z)).trans = .fin |ρ| ∧
    (V3.cylindrical (.fin ρ) (.fin φ) (.fin z)).r2 = .fin (ρ ^ 2 + z ^ 2) ∧
    (V3.spherical (.fin r) (.fin φ) (.fin θ)).trans2 = .fin ((r * Real.sin θ) ^ 2) ∧
    (V3.spherical (.fin r) (.fin φ) (.fin θ)).r2 = .fin (r ^ 2) := by
  have h1 := Real.sin_sq_add_cos_sq φ
  have h2 := Real.sin_sq_add_cos_sq θ
  have e : ρ * Real.cos φ * (ρ * Real.cos φ) + ρ * Real.sin φ * (ρ * Real.sin φ) = ρ ^ 2 := by linear_combination ρ ^ 2 * h1
  refine ⟨?_, ?_, ?_, ?_, ?_⟩
  · simp only [V3.trans2, V3.cylindrical, sin_fin, cos_fin, fin_mul, fin_add, e]
  · simp only [V3.trans, V3.cylindrical, sin_fin, cos_fin, fin_mul, fin_add, e]
    rw [sqrt_fin (sq_nonneg ρ), Real.sqrt_sq_eq_abs]
  · simp only [V3.r2, V3.cylindrical, sin_fin, cos_fin, fin_mul, fin_add, e, sq z]
  · simp only [V3.trans2, V3.spherical, sin_fin, cos_fin, fin_mul, fin_add, fin_inj]
    linear_combination (r * Real.sin θ) ^ 2 * h1
  · simp only [V3.r2, V3.spherical, sin_fin, cos_fin, fin_mul, fin_add, fin_inj]
    linear_combination (r * Real.sin θ) ^ 2 * h1 + r ^ 2 * h2

/-- C06: spherical coordinates with r > 0, φ in (-π,π], θ in (0,π) are reported back. -/
theorem C06_spherical (r φ θ : ℝ) (hr : 0 < r) (h1 : -Real.pi < φ) (h2 : φ ≤ Real.pi)
    (h3 : 0 < θ) (h4 : θ < Real.pi) :
    let v := V3.spherical (.fin r) (.fin φ) (.fin θ)
    v.r = .fin r ∧ v.phi = .fin φ ∧ v.theta = .fin θ := by
  have hsin : 0 < Real.sin θ := Real.sin_pos_of_pos_of_lt_pi h3 h4
  have hρ : 0 < r * Real.sin θ := by positivity
  have hs : r * Real.sin θ * Real.cos φ * (r * Real.sin θ * Real.cos φ) +
      r * Real.sin θ * Real.sin φ * (r * Real.sin θ * Real.sin φ) =
      (r * Real.sin θ) * (r * Real.sin θ) := by
    linear_combination (r * Real.sin θ) ^ 2 * Real.sin_sq_add_cos_sq φ
  have hs3 : r * Real.sin θ * (r * Real.sin θ) + r * Real.cos θ * (r * Real.cos θ) = r * r := by
    linear_combination r ^ 2 * Real.sin_sq_add_cos_sq θ
  have hrho : (V3.spherical (.fin r) (.fin φ) (.fin θ)).rho = .fin (r * Real.sin θ) := by
    simp only [V3.rho, V3.trans, V3.spherical, sin_fin, cos_fin, fin_mul, fin_add]
    rw [hs, sqrt_fin (mul_self_nonneg _), Real.sqrt_mul_self hρ.le]
  have hne : ¬ (r * Real.sin θ * Real.cos φ = 0 ∧ r * Real.sin θ * Real.sin φ = 0) := by
    rintro ⟨ha, hb⟩
    rw [ha, hb] at hs
    nlinarith
  refine ⟨?_, ?_, ?_⟩
  · simp only [V3.r, V3.spherical, sin_fin, cos_fin, fin_mul, fin_add]
    rw [hs, hs3, sqrt_fin (mul_self_nonneg _), Real.sqrt_mul_self hr.le]
  · simp only [V3.phi, V3.spherical, sin_fin, cos_fin, fin_mul, zero_eq, fin_eqv, atan2_fin]
    rw [cif_neg hne, ratan2_polar hρ h1 h2]
  · unfold V3.theta
    rw [hrho, cif_neg]
    · simp only [V3.spherical, cos_fin, fin_mul, atan2_fin]
      rw [ratan2_polar hr (by linarith) h4.le]
    · simp only [V3.spherical, sin_fin, cos_fin, fin_mul, zero_eq, fin_eqv]
      rintro ⟨ha, hb, _⟩
      exact hne ⟨ha, hb⟩

/-- C06: conversely every finite vector is rebuilt from its reported spherical coordinates. -/
theorem C06_spherical_inv (x y z : ℝ) :
    let v := V3.re x y z
    V3.spherical v.r v.phi v.theta = v := by
  have hnn : 0 ≤ x * x + y * y := add_nonneg (mul_self_nonneg x) (mul_self_nonneg y)
  have hnn3 : 0 ≤ x * x + y * y + z * z := add_nonneg hnn (mul_self_nonneg z)
  have hr : (V3.re x y z).r = .fin (Real.sqrt (x * x + y * y + z * z)) := by
    simp [V3.r, V3.re, hnn3]
  have hρ : (V3.re x y z).rho = .fin (Real.sqrt (x * x + y * y)) := by
    simp [V3.rho, V3.trans, V3.re, hnn]
  by_cases h0 : x = 0 ∧ y = 0 ∧ z = 0
  · obtain ⟨rfl, rfl, rfl⟩ := h0
    have hφ : (V3.re 0 0 0).phi = .fin 0 := by simp [V3.phi, V3.re]
    have hθ : (V3.re 0 0 0).theta = .fin 0 := by simp [V3.theta, V3.re]
    simp only [V3.spherical, hr, hφ, hθ]
    simp [V3.re]
  have hθ : (V3.re x y z).theta = .fin (ratan2 (Real.sqrt (x * x + y * y)) z) := by
    unfold V3.theta
    rw [hρ, cif_neg]
    · simp [V3.re]
    · simpa [V3.re] using h0
  have hq : z ^ 2 + Real.sqrt (x * x + y * y) ^ 2 = x * x + y * y + z * z := by
    rw [Real.sq_sqrt hnn]; ring
  have hs3 : Real.sqrt (x * x + y * y + z * z) ≠ 0 := by
    intro hc
    rw [Real.sqrt_eq_zero hnn3] at hc
    apply h0
    refine ⟨?_, ?_, ?_⟩ <;> nlinarith [mul_self_nonneg x, mul_self_nonneg y, mul_self_nonneg z]
  have hz0 : ¬ (z = 0 ∧ Real.sqrt (x * x + y * y) = 0) := by
    rintro ⟨hz, hsq⟩
    apply hs3
    rw [Real.sqrt_eq_zero hnn] at hsq
    rw [hsq, hz]; simp
  have hc : Real.cos (ratan2 (Real.sqrt (x * x + y * y)) z) = z / Real.sqrt (x * x + y * y + z * z) := by
    rw [cos_ratan2 _ _ hz0, hq]
  have hsn : Real.sin (ratan2 (Real.sqrt (x * x + y * y)) z) =
      Real.sqrt (x * x + y * y) / Real.sqrt (x * x + y * y + z * z) := by
    rw [sin_ratan2, hq]
  by_cases h1 : x = 0 ∧ y = 0
  · obtain ⟨rfl, rfl⟩ := h1
    have hφ : (V3.re 0 0 z).phi = .fin 0 := by simp [V3.phi, V3.re]
    simp only [V3.spherical, hr, hφ, hθ, sin_fin, cos_fin, fin_mul, hc, hsn]
    simp only [V3.re, V3.mk.injEq, fin_inj]
    refine ⟨by simp, by simp, ?_⟩
    generalize Real.sqrt (0 * 0 + 0 * 0 + z * z) = A at hs3
    field_simp
  · have hφ : (V3.re x y z).phi = .fin (ratan2 y x) := by simp [V3.phi, V3.re, h1]
    have e : x ^ 2 + y ^ 2 = x * x + y * y := by ring
    have hs2 : Real.sqrt (x * x + y * y) ≠ 0 := by
      intro hcc
      rw [Real.sqrt_eq_zero hnn] at hcc
      apply h1
      constructor <;> nlinarith [mul_self_nonneg x, mul_self_nonneg y]
    simp only [V3.spherical, hr, hφ, hθ, sin_fin, cos_fin, fin_mul, hc, hsn, cos_ratan2 y x h1,
      sin_ratan2, e]
    simp only [V3.re, V3.mk.injEq, fin_inj]
    generalize Real.sqrt (x * x + y * y + z * z) = A at hs3
    generalize Real.sqrt (x * x + y * y) = B at hs2
    refine ⟨?_, ?_, ?_⟩ <;> field_simp

/-- the range end point φ = π is included in C06 -/
example : (V3.cylindrical (.fin 1) (.fin Real.pi) (.fin 0)).phi = .fin Real.pi :=
  (C06_cylindrical 1 Real.pi 0 one_pos (by linarith [Real.pi_pos]) le_rfl).2.1

/-! ## C74: element access -/

/-- Reading any index is defined: 0,1,2 give the components, all others 0. -/
theorem C74_const (v : V3) :
    v.get 0 = v.x ∧ v.get 1 = v.y ∧ v.get 2 = v.z ∧ ∀ i : ℤ, i < 0 ∨ 2 < i → v.get i = 0 := by
  refine ⟨rfl, rfl, rfl, fun i hi => ?_⟩
  unfold V3.get
  rw [if_neg (by omega), if_neg (by omega), if_neg (by omega)]

/-- Writing out of range never changes a component, in range it changes exactly that component. -/
theorem C74_write (c : V3.Cell) (a : Dbl) (i j : ℤ) (hi : 0 ≤ i ∧ i ≤ 2) :
    (c.write j a).v.get i = if i = j then a else c.v.get i := by
  obtain ⟨h0, h2⟩ := hi
  have : i = 0 ∨ i = 1 ∨ i = 2 := by omega
  rcases this with rfl | rfl | rfl <;>
  · by_cases j0 : j = 0
    · subst j0; simp [V3.Cell.write, V3.get]
    · by_cases j1 : j = 1
      · subst j1; simp [V3.Cell.write, V3.get]
      · by_cases j2 : j = 2
        · subst j2; simp [V3.Cell.write, V3.get]
        · have e0 : ¬ (0 : ℤ) = j := fun h => j0 h.symm
          have e1 : ¬ (1 : ℤ) = j := fun h => j1 h.symm
          have e2 : ¬ (2 : ℤ) = j := fun h => j2 h.symm
          simp [V3.Cell.write, V3.get, j0, j1, j2, e0, e1, e2]

/-- C74: a value read through the reference is the last one written there; all indices out of range share one cell.  In range
the reference reads the component. -/
theorem C74_read (c : V3.Cell) (a : Dbl) (i j : ℤ) :
    (c.write j a).read i = (if i = j ∨ (¬ (0 ≤ i ∧ i ≤ 2) ∧ ¬ (0 ≤ j ∧ j ≤ 2)) then a else c.read i) ∧
    (0 ≤ i ∧ i ≤ 2 → c.read i = c.v.get i) := by
  have cell : ∀ k : ℤ, k = 0 ∨ k = 1 ∨ k = 2 ∨ (k ≠ 0 ∧ k ≠ 1 ∧ k ≠ 2 ∧ ¬ (0 ≤ k ∧ k ≤ 2)) := by intro k; omega
  constructor
  · rcases cell i with rfl | rfl | rfl | ⟨i0, i1, i2, i3⟩ <;> rcases cell j with rfl | rfl | rfl | ⟨j0, j1, j2, j3⟩ <;>
      simp [V3.Cell.write, V3.Cell.read, *, Ne.symm, eq_comm]
  · rcases cell i with rfl | rfl | rfl | ⟨i0, i1, i2, i3⟩
    · intro _; rfl
    · intro _; rfl
    · intro _; rfl
    · intro h; exact absurd h i3

end Verif
