import Verif.Model.Utilities
import Verif.Lemmas.Helix

/-!
# C20, C21: momentum and q/p
-/

noncomputable section

namespace Verif

open Dbl

/-- the conversion factor from Tesla times centimetre to GeV (speed of light in m/ns times cm/m) -/
def kBr : ℝ := 0.299792458 * (1 / 100)

theorem kBr_pos : 0 < kBr := by unfold kBr; norm_num

theorem convert_eq : convertBr2P_cm = fin kBr := rfl

variable {om tl ph d z s bx by' bz : ℝ} {rp : V3} {bField : V3 → V3}

theorem momentumAt_re (h : om ≠ 0) (hB : bField rp = V3.re bx by' bz) :
    momentumAt bField (fin s) (hpR om tl ph d z) rp =
      V3.re (|1 / om| * bz * kBr * Real.cos (ph - s * om)) (|1 / om| * bz * kBr * Real.sin (ph - s * om))
        (|1 / om| * bz * kBr * tl) := by
  simp only [momentumAt, hB, calculateOmega_hpR, calculatePhi0_hpR, calculateTanLambda_hpR, convert_eq, V3.re, one_eq,
    fin_div _ h, abs_fin, fin_mul, fin_sub, cos_fin, sin_fin]

theorem momentumAtPCA_re (h : om ≠ 0) (hB : bField rp = V3.re bx by' bz) :
    momentumAtPCA bField (hpR om tl ph d z) rp =
      V3.re (|1 / om| * bz * kBr * Real.cos ph) (|1 / om| * bz * kBr * Real.sin ph)
        (|1 / om| * bz * kBr * tl) := by
  simp only [momentumAtPCA, hB, calculateOmega_hpR, calculatePhi0_hpR, calculateTanLambda_hpR, convert_eq, V3.re, one_eq,
    fin_div _ h, abs_fin, fin_mul, cos_fin, sin_fin]

/-- C20: the transverse momentum is |Bz| conv / |ω| at every arc length. -/
theorem C20_magnitude (h : om ≠ 0) (hB : bField rp = V3.re bx by' bz) :
    (momentumAt bField (fin s) (hpR om tl ph d z) rp).trans = fin (|bz| * kBr / |om|) := by
  rw [momentumAt_re h hB]
  simp only [V3.trans, V3.re, fin_mul, fin_add]
  rw [show |1 / om| * bz * kBr * Real.cos (ph - s * om) * (|1 / om| * bz * kBr * Real.cos (ph - s * om)) +
    |1 / om| * bz * kBr * Real.sin (ph - s * om) * (|1 / om| * bz * kBr * Real.sin (ph - s * om)) =
    (|1 / om| * bz * kBr) ^ 2 * (Real.cos (ph - s * om) ^ 2 + Real.sin (ph - s * om) ^ 2) by ring,
    Real.cos_sq_add_sin_sq, mul_one, sqrt_fin (sq_nonneg _), Real.sqrt_sq_eq_abs, abs_mul, abs_mul, abs_abs,
    abs_of_pos kBr_pos, abs_div, abs_one]
  congr 1; ring

/-- C20: momentumAt(0) is momentumAtPCA. -/
theorem C20_pca (h : om ≠ 0) (hB : bField rp = V3.re bx by' bz) :
    momentumAt bField 0 (hpR om tl ph d z) rp = momentumAtPCA bField (hpR om tl ph d z) rp := by
  rw [zero_eq, momentumAt_re h hB, momentumAtPCA_re h hB, zero_mul, sub_zero]

theorem momentum_tangent (h : om ≠ 0) (hB : bField rp = V3.re bx by' bz) :
    momentumAt bField (fin s) (hpR om tl ph d z) rp =
      V3.smul (fin (|1 / om| * bz * kBr / Real.cos (Real.arctan tl))) (calculateTangent (fin s) (hpR om tl ph d z)) := by
  have hc := (Real.cos_arctan_pos tl).ne'
  have ht : Real.sin (Real.arctan tl) = tl * Real.cos (Real.arctan tl) := by
    have := Real.tan_arctan tl
    rw [Real.tan_eq_sin_div_cos] at this
    generalize Real.cos (Real.arctan tl) = C at *
    field_simp at this; linarith
  rw [momentumAt_re h hB, calculateTangent_re]
  simp only [V3.smul, V3.re, fin_mul]
  congr 2
  · rw [mul_comm s om]; generalize Real.cos (Real.arctan tl) = C at *; field_simp
  · rw [mul_comm s om]; generalize Real.cos (Real.arctan tl) = C at *; field_simp
  · rw [ht]; generalize Real.cos (Real.arctan tl) = C at *; field_simp

/-- C20 (partial): for Bz > 0 the momentum is a positive multiple of the tangent.  Missing for C20:
Bz < 0, where it points against the tangent (`C20_false`), and Bz = 0, where it vanishes. -/
theorem C20_direction_partial (h : om ≠ 0) (hB : bField rp = V3.re bx by' bz) (hbz : 0 < bz) :
    ∃ k : ℝ, 0 < k ∧ momentumAt bField (fin s) (hpR om tl ph d z) rp =
      V3.smul (fin k) (calculateTangent (fin s) (hpR om tl ph d z)) :=
  ⟨_, div_pos (mul_pos (mul_pos (abs_pos.mpr (one_div_ne_zero h)) hbz) kBr_pos) (Real.cos_arctan_pos tl),
    momentum_tangent h hB⟩

/-- C20 as stated is false: whenever Bz < 0 the momentum is opposite to the direction of the track. -/
theorem C20_false (h : om ≠ 0) (hB : bField rp = V3.re bx by' bz) (hbz : bz < 0) :
    ∃ k : ℝ, k < 0 ∧ momentumAt bField (fin s) (hpR om tl ph d z) rp =
      V3.smul (fin k) (calculateTangent (fin s) (hpR om tl ph d z)) :=
  ⟨_, div_neg_of_neg_of_pos (mul_neg_of_neg_of_pos (mul_neg_of_pos_of_neg (abs_pos.mpr (one_div_ne_zero h)) hbz) kBr_pos)
      (Real.cos_arctan_pos tl), momentum_tangent h hB⟩

/-- hypotheses of C20, both field signs -/
example : (1 / 500 : ℝ) ≠ 0 ∧ (fun _ : V3 => V3.re 0 0 3.5) (V3.re 1 2 3) = V3.re 0 0 3.5 ∧ (0 : ℝ) < 3.5 ∧
    (fun _ : V3 => V3.re 0 0 (-3.5)) (V3.re 1 2 3) = V3.re 0 0 (-3.5) ∧ (-3.5 : ℝ) < 0 := by
  refine ⟨by norm_num, rfl, by norm_num, rfl, by norm_num⟩

theorem qoverP_re (hbz : bz ≠ 0) :
    calculateQoverP (hpR om tl ph d z) (fin bz) = fin (Real.cos (Real.arctan tl) * om / (bz * kBr)) := by
  have hk := mul_ne_zero hbz kBr_pos.ne'
  simp only [calculateQoverP, calculateLambda_hpR, calculateCurvature_hpR, convert_eq, zero_eq, fin_eqv, hbz,
    not_false_eq_true, cif_true, cos_fin, fin_mul, fin_div _ hk]

/-- C21: |q/p| times the magnitude of the momentum at the point of closest approach is 1. -/
theorem C21_reciprocal (h : om ≠ 0) (hbz : bz ≠ 0) (hB : bField rp = V3.re bx by' bz) :
    Dbl.abs (calculateQoverP (hpR om tl ph d z) (bField rp).z) * (momentumAtPCA bField (hpR om tl ph d z) rp).r = 1 := by
  have hz : (bField rp).z = fin bz := by rw [hB]; rfl
  rw [hz, qoverP_re hbz, momentumAtPCA_re h hB]
  have hA : 0 ≤ |1 / om| * |bz| * kBr := mul_nonneg (mul_nonneg (abs_nonneg _) (abs_nonneg _)) kBr_pos.le
  have hs : 0 < Real.sqrt (1 + tl ^ 2) := Real.sqrt_pos.mpr (by positivity)
  have hr : (V3.re (|1 / om| * bz * kBr * Real.cos ph) (|1 / om| * bz * kBr * Real.sin ph)
      (|1 / om| * bz * kBr * tl)).r = fin (|1 / om| * |bz| * kBr * Real.sqrt (1 + tl ^ 2)) := by
    simp only [V3.r, V3.re, fin_mul, fin_add]
    rw [show |1 / om| * bz * kBr * Real.cos ph * (|1 / om| * bz * kBr * Real.cos ph) +
      |1 / om| * bz * kBr * Real.sin ph * (|1 / om| * bz * kBr * Real.sin ph) +
      |1 / om| * bz * kBr * tl * (|1 / om| * bz * kBr * tl) = (|1 / om| * |bz| * kBr) ^ 2 * (1 + tl ^ 2) by
        have := Real.cos_sq_add_sin_sq ph
        have h2 := sq_abs bz
        linear_combination (|1 / om| * bz * kBr) ^ 2 * this - |1 / om| ^ 2 * kBr ^ 2 * (1 + tl ^ 2) * h2]
    rw [sqrt_fin (by positivity), Real.sqrt_mul (sq_nonneg _), Real.sqrt_sq hA]
  rw [hr, abs_fin, fin_mul, one_eq, fin_inj, Real.cos_arctan, abs_div, abs_mul, abs_mul, abs_of_pos kBr_pos,
    abs_div, abs_one, abs_div, abs_one, abs_of_pos hs]
  have h1 : |om| ≠ 0 := abs_ne_zero.mpr h
  have h2 : |bz| ≠ 0 := abs_ne_zero.mpr hbz
  have h3 := kBr_pos.ne'
  generalize Real.sqrt (1 + tl ^ 2) = S at *
  field_simp

/-- C21: for Bz > 0 the sign of q/p is the sign of ω. -/
theorem C21_sign (hbz : 0 < bz) : ∃ qop : ℝ, calculateQoverP (hpR om tl ph d z) (fin bz) = fin qop ∧
    (0 < qop ↔ 0 < om) ∧ (qop < 0 ↔ om < 0) := by
  have hk := mul_pos hbz kBr_pos
  have hc := Real.cos_arctan_pos tl
  refine ⟨_, qoverP_re hbz.ne', ?_, ?_⟩
  · rw [div_pos_iff_of_pos_right hk, mul_pos_iff_of_pos_left hc]
  · rw [div_neg_iff]
    constructor
    · rintro (⟨-, h⟩ | ⟨h, -⟩)
      · linarith
      · by_contra hn; push Not at hn
        have := mul_nonneg hc.le hn
        linarith
    · intro h; exact Or.inr ⟨mul_neg_of_pos_of_neg hc h, hk⟩

/-- C21: q/p of a straight track is 0 for every non-zero field. -/
theorem C21_straight (hbz : bz ≠ 0) : calculateQoverP (hpR 0 tl ph d z) (fin bz) = 0 := by
  rw [qoverP_re hbz, mul_zero, zero_div, zero_eq]

/-- C21, the remaining branch: without field q/p is reported as 0 whatever the parameters. -/
theorem C21_no_field (hp : V5) : calculateQoverP hp 0 = 0 := by
  simp [calculateQoverP]

/-- hypotheses of C21 -/
example : (1 / 500 : ℝ) ≠ 0 ∧ (0 : ℝ) < 3.5 ∧ (fun _ : V3 => V3.re 0 0 3.5) (V3.re 1 2 3) = V3.re 0 0 3.5 := by
  refine ⟨by norm_num, by norm_num, rfl⟩

end Verif
