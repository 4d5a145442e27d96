import Verif.Model.Helix
import Verif.Spec.Helix
import Mathlib.Tactic.Linarith
import Mathlib.Tactic.FieldSimp
import Mathlib.Tactic.Ring
import Mathlib.Tactic.LinearCombination
import Mathlib.Tactic.NormNum

/-! Helper lemmas: the helix functions on finite values as real formulas. -/

noncomputable section

namespace Verif

open Dbl

/-- real formulas of the helix functions (only used in proofs) -/
def rX (om ph d rx s : ℝ) : ℝ := rx - d * Real.sin ph + (1 / om) * (Real.sin ph - Real.sin (ph - s * om))
def rY (om ph d ry s : ℝ) : ℝ := ry + d * Real.cos ph - (1 / om) * (Real.cos ph - Real.cos (ph - s * om))
def rZ (tl z rz s : ℝ) : ℝ := rz + z + s * tl
def rCx (om ph d rx : ℝ) : ℝ := rx + (1 / om - d) * Real.sin ph
def rCy (om ph d ry : ℝ) : ℝ := ry - (1 / om - d) * Real.cos ph

variable {om tl ph d z rx ry rz s : ℝ}

theorem pointAt_re (h : om ≠ 0) : pointAt (fin s) (hpR om tl ph d z) (V3.re rx ry rz) =
    V3.re (rX om ph d rx s) (rY om ph d ry s) (rZ tl z rz s) := by
  simp [pointAt, V3.re, h, rX, rY, rZ]

theorem calculateRadius_re (h : om ≠ 0) : calculateRadius (hpR om tl ph d z) = fin |1 / om| := by
  simp [calculateRadius, h]

theorem calculateRadius_zero : calculateRadius (hpR 0 tl ph d z) = fin 0 := by
  simp [calculateRadius]

theorem calculateXCenter_re (h : om ≠ 0) : calculateXCenter (hpR om tl ph d z) (V3.re rx ry rz) =
    fin (rCx om ph d rx) := by
  simp [calculateXCenter, V3.re, h, rCx]

theorem calculateYCenter_re (h : om ≠ 0) : calculateYCenter (hpR om tl ph d z) (V3.re rx ry rz) =
    fin (rCy om ph d ry) := by
  simp [calculateYCenter, V3.re, h, rCy]

theorem calculateX0_re : calculateX0 (hpR om tl ph d z) (V3.re rx ry rz) =
    fin (rx - d * Real.sin ph) := by
  simp [calculateX0, V3.re]; ring

theorem calculateY0_re : calculateY0 (hpR om tl ph d z) (V3.re rx ry rz) =
    fin (ry + d * Real.cos ph) := by
  simp [calculateY0, V3.re]; ring

theorem calculateXfromS_re (h : om ≠ 0) :
    calculateXfromS (fin s) (hpR om tl ph d z) (V3.re rx ry rz) = fin (rX om ph d rx s) := by
  have key : 2 * Real.sin (om * s / 2) * Real.cos (ph - om * s / 2) =
      Real.sin ph - Real.sin (ph - s * om) := by
    rw [Real.sin_sub_sin]
    rw [show (ph - (ph - s * om)) / 2 = om * s / 2 by ring,
      show (ph + (ph - s * om)) / 2 = ph - om * s / 2 by ring]
  simp only [calculateXfromS, calculateX0_re, calculateCurvature_hpR, calculatePhi0_hpR]
  simp only [zero_eq, fin_eqv, h, not_false_eq_true, cif_true, ofNat_eq]
  rw [fin_div _ h, fin_mul, fin_div _ (by norm_num), sin_fin, fin_mul, fin_sub, cos_fin, fin_mul,
    fin_add, rX, ← key]
  congr 1; ring

theorem calculateYfromS_re (h : om ≠ 0) :
    calculateYfromS (fin s) (hpR om tl ph d z) (V3.re rx ry rz) = fin (rY om ph d ry s) := by
  have key : 2 * Real.sin (om * s / 2) * Real.sin (ph - om * s / 2) =
      -(Real.cos ph - Real.cos (ph - s * om)) := by
    rw [Real.cos_sub_cos]
    rw [show (ph - (ph - s * om)) / 2 = om * s / 2 by ring,
      show (ph + (ph - s * om)) / 2 = ph - om * s / 2 by ring]
    ring
  simp only [calculateYfromS, calculateY0_re, calculateCurvature_hpR, calculatePhi0_hpR]
  simp only [zero_eq, fin_eqv, h, not_false_eq_true, cif_true, ofNat_eq]
  rw [fin_div _ h, fin_mul, fin_div _ (by norm_num), sin_fin, fin_mul, fin_sub, sin_fin, fin_mul,
    fin_add]
  have : rY om ph d ry s = ry + d * Real.cos ph + (1 / om) * -(Real.cos ph - Real.cos (ph - s * om)) := by
    rw [rY]; ring
  rw [this, ← key]
  congr 1; ring

theorem calculateZfromS_re :
    calculateZfromS (fin s) (hpR om tl ph d z) (V3.re rx ry rz) = fin (rZ tl z rz s) := by
  simp [calculateZfromS, V3.re, rZ]; ring

theorem calculateTangent_re : calculateTangent (fin s) (hpR om tl ph d z) =
    V3.re (Real.cos (ph - om * s) * Real.cos (Real.arctan tl))
      (Real.sin (ph - om * s) * Real.cos (Real.arctan tl)) (Real.sin (Real.arctan tl)) := by
  simp [calculateTangent, V3.re]

theorem cos_arctan_pos (t : ℝ) : 0 < Real.cos (Real.arctan t) := Real.cos_arctan_pos t

theorem rX_center : rX om ph d rx s - rCx om ph d rx = -(1 / om) * Real.sin (ph - s * om) := by
  simp only [rX, rCx]; ring

theorem rY_center : rY om ph d ry s - rCy om ph d ry = (1 / om) * Real.cos (ph - s * om) := by
  simp only [rY, rCy]; ring

theorem isTrack_r (h : om ≠ 0) : Spec.IsTrack om tl ph (rx - d * Real.sin ph) (ry + d * Real.cos ph)
    (rz + z) (rX om ph d rx) (rY om ph d ry) (rZ tl z rz) where
  start_x := by simp [rX]
  start_y := by simp [rY]
  start_z := by simp [rZ]
  vel_x s := by
    have h1 : HasDerivAt (fun s : ℝ => ph - s * om) (-om) s := by
      simpa using ((hasDerivAt_id s).mul_const om).const_sub ph
    have h2 := (((h1.sin).const_sub (Real.sin ph)).const_mul (1 / om)).const_add (rx - d * Real.sin ph)
    have e : Real.cos (ph - om * s) = 1 / om * -(Real.cos (ph - s * om) * -om) := by
      field_simp
    rw [e]; exact h2
  vel_y s := by
    have h1 : HasDerivAt (fun s : ℝ => ph - s * om) (-om) s := by
      simpa using ((hasDerivAt_id s).mul_const om).const_sub ph
    have h2 := (((h1.cos).const_sub (Real.cos ph)).const_mul (1 / om)).const_sub (ry + d * Real.cos ph)
    have e : Real.sin (ph - om * s) = -(1 / om * -(-Real.sin (ph - s * om) * -om)) := by
      field_simp
    rw [e]; exact h2
  vel_z s := by
    have := ((hasDerivAt_id s).mul_const tl).const_add (rz + z)
    rw [one_mul] at this
    exact this

/-- every angle has a representative in (-π,π] -/
theorem exists_rep (a : ℝ) : ∃ k : ℤ, -Real.pi < a + k * (2 * Real.pi) ∧ a + k * (2 * Real.pi) ≤ Real.pi := by
  have hp : 0 < 2 * Real.pi := by linarith [Real.pi_pos]
  obtain ⟨k, hk, -⟩ := existsUnique_add_zsmul_mem_Ioc hp a (-Real.pi)
  refine ⟨k, ?_, ?_⟩
  · have := hk.1; simpa [zsmul_eq_mul] using this
  · have := hk.2; simp only [zsmul_eq_mul] at this; linarith

/-- `atan2(r sin a, r cos a)` is `a` up to a multiple of 2π -/
theorem ratan2_sin_cos {r : ℝ} (hr : 0 < r) (a : ℝ) :
    ∃ k : ℤ, ratan2 (r * Real.sin a) (r * Real.cos a) = a + k * (2 * Real.pi) := by
  obtain ⟨k, h1, h2⟩ := exists_rep a
  refine ⟨k, ?_⟩
  have := ratan2_polar hr h1 h2
  rwa [Real.sin_add_int_mul_two_pi, Real.cos_add_int_mul_two_pi] at this

theorem int_eq_of_abs_lt {k : ℤ} {B : ℝ} (h1 : -B < k) (h2 : (k : ℝ) < B) (hB : B ≤ 2) :
    k = -1 ∨ k = 0 ∨ k = 1 := by
  have h3 : (-2 : ℝ) < k := by linarith
  have h4 : (k : ℝ) < 2 := by linarith
  have h5 : (-2 : ℤ) < k := by exact_mod_cast h3
  have h6 : k < (2 : ℤ) := by exact_mod_cast h4
  omega

/-- the value of `calculateSfromXY` at a track point less than half a turn away -/
theorem calculateSfromXY_track (h : om ≠ 0) (hph : |ph| ≤ 2 * Real.pi) (hs : |om * s| < Real.pi) :
    calculateSfromXY (fin (rX om ph d rx s)) (fin (rY om ph d ry s)) (hpR om tl ph d z)
      (V3.re rx ry rz) = fin s := by
  have hpi := Real.pi_pos
  have hdx : rX om ph d rx s - (rx - Real.sin ph * d) = (1 / om) * (Real.sin ph - Real.sin (ph - s * om)) := by
    rw [rX]; ring
  have hdy : rY om ph d ry s - (ry + Real.cos ph * d) = -(1 / om) * (Real.cos ph - Real.cos (ph - s * om)) := by
    rw [rY]; ring
  have e1 : Real.sin ph - om * ((1 / om) * (Real.sin ph - Real.sin (ph - s * om))) =
      1 * Real.sin (ph - s * om) := by field_simp; ring
  have e2 : Real.cos ph + om * (-(1 / om) * (Real.cos ph - Real.cos (ph - s * om))) =
      1 * Real.cos (ph - s * om) := by field_simp; ring
  obtain ⟨k, hk⟩ := ratan2_sin_cos one_pos (ph - s * om)
  have hmem := ratan2_mem (1 * Real.sin (ph - s * om)) (1 * Real.cos (ph - s * om))
  rw [hk] at hmem
  rw [abs_le] at hph
  rw [abs_lt] at hs
  have hk3 : k = -1 ∨ k = 0 ∨ k = 1 := by
    apply int_eq_of_abs_lt (B := 2) _ _ le_rfl
    · by_contra hc
      push Not at hc
      have : (k : ℝ) * (2 * Real.pi) ≤ -2 * (2 * Real.pi) :=
        mul_le_mul_of_nonneg_right hc (by linarith)
      nlinarith [hmem.1, hph.2, hs.1]
    · by_contra hc
      push Not at hc
      have : 2 * (2 * Real.pi) ≤ (k : ℝ) * (2 * Real.pi) :=
        mul_le_mul_of_nonneg_right hc (by linarith)
      nlinarith [hmem.2, hph.1, hs.2]
  have hwrap : (ifc ph - s * om + k * (2 * Real.pi) - ph < -Real.pi then
      ph - s * om + k * (2 * Real.pi) - ph + 2 * Real.pi
      else ifc Real.pi < ph - s * om + k * (2 * Real.pi) - ph then
        ph - s * om + k * (2 * Real.pi) - ph - 2 * Real.pi
      else ph - s * om + k * (2 * Real.pi) - ph) = -(s * om) := by
    rcases hk3 with rfl | rfl | rfl
    · rw [cif_pos (by push_cast; nlinarith [hs.1, hs.2])]; push_cast; ring
    · rw [cif_neg (by push_cast; nlinarith [hs.1, hs.2]), cif_neg (by push_cast; nlinarith [hs.1, hs.2])]
      push_cast; ring
    · rw [cif_neg (by push_cast; nlinarith [hs.1, hs.2]), cif_pos (by push_cast; nlinarith [hs.1, hs.2])]
      push_cast; ring
  simp only [calculateSfromXY, calculatePhi0_hpR, calculateD0_hpR, calculateCurvature_hpR, V3.re,
    sin_fin, cos_fin, fin_mul, fin_sub, fin_add, hdx, hdy, e1, e2, atan2_fin, hk, pi_eq, fin_neg,
    fin_lt, ofNat_eq, zero_eq]
  rw [← apply_cif fin, ← apply_cif fin, hwrap]
  by_cases h0 : s = 0
  · subst h0; simp
  · have hne : -(s * om) ≠ 0 := by simp [h0, h]
    have hsn : Real.sin (s * om) ≠ 0 := by
      intro hc
      rw [Real.sin_eq_zero_iff] at hc
      obtain ⟨n, hn⟩ := hc
      have hn1 : (n : ℝ) < 1 := by
        by_contra hcc; push Not at hcc; nlinarith [hs.2]
      have hn2 : (-1 : ℝ) < n := by
        by_contra hcc; push Not at hcc; nlinarith [hs.1]
      have h5 : (-1 : ℤ) < n := by exact_mod_cast hn2
      have h6 : n < (1 : ℤ) := by exact_mod_cast hn1
      have : n = 0 := by omega
      rw [this] at hn
      simp at hn
      rcases hn with hn | hn
      · exact h0 hn
      · exact h hn
    simp only [fin_eqv, hne, not_false_eq_true, cif_true, sin_fin, Real.sin_neg]
    rw [fin_mul, fin_div _ (by simpa using hsn), fin_inj]
    have hsum : (1 / om) * (Real.sin ph - Real.sin (ph - s * om)) * Real.cos ph +
        -(1 / om) * (Real.cos ph - Real.cos (ph - s * om)) * Real.sin ph = (1 / om) * Real.sin (s * om) := by
      have : Real.sin (s * om) = Real.sin (ph - (ph - s * om)) := by congr 1; ring
      rw [this, Real.sin_sub ph (ph - s * om)]; ring
    rw [hsum]
    generalize Real.sin (s * om) = A at hsn
    field_simp

end Verif
