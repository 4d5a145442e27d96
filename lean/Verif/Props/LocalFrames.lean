import Verif.Model.Utilities
import Verif.Lemmas.Helix
import Mathlib.LinearAlgebra.Matrix.Notation
import Mathlib.LinearAlgebra.Matrix.Determinant.Basic

/-!
# C22, C23, C24, C68: curvilinear frame and measurement projection
-/

noncomputable section

namespace Verif

open Dbl Matrix

variable {om tl ph d z s : ℝ}

/-! ## C22 -/

theorem curvSystem_re : calculateLocalCurvilinearSystem (fin s) (hpR om tl ph d z) =
    (V3.re (-Real.sin (ph - om * s)) (Real.cos (ph - om * s)) 0,
     V3.re (-Real.cos (ph - om * s) * Real.sin (Real.arctan tl)) (-Real.sin (ph - om * s) * Real.sin (Real.arctan tl))
      (Real.cos (Real.arctan tl))) := by
  simp only [calculateLocalCurvilinearSystem, calculateCurvature_hpR, calculatePhi0_hpR, calculateLambda_hpR, fin_mul,
    fin_sub, sin_fin, cos_fin, fin_neg, zero_eq, V3.re]

/-- C22: U, V and the tangent are a right-handed orthonormal system and U is horizontal. -/
theorem C22_frame :
    let U := (calculateLocalCurvilinearSystem (fin s) (hpR om tl ph d z)).1
    let V := (calculateLocalCurvilinearSystem (fin s) (hpR om tl ph d z)).2
    let T := calculateTangent (fin s) (hpR om tl ph d z)
    U.dot U = 1 ∧ V.dot V = 1 ∧ T.dot T = 1 ∧ U.dot V = 0 ∧ U.dot T = 0 ∧ V.dot T = 0 ∧
      U.cross V = T ∧ V.cross T = U ∧ T.cross U = V ∧ U.z = 0 := by
  have h1 := Real.cos_sq_add_sin_sq (ph - om * s)
  have h2 := Real.cos_sq_add_sin_sq (Real.arctan tl)
  simp only [curvSystem_re, calculateTangent_re, V3.dot, V3.cross, V3.re, fin_mul, fin_add, fin_sub, one_eq, zero_eq,
    fin_inj, V3.mk.injEq]
  generalize Real.cos (ph - om * s) = c at *
  generalize Real.sin (ph - om * s) = σ at *
  generalize Real.cos (Real.arctan tl) = C at *
  generalize Real.sin (Real.arctan tl) = S at *
  refine ⟨?_, ?_, ?_, ?_, ?_, ?_, ⟨?_, ?_, ?_⟩, ⟨?_, ?_, ?_⟩, ⟨?_, ?_, ?_⟩, trivial⟩
  · linear_combination h1
  · linear_combination h2 + S ^ 2 * h1
  · linear_combination h2 + C ^ 2 * h1
  · ring
  · ring
  · linear_combination (-C * S) * h1
  · ring
  · ring
  · linear_combination S * h1
  · linear_combination (-σ) * h2
  · linear_combination c * h2
  · ring
  · ring
  · ring
  · linear_combination C * h1

/-! ## C23 -/

/-- scalar product of real 3-vectors (specification) -/
def dot3 (a b : Fin 3 → ℝ) : ℝ := a 0 * b 0 + a 1 * b 1 + a 2 * b 2

/-- model vector of a real 3-vector -/
def V3.of (a : Fin 3 → ℝ) : V3 := V3.re (a 0) (a 1) (a 2)

theorem dot_of (a b : Fin 3 → ℝ) : (V3.of a).dot (V3.of b) = fin (dot3 a b) := by
  simp only [V3.dot, V3.of, V3.re, fin_mul, fin_add, dot3]

theorem projection_two (m m' U V : Fin 3 → ℝ) :
    calculateLocalToMeasurementProjectionMatrix (V3.of U) (V3.of V) [V3.of m, V3.of m'] =
      (let a := dot3 m U; let b := dot3 m V; let c := dot3 m' U; let e := dot3 m' V
       ifc a * e - b * c ≠ 0 then .ok ![fin (e / (a * e - b * c)), fin (-b / (a * e - b * c)),
          fin (-c / (a * e - b * c)), fin (a / (a * e - b * c))]
       else .throw "Projection matrix can't be inverted, bailing out.") := by
  simp only [calculateLocalToMeasurementProjectionMatrix, dot_of, Out.ok_bind, fin_mul, fin_sub, zero_eq, fin_eqv]
  refine cif_cases (P := fun x => x = _) (fun h => ?_) (fun h => ?_)
  · rw [cif_pos h]
    simp only [fin_neg, fin_div _ h]
  · rw [cif_neg h]

/-- C23: two measurement directions whose scalar products with U and V form an invertible matrix `A`:
the four numbers returned are (row-wise) the two-sided inverse of `A`. -/
theorem C23_inverse (m m' U V : Fin 3 → ℝ)
    (h : (!![dot3 m U, dot3 m V; dot3 m' U, dot3 m' V]).det ≠ 0) :
    ∃ P : Matrix (Fin 2) (Fin 2) ℝ,
      calculateLocalToMeasurementProjectionMatrix (V3.of U) (V3.of V) [V3.of m, V3.of m'] =
        .ok ![fin (P 0 0), fin (P 0 1), fin (P 1 0), fin (P 1 1)] ∧
      P * !![dot3 m U, dot3 m V; dot3 m' U, dot3 m' V] = 1 ∧
      !![dot3 m U, dot3 m V; dot3 m' U, dot3 m' V] * P = 1 := by
  rw [projection_two]
  rw [Matrix.det_fin_two_of] at h
  generalize dot3 m U = a at *
  generalize dot3 m V = b at *
  generalize dot3 m' U = c at *
  generalize dot3 m' V = e at *
  refine ⟨!![e / (a * e - b * c), -b / (a * e - b * c); -c / (a * e - b * c), a / (a * e - b * c)], ?_, ?_, ?_⟩
  · simp only [cif_pos h]; rfl
  · ext i j
    fin_cases i <;> fin_cases j <;> simp [Matrix.mul_apply, Fin.sum_univ_two] <;>
      (rw [div_mul_eq_mul_div, div_mul_eq_mul_div, ← add_div, div_eq_iff h]; ring)
  · ext i j
    fin_cases i <;> fin_cases j <;> simp [Matrix.mul_apply, Fin.sum_univ_two] <;>
      (rw [mul_div_assoc', mul_div_assoc', ← add_div, div_eq_iff h]; ring)

/-- C23: a singular matrix of scalar products is rejected. -/
theorem C23_singular (m m' U V : Fin 3 → ℝ)
    (h : (!![dot3 m U, dot3 m V; dot3 m' U, dot3 m' V]).det = 0) :
    ∃ msg, calculateLocalToMeasurementProjectionMatrix (V3.of U) (V3.of V) [V3.of m, V3.of m'] = .throw msg := by
  rw [projection_two]
  rw [Matrix.det_fin_two_of] at h
  exact ⟨_, cif_neg (by simpa using h)⟩

/-- C23: any number of directions other than one or two is rejected, whatever the vectors. -/
theorem C23_dimension (U V : V3) (dirs : List V3) (h1 : dirs.length ≠ 1) (h2 : dirs.length ≠ 2) :
    ∃ msg, calculateLocalToMeasurementProjectionMatrix U V dirs = .throw msg := by
  match dirs, h1, h2 with
  | [], _, _ => exact ⟨_, rfl⟩
  | [_], h1, _ => exact absurd rfl h1
  | [_, _], _, h2 => exact absurd rfl h2
  | _ :: _ :: _ :: _, _, _ => exact ⟨_, rfl⟩

/-- the curvilinear axes with themselves as measurement directions -/
example : (!![dot3 ![1, 0, 0] ![1, 0, 0], dot3 ![1, 0, 0] ![0, 1, 0];
    dot3 ![0, 1, 0] ![1, 0, 0], dot3 ![0, 1, 0] ![0, 1, 0]]).det ≠ 0 := by
  rw [Matrix.det_fin_two_of]; simp [dot3]

/-! ## C24 -/

/-- the companion direction of a finite non-zero direction `m` is orthogonal to it and not shorter than 1e-6 -/
theorem companion_spec (m : Fin 3 → ℝ) (hm : dot3 m m ≠ 0) :
    ∃ o : Fin 3 → ℝ, companionDirection (V3.of m) = V3.of o ∧ dot3 m o = 0 ∧ (1e-6) ^ 2 ≤ dot3 o o := by
  have hpos : 0 < dot3 m m := by
    refine lt_of_le_of_ne ?_ hm.symm
    unfold dot3
    exact add_nonneg (add_nonneg (mul_self_nonneg _) (mul_self_nonneg _)) (mul_self_nonneg _)
  have hr : (V3.of m).r = fin (Real.sqrt (dot3 m m)) := by
    simp only [V3.r, V3.of, V3.re, fin_mul, fin_add]
    exact sqrt_fin hpos.le
  have hs := Real.sqrt_pos.mpr hpos
  have hs2 := Real.sq_sqrt hpos.le
  have hu : (V3.of m).unit = V3.re (m 0 / Real.sqrt (dot3 m m)) (m 1 / Real.sqrt (dot3 m m)) (m 2 / Real.sqrt (dot3 m m)) := by
    simp only [V3.unit, hr]
    simp only [V3.of, V3.re, fin_div _ hs.ne']
  generalize Real.sqrt (dot3 m m) = n at *
  have hx : (m 0 / n) ^ 2 + (m 1 / n) ^ 2 + (m 2 / n) ^ 2 = 1 := by
    unfold dot3 at hs2
    field_simp
    linarith
  simp only [companionDirection, hu]
  have e0 : m 0 = n * (m 0 / n) := by field_simp
  have e1 : m 1 = n * (m 1 / n) := by field_simp
  have e2 : m 2 = n * (m 2 / n) := by field_simp
  generalize m 0 / n = x at *
  generalize m 1 / n = y at *
  generalize m 2 / n = w at *
  have hor : (V3.mk (V3.re x y w).z (V3.re x y w).z (-(V3.re x y w).x - (V3.re x y w).y)).r =
      fin (Real.sqrt (w * w + w * w + (-x - y) * (-x - y))) := by
    simp only [V3.r, V3.re, fin_neg, fin_sub, fin_mul, fin_add]
    exact sqrt_fin (add_nonneg (add_nonneg (mul_self_nonneg _) (mul_self_nonneg _)) (mul_self_nonneg _))
  rw [hor]
  refine cif_cases (P := fun v => ∃ o : Fin 3 → ℝ, v = V3.of o ∧ dot3 m o = 0 ∧ (1e-6) ^ 2 ≤ dot3 o o) (fun h => ?_) (fun h => ?_)
  · refine ⟨![-y - w, x, x], by simp [V3.of, V3.re], ?_, ?_⟩
    · simp [dot3]; rw [e0, e1, e2]; ring
    · simp only [ofSci_eq, fin_lt] at h
      rw [Real.sqrt_lt' (by norm_num)] at h
      simp [dot3]
      by_contra hc
      push Not at hc
      nlinarith [sq_nonneg w, sq_nonneg (x + y), sq_nonneg (y + w), sq_nonneg x, sq_nonneg y]
  · refine ⟨![w, w, -x - y], by simp [V3.of, V3.re], ?_, ?_⟩
    · simp [dot3]; rw [e0, e1, e2]; ring
    · simp only [ofSci_eq, fin_lt, not_lt] at h
      rw [Real.le_sqrt' (by norm_num)] at h
      simpa [dot3] using h

/-- C24 (partial): the companion direction is defined for every measurement direction, orthogonal to
it and not the null vector (it is at least 1e-6 long).  Missing for C24: it is not a unit vector in
general (`C24_false`). -/
theorem C24_companion_partial (m : Fin 3 → ℝ) (hm : dot3 m m = 1) :
    ∃ o : Fin 3 → ℝ, companionDirection (V3.of m) = V3.of o ∧ dot3 m o = 0 ∧ (1e-6) ^ 2 ≤ dot3 o o :=
  companion_spec m (by rw [hm]; exact one_ne_zero)

/-- C24 as stated is false: the companion of the unit vector along z has length √2. -/
theorem C24_false : ∃ m o : Fin 3 → ℝ, dot3 m m = 1 ∧ companionDirection (V3.of m) = V3.of o ∧ dot3 o o = 2 := by
  refine ⟨![0, 0, 1], ![1, 1, 0], by simp [dot3], ?_, by simp [dot3]; norm_num⟩
  have h2 : ¬ (Real.sqrt (1 + 1) < 1e-6) := by
    rw [not_lt]
    exact Real.le_sqrt_of_sq_le (by norm_num)
  simp [companionDirection, V3.of, V3.re, V3.unit, V3.r, cif_neg h2]

/-! ## C68 -/

/-- vector product of real 3-vectors (specification) -/
def cross3 (a b : Fin 3 → ℝ) : Fin 3 → ℝ :=
  ![a 1 * b 2 - a 2 * b 1, a 2 * b 0 - a 0 * b 2, a 0 * b 1 - a 1 * b 0]

/-- the tangent direction (specification) -/
def tangent3 (om tl ph s : ℝ) : Fin 3 → ℝ :=
  ![Real.cos (ph - om * s) * Real.cos (Real.arctan tl), Real.sin (ph - om * s) * Real.cos (Real.arctan tl),
    Real.sin (Real.arctan tl)]

/-- C68 (partial): a one-dimensional measurement in the curvilinear frame of a track is accepted exactly
when the track direction is not in the plane of the measurement direction and its artificial companion.
Missing for C68: the measurement direction alone should decide. -/
theorem C68_accepted_partial (m : Fin 3 → ℝ) (hm : dot3 m m = 1) :
    ∃ o : Fin 3 → ℝ, companionDirection (V3.of m) = V3.of o ∧
      let F := calculateLocalCurvilinearSystem (fin s) (hpR om tl ph d z)
      (dot3 (cross3 m o) (tangent3 om tl ph s) ≠ 0 →
        ∃ P, calculateLocalToMeasurementProjectionMatrix F.1 F.2 [V3.of m] = .ok P) ∧
      (dot3 (cross3 m o) (tangent3 om tl ph s) = 0 →
        ∃ msg, calculateLocalToMeasurementProjectionMatrix F.1 F.2 [V3.of m] = .throw msg) := by
  obtain ⟨o, ho, -, -⟩ := C24_companion_partial m hm
  refine ⟨o, ho, ?_⟩
  intro F
  have hF : F = (V3.of ![-Real.sin (ph - om * s), Real.cos (ph - om * s), 0],
     V3.of ![-Real.cos (ph - om * s) * Real.sin (Real.arctan tl), -Real.sin (ph - om * s) * Real.sin (Real.arctan tl),
      Real.cos (Real.arctan tl)]) := by
    simp only [F, curvSystem_re, V3.of]; rfl
  rw [hF]
  have key : calculateLocalToMeasurementProjectionMatrix
      (V3.of ![-Real.sin (ph - om * s), Real.cos (ph - om * s), 0])
      (V3.of ![-Real.cos (ph - om * s) * Real.sin (Real.arctan tl), -Real.sin (ph - om * s) * Real.sin (Real.arctan tl),
      Real.cos (Real.arctan tl)]) [V3.of m] =
      calculateLocalToMeasurementProjectionMatrix
      (V3.of ![-Real.sin (ph - om * s), Real.cos (ph - om * s), 0])
      (V3.of ![-Real.cos (ph - om * s) * Real.sin (Real.arctan tl), -Real.sin (ph - om * s) * Real.sin (Real.arctan tl),
      Real.cos (Real.arctan tl)]) [V3.of m, V3.of o] := by
    simp only [calculateLocalToMeasurementProjectionMatrix, ho]
  rw [key, projection_two]
  have hdet : dot3 m ![-Real.sin (ph - om * s), Real.cos (ph - om * s), 0] *
      dot3 o ![-Real.cos (ph - om * s) * Real.sin (Real.arctan tl), -Real.sin (ph - om * s) * Real.sin (Real.arctan tl),
        Real.cos (Real.arctan tl)] -
      dot3 m ![-Real.cos (ph - om * s) * Real.sin (Real.arctan tl), -Real.sin (ph - om * s) * Real.sin (Real.arctan tl),
        Real.cos (Real.arctan tl)] * dot3 o ![-Real.sin (ph - om * s), Real.cos (ph - om * s), 0] =
      dot3 (cross3 m o) (tangent3 om tl ph s) := by
    have h1 := Real.cos_sq_add_sin_sq (ph - om * s)
    simp [dot3, cross3, tangent3]
    linear_combination (m 0 * o 1 - m 1 * o 0) * Real.sin (Real.arctan tl) * h1
  constructor
  · intro h
    rw [← hdet] at h
    exact ⟨_, cif_pos h⟩
  · intro h
    rw [← hdet] at h
    exact ⟨_, cif_neg (by simpa using h)⟩

/-- C68 as stated is false: for a track at azimuth 45 degrees in the transverse plane a measurement of
the z coordinate, whose direction is orthogonal to the track, is rejected. -/
theorem C68_false (om d z : ℝ) : ∃ m : Fin 3 → ℝ, dot3 m m = 1 ∧ dot3 m (tangent3 om 0 (Real.pi / 4) 0) = 0 ∧
    ∃ msg,
      let F := calculateLocalCurvilinearSystem (fin 0) (hpR om 0 (Real.pi / 4) d z)
      calculateLocalToMeasurementProjectionMatrix F.1 F.2 [V3.of m] = .throw msg := by
  refine ⟨![0, 0, 1], by simp [dot3], by simp [dot3, tangent3], ?_⟩
  obtain ⟨o, ho, -, h⟩ := C68_accepted_partial (om := om) (tl := 0) (ph := Real.pi / 4) (d := d) (z := z) (s := 0)
    ![0, 0, 1] (by simp [dot3])
  apply h
  have h2 : ¬ (Real.sqrt (1 + 1) < 1e-6) := by
    rw [not_lt]
    exact Real.le_sqrt_of_sq_le (by norm_num)
  have ho' : companionDirection (V3.of ![0, 0, 1]) = V3.of ![1, 1, 0] := by
    simp [companionDirection, V3.of, V3.re, V3.unit, V3.r, cif_neg h2]
  rw [ho'] at ho
  simp only [V3.of, V3.re, V3.mk.injEq, fin_inj] at ho
  simp [dot3, cross3, tangent3] at ho ⊢
  rw [← ho.1, ← ho.2.1]
  ring

end Verif
