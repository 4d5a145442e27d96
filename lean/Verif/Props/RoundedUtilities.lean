import Verif.Lemmas.RoundedUtilities
import Verif.Props.LocalFrames
import Verif.Props.RoundedCircles
import Verif.Props.RoundedPropagation
import Verif.Lemmas.RoundedMaterial
import Mathlib.LinearAlgebra.Matrix.NonsingularInverse

/-!
# C149: the projection to the measurement directions in double precision

The matrix of a measurement with directions `m`, `o` on a track with direction `T` is compared with the inverse of the matrix of the offsets
along `m` and `o` for offsets along the two axes of the curvilinear frame.
-/

open Classical

noncomputable section

namespace Verif

open Dbl Rnd Spec Rounded

variable {fl : ℝ → ℝ} {lm : Libm} {atn : ℝ → ℝ} {om tl ph d z s : ℝ} {m o : R3}

/-- the direction of a track with azimuth φ and slope tan λ -/
def trackDir (φ tl : ℝ) : R3 := ![Real.cos φ * Real.cos (Real.arctan tl), Real.sin φ * Real.cos (Real.arctan tl), Real.sin (Real.arctan tl)]

/-- offsets along the directions `m` and `o` (rows) for unit offsets along the axes of the curvilinear frame of a track (columns) -/
def offsets (m o T : R3) : Matrix (Fin 2) (Fin 2) ℝ := !![dot m (frameU T), dot m (frameV T); dot o (frameU T), dot o (frameV T)]

theorem cosDip_trackDir (φ tl : ℝ) : cosDip (trackDir φ tl) = Real.cos (Real.arctan tl) := by
  have h := Real.cos_sq_add_sin_sq φ
  have c := Real.cos_arctan_pos tl
  unfold cosDip
  simp only [trackDir, Matrix.cons_val_zero, Matrix.cons_val_one]
  rw [show Real.cos φ * Real.cos (Real.arctan tl) * (Real.cos φ * Real.cos (Real.arctan tl)) +
      Real.sin φ * Real.cos (Real.arctan tl) * (Real.sin φ * Real.cos (Real.arctan tl)) = Real.cos (Real.arctan tl) ^ 2 by
      linear_combination Real.cos (Real.arctan tl) ^ 2 * h, Real.sqrt_sq c.le]

theorem frameU_trackDir (φ tl : ℝ) : frameU (trackDir φ tl) = ![-Real.sin φ, Real.cos φ, 0] := by
  have c := Real.cos_arctan_pos tl
  unfold frameU
  rw [cosDip_trackDir]
  simp only [trackDir, Matrix.cons_val_zero, Matrix.cons_val_one]
  rw [mul_div_cancel_right₀ _ c.ne', neg_div, mul_div_cancel_right₀ _ c.ne']

theorem frameV_trackDir (φ tl : ℝ) : frameV (trackDir φ tl) =
    ![-Real.cos φ * Real.sin (Real.arctan tl), -Real.sin φ * Real.sin (Real.arctan tl), Real.cos (Real.arctan tl)] := by
  have h := Real.cos_sq_add_sin_sq φ
  unfold frameV
  rw [frameU_trackDir]
  simp only [trackDir, cross, Matrix.cons_val_zero, Matrix.cons_val_one, Matrix.cons_val]
  funext i
  fin_cases i <;> simp
  · ring
  · ring
  · linear_combination Real.cos (Real.arctan tl) * h

theorem system_trackDir : Verif.calculateLocalCurvilinearSystem (fin s) (hpR om tl ph d z) =
    (V3.of (frameU (trackDir (ph - om * s) tl)), V3.of (frameV (trackDir (ph - om * s) tl))) := by
  rw [curvSystem_re, frameU_trackDir, frameV_trackDir]
  simp [V3.of]

/-- the determinant is the volume spanned by the two directions and the direction of the track -/
theorem C149_det (m o : R3) (φ tl : ℝ) : (offsets m o (trackDir φ tl)).det = dot (trackDir φ tl) (cross m o) := by
  have h := Real.cos_sq_add_sin_sq φ
  rw [offsets, Matrix.det_fin_two_of, frameU_trackDir, frameV_trackDir]
  simp only [trackDir, dot, cross, Matrix.cons_val_zero, Matrix.cons_val_one, Matrix.cons_val]
  linear_combination (m 0 * o 1 - m 1 * o 0) * Real.sin (Real.arctan tl) * h

theorem dirs_ap (h : dot m m ≤ (1001 / 1000) ^ 2) : ApV 0 1 (V3.of m) (V3.of m) (3 / 2) 17 :=
  (vec_ap h).mono (by norm_num) (by norm_num) (by norm_num)

theorem offsets_inv (m o T : R3) (hd : (offsets m o T).det ≠ 0) (P' : Fin 4 → ℝ)
    (hP : (![(V3.of o).dot (V3.of (frameV T)) / fin (offsets m o T).det, -(V3.of m).dot (V3.of (frameV T)) / fin (offsets m o T).det,
      -(V3.of o).dot (V3.of (frameU T)) / fin (offsets m o T).det, (V3.of m).dot (V3.of (frameU T)) / fin (offsets m o T).det] : Fin 4 → Dbl) =
      fun i => fin (P' i)) :
    (offsets m o T)⁻¹ = !![P' 0, P' 1; P' 2, P' 3] := by
  have e0 := congrFun hP 0
  have e1 := congrFun hP 1
  have e2 := congrFun hP 2
  have e3 := congrFun hP 3
  simp only [dot_of, fin_neg, fin_div _ hd, Matrix.cons_val_zero, Matrix.cons_val_one, Matrix.cons_val, fin_inj] at e0 e1 e2 e3
  rw [← e0, ← e1, ← e2, ← e3]
  rw [Matrix.inv_def, Ring.inverse_eq_inv', offsets, Matrix.adjugate_fin_two_of]
  ext i j
  fin_cases i <;> fin_cases j <;> simp [dot3, dot] <;> ring

/-- C149, where it holds: the matrix for two directions is that of the exact formula within 2^-41 over the square of the determinant.
Missing for C149: directions that are almost in a plane with the track, see `C149_false`. -/
theorem C149_two_partial (h : NearestF 53 1074 fl) (hl : IsLibm lm) (ha : IsAtan atn) (hp : |ph| ≤ 8) (hs : |om * s| ≤ 8)
    (hm : dot m m ≤ (1001 / 1000) ^ 2) (ho : dot o o ≤ (1001 / 1000) ^ 2) (hd : 1 / 2 ^ 25 ≤ |(offsets m o (trackDir (ph - om * s) tl)).det|) :
    ∃ P : Matrix (Fin 2) (Fin 2) ℝ,
      Rnd.calculateLocalToMeasurementProjectionMatrix fl (Rnd.calculateLocalCurvilinearSystem fl lm atn (fin s) (hpR om tl ph d z)).1
        (Rnd.calculateLocalCurvilinearSystem fl lm atn (fin s) (hpR om tl ph d z)).2 [V3.of m, V3.of o] =
        .ok ![fin (P 0 0), fin (P 0 1), fin (P 1 0), fin (P 1 1)] ∧
      ∀ i j, |P i j - (offsets m o (trackDir (ph - om * s) tl))⁻¹ i j| ≤ 1 / 2 ^ 41 / (offsets m o (trackDir (ph - om * s) tl)).det ^ 2 := by
  obtain ⟨fU, fV⟩ := frame_ap (d := d) (z := z) (tl := tl) h hl ha hp hs
  have hy : (V3.of m).dot (V3.of (frameU (trackDir (ph - om * s) tl))) * (V3.of o).dot (V3.of (frameV (trackDir (ph - om * s) tl))) -
      (V3.of m).dot (V3.of (frameV (trackDir (ph - om * s) tl))) * (V3.of o).dot (V3.of (frameU (trackDir (ph - om * s) tl))) =
      fin (offsets m o (trackDir (ph - om * s) tl)).det := by
    rw [offsets, Matrix.det_fin_two_of, dot_of, dot_of, dot_of, dot_of, fin_mul, fin_mul, fin_sub]
    rfl
  rw [system_trackDir] at fU fV
  obtain ⟨P, P', e1, e2, e3⟩ := projection_ap h fU fV (dirs_ap hm) (dirs_ap ho) hy hd
  have dn : (offsets m o (trackDir (ph - om * s) tl)).det ≠ 0 := abs_pos.1 (lt_of_lt_of_le (by positivity) hd)
  rw [offsets_inv m o _ dn P' e2]
  refine ⟨!![P 0, P 1; P 2, P 3], ?_, ?_⟩
  · simp only [Rnd.calculateLocalToMeasurementProjectionMatrix, Out.ok_bind]
    rw [e1]
    congr 1
    funext i
    fin_cases i <;> rfl
  · intro i j
    fin_cases i <;> fin_cases j
    exacts [e3 0, e3 1, e3 2, e3 3]

/-- the companion of a measurement direction: perpendicular to it, with two cases -/
def companion (m : R3) : R3 :=
  let u := (1 / √(dot m m)) • m
  if √(u 2 ^ 2 + u 2 ^ 2 + (u 0 + u 1) ^ 2) < 1 / 10 ^ 6 then ![-u 1 - u 2, u 0, u 0] else ![u 2, u 2, -u 0 - u 1]

/-- C149, where it holds: the same for one direction and its companion.  Missing: directions within 10 % of the limit between the two cases for the
companion, and directions almost along the track. -/
theorem C149_one_partial (h : NearestF 53 1074 fl) (hl : IsLibm lm) (ha : IsAtan atn) (hp : |ph| ≤ 8) (hs : |om * s| ≤ 8)
    (hm : dot m m ≤ (1001 / 1000) ^ 2) (hm0 : 1 / 2 ^ 100 ≤ √(dot m m))
    (hc : √(dot m m) * (11 / 10 * (1 / 10 ^ 6)) ≤ √(m 2 ^ 2 + m 2 ^ 2 + (m 0 + m 1) ^ 2) ∨
      √(m 2 ^ 2 + m 2 ^ 2 + (m 0 + m 1) ^ 2) ≤ √(dot m m) * (9 / 10 * (1 / 10 ^ 6)))
    (hd : 1 / 2 ^ 25 ≤ |(offsets m (companion m) (trackDir (ph - om * s) tl)).det|) :
    ∃ P : Matrix (Fin 2) (Fin 2) ℝ,
      Rnd.calculateLocalToMeasurementProjectionMatrix fl (Rnd.calculateLocalCurvilinearSystem fl lm atn (fin s) (hpR om tl ph d z)).1
        (Rnd.calculateLocalCurvilinearSystem fl lm atn (fin s) (hpR om tl ph d z)).2 [V3.of m] =
        .ok ![fin (P 0 0), fin (P 0 1), fin (P 1 0), fin (P 1 1)] ∧
      ∀ i j, |P i j - (offsets m (companion m) (trackDir (ph - om * s) tl))⁻¹ i j| ≤
        1 / 2 ^ 41 / (offsets m (companion m) (trackDir (ph - om * s) tl)).det ^ 2 := by
  have np : 0 < √(dot m m) := lt_of_lt_of_le (by positivity) hm0
  have hm1 : √(dot m m) ≤ 2 ^ 100 := (Real.sqrt_le_iff.2 ⟨by norm_num, hm⟩).trans (show (1001 / 1000 : ℝ) ≤ 2 ^ 100 by norm_num)
  obtain ⟨c1, c2⟩ := companion_ap h hm0 hm1
  obtain ⟨fU, fV⟩ := frame_ap (d := d) (z := z) (tl := tl) h hl ha hp hs
  have sc : ∀ n : ℝ, 0 < n → √((((1 / n) • m) 2) ^ 2 + (((1 / n) • m) 2) ^ 2 + (((1 / n) • m) 0 + ((1 / n) • m) 1) ^ 2) =
      1 / n * √(m 2 ^ 2 + m 2 ^ 2 + (m 0 + m 1) ^ 2) := by
    intro n n0
    have : (((1 / n) • m) 2) ^ 2 + (((1 / n) • m) 2) ^ 2 + (((1 / n) • m) 0 + ((1 / n) • m) 1) ^ 2 = (1 / n) ^ 2 * (m 2 ^ 2 + m 2 ^ 2 + (m 0 + m 1) ^ 2) := by
      simp only [Pi.smul_apply, smul_eq_mul]
      ring
    rw [this, Real.sqrt_mul (by positivity), Real.sqrt_sq (by positivity)]
  have sc' := sc _ np
  have key : ApV 0 1 (Rnd.companionDirection fl (V3.of m)) (V3.of (companion m)) (3 / 2) 17 := by
    have dd : dot (ortho1 ((1 / √(dot m m)) • m)) (ortho1 ((1 / √(dot m m)) • m)) = (1 / √(dot m m) * √(m 2 ^ 2 + m 2 ^ 2 + (m 0 + m 1) ^ 2)) ^ 2 := by
      rw [← sc', Real.sq_sqrt (by positivity)]
      simp only [dot, ortho1, Matrix.cons_val_zero, Matrix.cons_val_one, Matrix.cons_val]
      ring
    have q0 : 0 ≤ 1 / √(dot m m) * √(m 2 ^ 2 + m 2 ^ 2 + (m 0 + m 1) ^ 2) := by positivity
    rcases hc with hc | hc
    · have k : 11 / 10 * (1 / 10 ^ 6) ≤ 1 / √(dot m m) * √(m 2 ^ 2 + m 2 ^ 2 + (m 0 + m 1) ^ 2) := by
        rw [one_div_mul_eq_div, le_div_iff₀ np]
        linarith
      have e : companion m = ortho1 ((1 / √(dot m m)) • m) := by
        unfold companion
        simp only []
        rw [sc', if_neg (by norm_num at k ⊢; linarith)]
        rfl
      rw [e]
      exact c1 (by rw [dd]; exact pow_le_pow_left₀ (by norm_num) k 2)
    · have k : 1 / √(dot m m) * √(m 2 ^ 2 + m 2 ^ 2 + (m 0 + m 1) ^ 2) ≤ 9 / 10 * (1 / 10 ^ 6) := by
        rw [one_div_mul_eq_div, div_le_iff₀ np]
        linarith
      have e : companion m = ortho2 ((1 / √(dot m m)) • m) := by
        unfold companion
        simp only []
        rw [sc', if_pos (by norm_num at k ⊢; linarith)]
        rfl
      rw [e]
      exact c2 (by rw [dd]; exact pow_le_pow_left₀ q0 k 2)
  have hy : (V3.of m).dot (V3.of (frameU (trackDir (ph - om * s) tl))) * (V3.of (companion m)).dot (V3.of (frameV (trackDir (ph - om * s) tl))) -
      (V3.of m).dot (V3.of (frameV (trackDir (ph - om * s) tl))) * (V3.of (companion m)).dot (V3.of (frameU (trackDir (ph - om * s) tl))) =
      fin (offsets m (companion m) (trackDir (ph - om * s) tl)).det := by
    rw [offsets, Matrix.det_fin_two_of, dot_of, dot_of, dot_of, dot_of, fin_mul, fin_mul, fin_sub]
    rfl
  rw [system_trackDir] at fU fV
  obtain ⟨P, P', e1, e2, e3⟩ := projection_ap h fU fV (dirs_ap hm) key hy hd
  have dn : (offsets m (companion m) (trackDir (ph - om * s) tl)).det ≠ 0 := abs_pos.1 (lt_of_lt_of_le (by positivity) hd)
  rw [offsets_inv m _ _ dn P' e2]
  refine ⟨!![P 0, P 1; P 2, P 3], ?_, ?_⟩
  · simp only [Rnd.calculateLocalToMeasurementProjectionMatrix, Out.ok_bind]
    rw [e1]
    congr 1
    funext i
    fin_cases i <;> rfl
  · intro i j
    fin_cases i <;> fin_cases j
    exacts [e3 0, e3 1, e3 2, e3 3]

/-- other numbers of directions are rejected -/
theorem C149_dimension (U V : V3) (dirs : List V3) (h1 : dirs.length ≠ 1) (h2 : dirs.length ≠ 2) :
    ∃ msg, Rnd.calculateLocalToMeasurementProjectionMatrix fl U V dirs = .throw msg := by
  match dirs, h1, h2 with
  | [], _, _ => exact ⟨_, rfl⟩
  | [_], h1, _ => exact absurd rfl h1
  | [_, _], _, h2 => exact absurd rfl h2
  | _ :: _ :: _ :: _, _, _ => exact ⟨_, rfl⟩

/-- hypotheses of `C149_two_partial`: a track along the x axis and a measurement of y and z -/
example : dot ![0, 1, 0] ![0, 1, 0] ≤ (1001 / 1000) ^ 2 ∧ dot ![0, 0, 1] ![0, 0, 1] ≤ (1001 / 1000) ^ 2 ∧
    (1 : ℝ) / 2 ^ 25 ≤ |(offsets ![0, 1, 0] ![0, 0, 1] (trackDir (0 - 0 * 0) 0)).det| := by
  rw [C149_det]
  simp [dot, cross, trackDir]
  norm_num

/-- hypotheses of `C149_one_partial`: a track along the x axis and a measurement of y -/
example : 1 / 2 ^ 100 ≤ √(dot ![0, 1, 0] ![0, 1, 0]) ∧
    √(dot ![0, 1, 0] ![0, 1, 0]) * (11 / 10 * (1 / 10 ^ 6)) ≤
      √((![0, 1, 0] : R3) 2 ^ 2 + (![0, 1, 0] : R3) 2 ^ 2 + ((![0, 1, 0] : R3) 0 + (![0, 1, 0] : R3) 1) ^ 2) ∧
    (1 : ℝ) / 2 ^ 25 ≤ |(offsets ![0, 1, 0] (companion ![0, 1, 0]) (trackDir (0 - 0 * 0) 0)).det| := by
  have c : companion ![0, 1, 0] = ![0, 0, -1] := by
    unfold companion
    simp [dot]
    norm_num
  refine ⟨?_, ?_, ?_⟩
  · simp [dot]
    norm_num
  · simp [dot]
    norm_num
  · rw [C149_det, c]
    simp [dot, cross, trackDir]
    norm_num

/-- C149 is false: two directions that are parallel to each other are accepted, if the rounding errors of the scalar products differ.
The axes are unit vectors with an error of less than 10^-31 in their squares.  Without rounding errors the function throws. -/
theorem C149_false (h : NearestF 53 1074 fl) : ∃ U V m : R3, (∀ i, RepF 53 1074 (U i) ∧ RepF 53 1074 (V i) ∧ RepF 53 1074 (m i) ∧ RepF 53 1074 (7 / 3 * m i)) ∧
    |dot U U - 1| ≤ 1 / 10 ^ 31 ∧ |dot V V - 1| ≤ 1 / 10 ^ 31 ∧ dot U V = 0 ∧
    (∃ P, Rnd.calculateLocalToMeasurementProjectionMatrix fl (V3.of U) (V3.of V) [V3.of m, V3.of ((7 / 3 : ℝ) • m)] = .ok P) ∧
    ∃ msg, Verif.calculateLocalToMeasurementProjectionMatrix (V3.of U) (V3.of V) [V3.of m, V3.of ((7 / 3 : ℝ) • m)] = .throw msg := by
  have E : ∀ {t : ℝ} (n : ℤ) (k : ℕ), k ≤ 1074 → |n| ≤ 2 ^ 53 → t * 2 ^ k = n → |t| ≤ 100 → rnd fl 1024 (fin t) = fin t := by
    intro t n k hk hn e ht
    rw [rnd_small h ht, h.fix (rep_dyadic n k hk hn e)]
  have C : ∀ {x y : ℝ} (n : ℤ) (k e : ℕ), k ≤ 1074 → |n| ≤ 2 ^ 53 → x * 2 ^ k = n → |y| ≤ 100 → e ≤ 53 → 1 / 2 ^ e * 2 ^ 53 < |x| → |y - x| < 1 / 2 ^ e →
      rnd fl 1024 (fin y) = fin x := by
    intro x y n k e hk hn he hy e0 h1 h2
    rw [rnd_small h hy]
    congr 1
    have p : (2 : ℝ) ^ (1074 - e) = 1 / 2 ^ e * 2 ^ 1074 := by
      rw [eq_comm, one_div_mul_eq_div, div_eq_iff (by positivity), ← pow_add]
      congr 1
      omega
    refine h.cell (e := 1074 - e) (by norm_num) (rep_dyadic n k hk hn he) ?_ ?_
    · rw [pow_add, p, ← mul_assoc, mul_comm (2 ^ 53 : ℝ)]
      exact mul_lt_mul_of_pos_right h1 (by positivity)
    · rw [p]
      exact mul_lt_mul_of_pos_right h2 (by positivity)
  have z : rnd fl 1024 (fin 0) = fin 0 := rnd_zero h
  refine ⟨![1, 39 / 2 ^ 59, 0], ![-39 / 2 ^ 59, 1, 0], ![3 / 2, 3 / 2, 0], ?_, ?_, ?_, ?_, ?_, ?_⟩
  · have r0 : RepF 53 1074 0 := repF_zero
    have r1 : RepF 53 1074 1 := repF_one
    have r2 : RepF 53 1074 (39 / 2 ^ 59) := rep_dyadic 39 59 (by norm_num) (by norm_num) (by norm_num)
    have r3 : RepF 53 1074 (-39 / 2 ^ 59) := rep_dyadic (-39) 59 (by norm_num) (by norm_num) (by norm_num)
    have r4 : RepF 53 1074 (3 / 2) := rep_dyadic 3 1 (by norm_num) (by norm_num) (by norm_num)
    have r5 : RepF 53 1074 (7 / 3 * (3 / 2)) := rep_dyadic 7 1 (by norm_num) (by norm_num) (by norm_num)
    intro i
    fin_cases i
    · exact ⟨r1, r3, r4, r5⟩
    · exact ⟨r2, r1, r4, r5⟩
    · exact ⟨r0, r0, r0, by rw [show (7 / 3 * (![3 / 2, 3 / 2, 0] : R3) ⟨2, by norm_num⟩ : ℝ) = 0 by simp]; exact r0⟩
  · simp only [dot, Matrix.cons_val_zero, Matrix.cons_val_one, Matrix.cons_val]
    rw [abs_le]
    constructor <;> norm_num
  · simp only [dot, Matrix.cons_val_zero, Matrix.cons_val_one, Matrix.cons_val]
    rw [abs_le]
    constructor <;> norm_num
  · simp only [dot, Matrix.cons_val_zero, Matrix.cons_val_one, Matrix.cons_val]
    norm_num
  · have q1 : rnd fl 1024 (fin (3 / 2)) = fin (3 / 2) := E 3 1 (by norm_num) (by norm_num) (by norm_num) (by norm_num)
    have q2 : rnd fl 1024 (fin (7 / 2)) = fin (7 / 2) := E 7 1 (by norm_num) (by norm_num) (by norm_num) (by norm_num)
    have q3 : rnd fl 1024 (fin (3 / 2 * (39 / 2 ^ 59))) = fin (3 / 2 * (39 / 2 ^ 59)) := E 117 60 (by norm_num) (by norm_num) (by norm_num) (by norm_num)
    have q4 : rnd fl 1024 (fin (7 / 2 * (39 / 2 ^ 59))) = fin (7 / 2 * (39 / 2 ^ 59)) := E 273 60 (by norm_num) (by norm_num) (by norm_num) (by norm_num)
    have q5 : rnd fl 1024 (fin (3 / 2 * (-39 / 2 ^ 59))) = fin (3 / 2 * (-39 / 2 ^ 59)) :=
      E (-117) 60 (by norm_num) (by norm_num) (by norm_num) (by rw [abs_le]; constructor <;> norm_num)
    have q6 : rnd fl 1024 (fin (7 / 2 * (-39 / 2 ^ 59))) = fin (7 / 2 * (-39 / 2 ^ 59)) :=
      E (-273) 60 (by norm_num) (by norm_num) (by norm_num) (by rw [abs_le]; constructor <;> norm_num)
    have a : rnd fl 1024 (fin (3 / 2 + 3 / 2 * (39 / 2 ^ 59))) = fin (3 / 2) :=
      C 3 1 53 (by norm_num) (by norm_num) (by norm_num) (by norm_num) (by norm_num) (by norm_num) (by norm_num)
    have b : rnd fl 1024 (fin (3 / 2 * (-39 / 2 ^ 59) + 3 / 2)) = fin (3 / 2) :=
      C 3 1 53 (by norm_num) (by norm_num) (by norm_num) (by rw [abs_le]; constructor <;> norm_num) (by norm_num) (by norm_num)
        (by rw [abs_lt]; constructor <;> norm_num)
    have c : rnd fl 1024 (fin (7 / 2 + 7 / 2 * (39 / 2 ^ 59))) = fin (7 / 2 + 1 / 2 ^ 51) :=
      C (7 * 2 ^ 50 + 1) 51 52 (by norm_num) (by norm_num) (by norm_num) (by norm_num) (by norm_num) (by norm_num) (by rw [abs_lt]; constructor <;> norm_num)
    have e : rnd fl 1024 (fin (7 / 2 * (-39 / 2 ^ 59) + 7 / 2)) = fin (7 / 2 - 1 / 2 ^ 51) :=
      C (7 * 2 ^ 50 - 1) 51 52 (by norm_num) (by norm_num) (by norm_num) (by rw [abs_le]; constructor <;> norm_num) (by norm_num) (by norm_num)
        (by rw [abs_lt]; constructor <;> norm_num)
    have ae : rnd fl 1024 (fin (3 / 2 * (7 / 2 - 1 / 2 ^ 51))) = fin (21 / 4 - 1 / 2 ^ 50) :=
      C (21 * 2 ^ 48 - 1) 50 51 (by norm_num) (by norm_num) (by norm_num) (by norm_num) (by norm_num) (by norm_num) (by rw [abs_lt]; constructor <;> norm_num)
    have bc : rnd fl 1024 (fin (3 / 2 * (7 / 2 + 1 / 2 ^ 51))) = fin (21 / 4 + 1 / 2 ^ 50) :=
      C (21 * 2 ^ 48 + 1) 50 51 (by norm_num) (by norm_num) (by norm_num) (by norm_num) (by norm_num) (by norm_num) (by rw [abs_lt]; constructor <;> norm_num)
    have dt : rnd fl 1024 (fin (21 / 4 - 1 / 2 ^ 50 - (21 / 4 + 1 / 2 ^ 50))) = fin (21 / 4 - 1 / 2 ^ 50 - (21 / 4 + 1 / 2 ^ 50)) :=
      E (-2) 50 (by norm_num) (by norm_num) (by norm_num) (by norm_num)
    have qa : rnd fl 1024 (fin (7 / 2 + 1 / 2 ^ 51)) = fin (7 / 2 + 1 / 2 ^ 51) := E (7 * 2 ^ 50 + 1) 51 (by norm_num) (by norm_num) (by norm_num) (by norm_num)
    have qb : rnd fl 1024 (fin (7 / 2 - 1 / 2 ^ 51)) = fin (7 / 2 - 1 / 2 ^ 51) := E (7 * 2 ^ 50 - 1) 51 (by norm_num) (by norm_num) (by norm_num) (by norm_num)
    have v1 : dotV fl (V3.of ![3 / 2, 3 / 2, 0]) (V3.of ![1, 39 / 2 ^ 59, 0]) = fin (3 / 2) := by
      simp only [dotV, V3.of, V3.re, mulD, addD, Matrix.cons_val_zero, Matrix.cons_val_one, Matrix.cons_val, fin_mul, mul_one, mul_zero, q1, q3, z, fin_add, a,
        add_zero]
    have v2 : dotV fl (V3.of ![3 / 2, 3 / 2, 0]) (V3.of ![-39 / 2 ^ 59, 1, 0]) = fin (3 / 2) := by
      simp only [dotV, V3.of, V3.re, mulD, addD, Matrix.cons_val_zero, Matrix.cons_val_one, Matrix.cons_val, fin_mul, mul_one, mul_zero, q1, q5, z, fin_add, b,
        add_zero]
    have m3 : ((7 / 3 : ℝ) • ![3 / 2, 3 / 2, 0] : R3) = ![7 / 2, 7 / 2, 0] := by
      funext i
      fin_cases i <;> simp <;> norm_num
    have v3 : dotV fl (V3.of ![7 / 2, 7 / 2, 0]) (V3.of ![1, 39 / 2 ^ 59, 0]) = fin (7 / 2 + 1 / 2 ^ 51) := by
      simp only [dotV, V3.of, V3.re, mulD, addD, Matrix.cons_val_zero, Matrix.cons_val_one, Matrix.cons_val, fin_mul, mul_one, mul_zero, q2, q4, z, fin_add, c,
        add_zero, qa]
    have v4 : dotV fl (V3.of ![7 / 2, 7 / 2, 0]) (V3.of ![-39 / 2 ^ 59, 1, 0]) = fin (7 / 2 - 1 / 2 ^ 51) := by
      simp only [dotV, V3.of, V3.re, mulD, addD, Matrix.cons_val_zero, Matrix.cons_val_one, Matrix.cons_val, fin_mul, mul_one, mul_zero, q2, q6, z, fin_add, e,
        add_zero, qb]
    rw [m3]
    simp only [Rnd.calculateLocalToMeasurementProjectionMatrix, Out.ok_bind, v1, v2, v3, v4, mulD, subD, fin_mul, ae, bc, fin_sub, dt]
    rw [cif_pos (by rw [zero_eq, fin_eqv]; norm_num)]
    exact ⟨_, rfl⟩
  · refine C23_singular _ _ _ _ ?_
    rw [Matrix.det_fin_two_of]
    simp only [dot3, Pi.smul_apply, smul_eq_mul]
    ring

end Verif
