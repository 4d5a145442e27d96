import Verif.Spec.Motion
import Mathlib.Analysis.SpecialFunctions.Trigonometric.Deriv
import Mathlib.Analysis.Calculus.MeanValue
import Mathlib.Analysis.Calculus.Deriv.Prod
import Mathlib.Analysis.Calculus.Deriv.Mul
import Mathlib.Tactic.Linarith
import Mathlib.Tactic.FieldSimp
import Mathlib.Tactic.Ring
import Mathlib.Tactic.LinearCombination
import Mathlib.Tactic.FinCases
import Mathlib.Tactic.Module

/-! Helper lemmas: explicit solution of the equation of motion and of the variational equation. -/

noncomputable section

namespace Verif.Spec

theorem dot_comm (a b : R3) : dot a b = dot b a := by unfold dot; ring
theorem dot_add_right (a b c : R3) : dot a (b + c) = dot a b + dot a c := by simp only [dot, Pi.add_apply]; ring
theorem dot_smul_right (a b : R3) (k : ℝ) : dot a (k • b) = k * dot a b := by
  simp only [dot, Pi.smul_apply, smul_eq_mul]; ring
theorem dot_sub_right (a b c : R3) : dot a (b - c) = dot a b - dot a c := by simp only [dot, Pi.sub_apply]; ring
theorem dot_neg_right (a b : R3) : dot a (-b) = -dot a b := by simp only [dot, Pi.neg_apply]; ring

@[simp] theorem cross_0 (a b : R3) : cross a b 0 = a 1 * b 2 - a 2 * b 1 := rfl
@[simp] theorem cross_1 (a b : R3) : cross a b 1 = a 2 * b 0 - a 0 * b 2 := rfl
@[simp] theorem cross_2 (a b : R3) : cross a b 2 = a 0 * b 1 - a 1 * b 0 := rfl

theorem ext3 {a b : R3} (h0 : a 0 = b 0) (h1 : a 1 = b 1) (h2 : a 2 = b 2) : a = b := by
  funext i; fin_cases i
  · exact h0
  · exact h1
  · exact h2

theorem dot_cross_self (h a : R3) : dot a (cross h a) = 0 := by simp only [dot, cross_0, cross_1, cross_2]; ring
theorem dot_cross_self' (h a : R3) : dot h (cross h a) = 0 := by simp only [dot, cross_0, cross_1, cross_2]; ring
theorem dot_cross_rot (a h b : R3) : dot a (cross h b) = -dot b (cross h a) := by
  simp only [dot, cross_0, cross_1, cross_2]; ring

theorem dot_self_eq_zero {a : R3} (h : dot a a = 0) : a = 0 := by
  unfold dot at h
  have a0 := mul_self_nonneg (a 0)
  have a1 := mul_self_nonneg (a 1)
  have a2 := mul_self_nonneg (a 2)
  exact ext3 (mul_self_eq_zero.mp (by linarith)) (mul_self_eq_zero.mp (by linarith)) (mul_self_eq_zero.mp (by linarith))

/-- rotation about h -/
def rot (h : R3) (θ : ℝ) (v : R3) : R3 := Real.cos θ • v + Real.sin θ • cross h v + ((1 - Real.cos θ) * dot h v) • h

/-- integral of the rotation -/
def rotInt (h : R3) (θ : ℝ) (v : R3) : R3 :=
  ((θ - Real.sin θ) * dot h v) • h + Real.sin θ • v + (1 - Real.cos θ) • cross h v

theorem cross_rot (h : R3) (hh : dot h h = 1) (θ : ℝ) (v : R3) :
    cross h (rot h θ v) = Real.cos θ • cross h v + (Real.sin θ * dot h v) • h - Real.sin θ • v := by
  unfold dot at hh
  refine ext3 ?_ ?_ ?_ <;>
    simp only [rot, dot, Pi.add_apply, Pi.sub_apply, Pi.smul_apply, smul_eq_mul, cross_0, cross_1, cross_2]
  · linear_combination (-Real.sin θ * v 0) * hh
  · linear_combination (-Real.sin θ * v 1) * hh
  · linear_combination (-Real.sin θ * v 2) * hh

theorem hasDerivAt_ext3 {f : ℝ → R3} {f' : R3} {w : ℝ} (h : ∀ i, HasDerivAt (fun w => f w i) (f' i) w) : HasDerivAt f f' w :=
  hasDerivAt_pi.mpr h

theorem deriv_rot (h : R3) (hh : dot h h = 1) (q w : ℝ) (v : R3) :
    HasDerivAt (fun w => rot h (q * w) v) (q • cross h (rot h (q * w) v)) w := by
  rw [cross_rot h hh]
  have hl : HasDerivAt (fun w => q * w) q w := by simpa using (hasDerivAt_id w).const_mul q
  have hc : HasDerivAt (fun w => Real.cos (q * w)) (-Real.sin (q * w) * q) w := (Real.hasDerivAt_cos (q * w)).comp w hl
  have hs : HasDerivAt (fun w => Real.sin (q * w)) (Real.cos (q * w) * q) w := (Real.hasDerivAt_sin (q * w)).comp w hl
  refine hasDerivAt_ext3 (fun i => ?_)
  have a := ((hc.mul_const (v i)).add (hs.mul_const (cross h v i))).add (((hc.const_sub 1).mul_const (dot h v)).mul_const (h i))
  refine (a.congr_deriv ?_).congr_of_eventuallyEq (Filter.Eventually.of_forall fun w => ?_)
  · simp only [Pi.add_apply, Pi.sub_apply, Pi.smul_apply, smul_eq_mul]; ring
  · simp only [rot, Pi.add_apply, Pi.smul_apply, smul_eq_mul]

theorem deriv_rotInt (h : R3) (q w : ℝ) (v : R3) :
    HasDerivAt (fun w => rotInt h (q * w) v) (q • rot h (q * w) v) w := by
  have hl : HasDerivAt (fun w => q * w) q w := by simpa using (hasDerivAt_id w).const_mul q
  have hc : HasDerivAt (fun w => Real.cos (q * w)) (-Real.sin (q * w) * q) w := (Real.hasDerivAt_cos (q * w)).comp w hl
  have hs : HasDerivAt (fun w => Real.sin (q * w)) (Real.cos (q * w) * q) w := (Real.hasDerivAt_sin (q * w)).comp w hl
  refine hasDerivAt_ext3 (fun i => ?_)
  have a := ((((hl.sub hs).mul_const (dot h v)).mul_const (h i)).add (hs.mul_const (v i))).add
    ((hc.const_sub 1).mul_const (cross h v i))
  refine (a.congr_deriv ?_).congr_of_eventuallyEq (Filter.Eventually.of_forall fun w => ?_)
  · simp only [rot, Pi.add_apply, Pi.smul_apply, smul_eq_mul]; ring
  · simp only [rotInt, Pi.add_apply, Pi.smul_apply, smul_eq_mul, Pi.sub_apply]

theorem rot_zero (h v : R3) : rot h 0 v = v := by simp [rot]
theorem rotInt_zero (h v : R3) : rotInt h 0 v = 0 := by simp [rotInt]

theorem const_of_deriv_zero {f : ℝ → ℝ} (h : ∀ w, HasDerivAt f 0 w) (a b : ℝ) : f a = f b :=
  is_const_of_deriv_eq_zero (fun s => (h s).differentiableAt) (fun s => (h s).deriv) a b

/-- the homogeneous equation has no non-trivial solution with zero start -/
theorem zero_of_homogeneous {q : ℝ} {h : R3} {D : ℝ → R3} (h0 : D 0 = 0) (hd : ∀ w, HasDerivAt D (q • cross h (D w)) w)
    (w : ℝ) : D w = 0 := by
  apply dot_self_eq_zero
  have hc : ∀ w, HasDerivAt (fun w => dot (D w) (D w)) 0 w := by
    intro w
    have hi := hasDerivAt_pi.mp (hd w)
    have a := (((hi 0).mul (hi 0)).add ((hi 1).mul (hi 1))).add ((hi 2).mul (hi 2))
    refine (a.congr_deriv ?_)
    simp only [Pi.smul_apply, smul_eq_mul, cross_0, cross_1, cross_2]; ring
  have := const_of_deriv_zero hc w 0
  simp only [h0] at this
  rw [this]
  simp [dot]

theorem cross_sub (h a b : R3) : cross h (a - b) = cross h a - cross h b := by
  refine ext3 ?_ ?_ ?_ <;> simp only [Pi.sub_apply, cross_0, cross_1, cross_2] <;> ring
theorem cross_add (h a b : R3) : cross h (a + b) = cross h a + cross h b := by
  refine ext3 ?_ ?_ ?_ <;> simp only [Pi.add_apply, cross_0, cross_1, cross_2] <;> ring
theorem cross_smul (h a : R3) (k : ℝ) : cross h (k • a) = k • cross h a := by
  refine ext3 ?_ ?_ ?_ <;> simp only [Pi.smul_apply, smul_eq_mul, cross_0, cross_1, cross_2] <;> ring

theorem direction_exists (q : ℝ) (h T0 : R3) (hh : dot h h = 1) : IsDirection q h T0 (fun w => rot h (q * w) T0) :=
  ⟨by simp [rot_zero], fun w => deriv_rot h hh q w T0⟩

theorem direction_unique {q : ℝ} {h T0 : R3} (hh : dot h h = 1) {T : ℝ → R3} (hT : IsDirection q h T0 T) (w : ℝ) :
    T w = rot h (q * w) T0 := by
  have := zero_of_homogeneous (q := q) (h := h) (D := fun w => T w - rot h (q * w) T0)
    (by simp [hT.start, rot_zero])
    (fun w => by
      rw [cross_sub, smul_sub]
      exact (hT.deriv w).sub (deriv_rot h hh q w T0)) w
  exact sub_eq_zero.mp this

/-- change of direction, explicitly -/
def varT (q dq : ℝ) (h T0 dT0 : R3) (w : ℝ) : R3 := (dq * w) • cross h (rot h (q * w) T0) + rot h (q * w) dT0

/-- change of position, explicitly -/
def varM (q dq : ℝ) (h T0 dM0 dT0 : R3) (w : ℝ) : R3 :=
  dM0 + ((dq / q) • (w • rot h (q * w) T0 - (1 / q) • rotInt h (q * w) T0) + (1 / q) • rotInt h (q * w) dT0)

theorem deriv_varT {q dq : ℝ} {h T0 dT0 : R3} (hh : dot h h = 1) (w : ℝ) :
    HasDerivAt (varT q dq h T0 dT0) (dq • cross h (rot h (q * w) T0) + q • cross h (varT q dq h T0 dT0 w)) w := by
  have hl : HasDerivAt (fun w : ℝ => dq * w) dq w := by simpa using (hasDerivAt_id w).const_mul dq
  have hr := deriv_rot h hh q w T0
  have hc : HasDerivAt (fun w => cross h (rot h (q * w) T0)) (q • cross h (cross h (rot h (q * w) T0))) w := by
    have hi := hasDerivAt_pi.mp hr
    refine hasDerivAt_ext3 (fun i => ?_)
    fin_cases i
    · exact (((hi 2).const_mul (h 1)).sub ((hi 1).const_mul (h 2))).congr_deriv (by simp; ring)
    · exact (((hi 0).const_mul (h 2)).sub ((hi 2).const_mul (h 0))).congr_deriv (by simp; ring)
    · exact (((hi 1).const_mul (h 0)).sub ((hi 0).const_mul (h 1))).congr_deriv (by simp; ring)
  have a := (hl.smul hc).add (deriv_rot h hh q w dT0)
  refine a.congr_deriv ?_
  unfold varT
  rw [cross_add, cross_smul]
  module

theorem deriv_varM {q dq : ℝ} (hq : q ≠ 0) {h T0 dM0 dT0 : R3} (hh : dot h h = 1) (w : ℝ) :
    HasDerivAt (varM q dq h T0 dM0 dT0) (varT q dq h T0 dT0 w) w := by
  have a := ((((hasDerivAt_id w).smul (deriv_rot h hh q w T0)).sub ((deriv_rotInt h q w T0).const_smul (1 / q))).const_smul
    (dq / q)).add ((deriv_rotInt h q w dT0).const_smul (1 / q))
  refine (a.const_add dM0).congr_deriv ?_
  unfold varT
  have e : (1 / q) * q = 1 := by field_simp
  have e' : (dq / q) * q = dq := by field_simp
  simp only [smul_sub, smul_add, smul_smul, id, one_smul, e]
  rw [show dq / q * (w * q) = dq * w by rw [mul_comm w q, ← mul_assoc, e']]
  module

theorem varT_zero (q dq : ℝ) (h T0 dT0 : R3) : varT q dq h T0 dT0 0 = dT0 := by simp [varT, rot_zero]
theorem varM_zero (q dq : ℝ) (h T0 dM0 dT0 : R3) : varM q dq h T0 dM0 dT0 0 = dM0 := by simp [varM, rotInt_zero]

theorem variation_exists {q dq : ℝ} (hq : q ≠ 0) {h T0 : R3} (hh : dot h h = 1) (dM0 dT0 : R3) :
    IsVariation q dq h (fun w => rot h (q * w) T0) dM0 dT0 (varM q dq h T0 dM0 dT0) (varT q dq h T0 dT0) :=
  ⟨varM_zero .., varT_zero .., fun w => deriv_varM hq hh w, fun w => deriv_varT hh w⟩

theorem variation_unique {q dq : ℝ} (hq : q ≠ 0) {h T0 dM0 dT0 : R3} (hh : dot h h = 1) {T dM dT : ℝ → R3}
    (hT : IsDirection q h T0 T) (hV : IsVariation q dq h T dM0 dT0 dM dT) (w : ℝ) :
    dM w = varM q dq h T0 dM0 dT0 w ∧ dT w = varT q dq h T0 dT0 w := by
  have hTT : ∀ w, dT w = varT q dq h T0 dT0 w := by
    intro w
    have := zero_of_homogeneous (q := q) (h := h) (D := fun w => dT w - varT q dq h T0 dT0 w)
      (by simp [hV.startT, varT_zero])
      (fun w => by
        have a := (hV.derivT w).sub (deriv_varT (q := q) (dq := dq) (T0 := T0) (dT0 := dT0) hh w)
        refine a.congr_deriv ?_
        rw [direction_unique hh hT, cross_sub, smul_sub]
        module) w
    exact sub_eq_zero.mp this
  refine ⟨?_, hTT w⟩
  have hd : ∀ i w, HasDerivAt (fun w => dM w i - varM q dq h T0 dM0 dT0 w i) 0 w := by
    intro i w
    have a := (hasDerivAt_pi.mp (hV.derivM w) i).sub (hasDerivAt_pi.mp (deriv_varM (dM0 := dM0) (dq := dq) (T0 := T0) (dT0 := dT0) hq hh w) i)
    rw [hTT w, sub_self] at a
    exact a
  funext i
  have := const_of_deriv_zero (hd i) w 0
  simp only [hV.startM, varM_zero, sub_self] at this
  linarith

/-! frame -/

theorem cosDip_sq (T : R3) : cosDip T * cosDip T = T 0 * T 0 + T 1 * T 1 :=
  Real.mul_self_sqrt (add_nonneg (mul_self_nonneg _) (mul_self_nonneg _))

theorem frameU_dot_T (T : R3) : dot (frameU T) T = 0 := by
  simp [dot, frameU]; ring

theorem frameV_dot_T (T : R3) : dot (frameV T) T = 0 := by
  simp only [frameV, dot, cross_0, cross_1, cross_2]; ring

theorem frameU_unit {T : R3} (h : cosDip T ≠ 0) : dot (frameU T) (frameU T) = 1 := by
  simp [dot, frameU]
  rw [div_mul_div_comm, div_mul_div_comm, ← add_div, div_eq_iff (mul_ne_zero h h), cosDip_sq]; ring

/-- V·(h x T) = -h·U -/
theorem frameV_dot_hT (h : R3) {T : R3} (hT : dot T T = 1) : dot (frameV T) (cross h T) = -dot h (frameU T) := by
  have e := frameU_dot_T T
  simp only [frameV, dot, cross_0, cross_1, cross_2] at *
  linear_combination (-(h 0 * frameU T 0 + h 1 * frameU T 1 + h 2 * frameU T 2)) * hT +
    (h 0 * T 0 + h 1 * T 1 + h 2 * T 2) * e

/-- U·(h x T) = h·V -/
theorem frameU_dot_hT (h T : R3) : dot (frameU T) (cross h T) = dot h (frameV T) := by
  simp only [frameV, dot, cross_0, cross_1, cross_2]; ring

theorem dot_h_rot (h : R3) (hh : dot h h = 1) (θ : ℝ) (v : R3) : dot h (rot h θ v) = dot h v := by
  unfold rot
  rw [dot_add_right, dot_add_right, dot_smul_right, dot_smul_right, dot_smul_right, dot_cross_self', hh]; ring

theorem rot_norm (h : R3) (hh : dot h h = 1) (θ : ℝ) (v : R3) : dot (rot h θ v) (rot h θ v) = dot v v := by
  have hc : ∀ w, HasDerivAt (fun w => dot (rot h (1 * w) v) (rot h (1 * w) v)) 0 w := by
    intro w
    have hi := hasDerivAt_pi.mp (deriv_rot h hh 1 w v)
    have a := (((hi 0).mul (hi 0)).add ((hi 1).mul (hi 1))).add ((hi 2).mul (hi 2))
    refine (a.congr_deriv ?_)
    simp only [Pi.smul_apply, smul_eq_mul, cross_0, cross_1, cross_2]; ring
  have := const_of_deriv_zero hc θ 0
  simpa only [one_mul, mul_zero, rot_zero] using this

end Verif.Spec
