import Verif.Lemmas.Propagation
import Mathlib.Analysis.Calculus.Deriv.Shift

/-!
# C42-C45: propagation Jacobians
-/

noncomputable section

namespace Verif

open Dbl Matrix Spec

theorem dot_rot (a h : R3) (θ : ℝ) (v : R3) :
    dot a (rot h θ v) = Real.cos θ * dot a v + Real.sin θ * dot a (cross h v) + (1 - Real.cos θ) * dot h v * dot a h := by
  unfold rot; rw [dot_add_right, dot_add_right, dot_smul_right, dot_smul_right, dot_smul_right]

theorem dot_rotInt (a h : R3) (θ : ℝ) (v : R3) :
    dot a (rotInt h θ v) = (θ - Real.sin θ) * dot h v * dot a h + Real.sin θ * dot a v + (1 - Real.cos θ) * dot a (cross h v) := by
  unfold rotInt; rw [dot_add_right, dot_add_right, dot_smul_right, dot_smul_right, dot_smul_right]

theorem rot_add_smul (h : R3) (θ : ℝ) (v u : R3) (a b : ℝ) : rot h θ (a • v + b • u) = a • rot h θ v + b • rot h θ u := by
  unfold rot; rw [cross_add, cross_smul, cross_smul, dot_add_right, dot_smul_right, dot_smul_right]; module

theorem rotInt_add_smul (h : R3) (θ : ℝ) (v u : R3) (a b : ℝ) :
    rotInt h θ (a • v + b • u) = a • rotInt h θ v + b • rotInt h θ u := by
  unfold rotInt; rw [cross_add, cross_smul, cross_smul, dot_add_right, dot_smul_right, dot_smul_right]; module

theorem dot_dx (a h T0 c0 : R3) (g t s c q : ℝ) :
    dot a (fun i => -(g * t * h i + s * T0 i + c * c0 i) / q) = -(g * t * dot a h + s * dot a T0 + c * dot a c0) / q := by
  unfold dot; ring

/-- the rows of the matrix, applied to a correction -/
theorem jacR_apply {A : Matrix (Fin 5) (Fin 5) ℝ} (hA : ∀ j, j ≠ 0 → A 0 j = 0) {K qop w : ℝ} (hK : K ≠ 0) (hq : qop ≠ 0)
    {h T0 : R3} (hh : dot h h = 1) (hT : dot T0 T0 = 1) (c : Fin 5 → ℝ)
    (h1 : cosDip (rot h (K * qop * w) T0) ≠ 0) :
    jacR A (K * qop) K qop (K * qop * w) 0 h T0 (rot h (K * qop * w) T0) *ᵥ c =
      toCurvilinear (K * qop) h (rot h (K * qop * w) T0) (c 0)
        (varM (K * qop) (K * c 0) h T0 (toM T0 c) (toT T0 c) w) (varT (K * qop) (K * c 0) h T0 (toT T0 c) w) := by
  have hTT : dot (rot h (K * qop * w) T0) (rot h (K * qop * w) T0) = 1 := (rot_norm h hh _ T0).trans hT
  have hg : dot h (rot h (K * qop * w) T0) = dot h T0 := dot_h_rot h hh _ T0
  unfold varM varT toM toT
  rw [rot_add_smul, rotInt_add_smul]
  have hR := fun a v => dot_rot a h (K * qop * w) v
  have hS := fun a v => dot_rotInt a h (K * qop * w) v
  generalize hθ : K * qop * w = θ at *
  generalize hTe : rot h θ T0 = T at *
  have hUT := frameU_dot_T T
  have hVT := frameV_dot_T T
  have hVh := frameV_dot_hT h hTT
  have hUh := frameU_dot_hT h T
  have r1 := dot_cross_rot T h (frameU T0)
  have r2 := dot_cross_rot T h (frameV T0)
  funext i
  fin_cases i
  · simp [jacR, Matrix.mulVec, dotProduct, Fin.sum_univ_five, toCurvilinear, hA]
  all_goals
    simp only [jacR, Matrix.mulVec, dotProduct, Fin.sum_univ_five, toCurvilinear, dot_dx]
    simp [dot_add_right, dot_smul_right, dot_sub_right, hR, hS, hUT, hVT, hVh, hUh, hTT, hg, r1, r2,
      dot_comm T h, dot_comm (frameU T) h, dot_comm (frameV T) h, dot_comm (frameU T0) (frameU T), dot_comm (frameV T0) (frameU T),
      dot_comm (cross h (frameU T0)) (frameU T), dot_comm (cross h (frameV T0)) (frameU T), dot_comm (frameU T0) (frameV T),
      dot_comm (frameV T0) (frameV T), dot_comm (cross h (frameU T0)) (frameV T), dot_comm (cross h (frameV T0)) (frameV T),
      dot_comm (cross h T) (frameU T0), dot_comm (cross h T) (frameV T0)]
    field_simp
    ring

/-- rate of turn of the direction per path length, divided by charge/momentum -/
def turnRate (b : R3) : ℝ := -Real.sqrt (dot b b) * kBr

/-- unit vector along the field -/
def fieldDir (b : R3) : R3 := (1 / Real.sqrt (dot b b)) • b

theorem field_pos {b : R3} (hb : b ≠ 0) : 0 < Real.sqrt (dot b b) := by
  apply Real.sqrt_pos.mpr
  refine lt_of_le_of_ne ?_ (fun h => hb (dot_self_eq_zero h.symm))
  unfold dot
  exact add_nonneg (add_nonneg (mul_self_nonneg _) (mul_self_nonneg _)) (mul_self_nonneg _)

theorem fieldDir_unit {b : R3} (hb : b ≠ 0) : dot (fieldDir b) (fieldDir b) = 1 := by
  have h := (field_pos hb).ne'
  unfold fieldDir
  rw [dot_smul_right, dot_comm (_ • b) b, dot_smul_right]
  have e : Real.sqrt (dot b b) * Real.sqrt (dot b b) = dot b b := by
    apply Real.mul_self_sqrt
    unfold dot
    exact add_nonneg (add_nonneg (mul_self_nonneg _) (mul_self_nonneg _)) (mul_self_nonneg _)
  rw [← mul_assoc, div_mul_div_comm, one_mul, e, div_mul_cancel₀]
  intro h0
  rw [h0, Real.sqrt_zero] at h
  exact h rfl

theorem turnRate_ne {b : R3} (hb : b ≠ 0) : turnRate b ≠ 0 :=
  mul_ne_zero (neg_ne_zero.mpr (field_pos hb).ne') kBr_pos.ne'

theorem zeroM_re : M5.zero = M5.re 0 := by
  funext i j; simp [M5.zero, M5.re, zero_eq]

/-- finite Jacobian between two directions -/
theorem analyticalJacobian_motion {w qop loss : ℝ} {T0 T b : R3} (hb : b ≠ 0) (hqop : qop ≠ 0) (h0 : cosDip T0 ≠ 0)
    (h1 : cosDip T ≠ 0) :
    analyticalJacobian M5.zero (fin w) (fin qop) (V3.of T0) (V3.of T) (V3.of b) (fin loss) =
      M5.re (jacR 0 (turnRate b * qop) (turnRate b) qop (turnRate b * qop * w) loss (fieldDir b) T0 T) := by
  rw [zeroM_re]
  exact analyticalJacobian_re (field_pos hb).ne' hqop h0 h1

/-! ## C42 -/

/-- C42: let T(w) be the direction of motion of a particle with charge/momentum `qop ≠ 0` in the homogeneous field `b ≠ 0`, and
(δM, δT) the change of position and direction caused by the curvilinear correction `c` at the start, according to the linearised
equation of motion.  Then the Jacobian filled into a fresh matrix, applied to `c`, is the curvilinear correction that belongs to
(δM, δT) at the end.  (Start and end direction must not be parallel to z, where the curvilinear frame does not exist.) -/
theorem C42_variational {b T0 : R3} (hb : b ≠ 0) {qop : ℝ} (hqop : qop ≠ 0) (hT0 : dot T0 T0 = 1) (h0 : cosDip T0 ≠ 0)
    {T : ℝ → R3} (hT : IsDirection (turnRate b * qop) (fieldDir b) T0 T) (w : ℝ) (h1 : cosDip (T w) ≠ 0) :
    ∃ J : Matrix (Fin 5) (Fin 5) ℝ,
      analyticalJacobian M5.zero (fin w) (fin qop) (V3.of T0) (V3.of (T w)) (V3.of b) 0 = M5.re J ∧
      ∀ (c : Fin 5 → ℝ) (dM dT : ℝ → R3),
        IsVariation (turnRate b * qop) (turnRate b * c 0) (fieldDir b) T (toM T0 c) (toT T0 c) dM dT →
        J *ᵥ c = toCurvilinear (turnRate b * qop) (fieldDir b) (T w) (c 0) (dM w) (dT w) := by
  rw [zero_eq]
  refine ⟨_, analyticalJacobian_motion hb hqop h0 h1, fun c dM dT hV => ?_⟩
  have hh := fieldDir_unit hb
  obtain ⟨eM, eT⟩ := variation_unique (mul_ne_zero (turnRate_ne hb) hqop) hh hT hV w
  have e := direction_unique hh hT w
  rw [eM, eT, e]
  rw [e] at h1
  exact jacR_apply (fun j _ => Matrix.zero_apply _ _) (turnRate_ne hb) hqop hh hT0 c h1

/-- the motions and variations of C42 exist, for every field, start and correction -/
theorem C42_solutions {b T0 : R3} (hb : b ≠ 0) {qop : ℝ} (hqop : qop ≠ 0) (c : Fin 5 → ℝ) :
    ∃ T dM dT, IsDirection (turnRate b * qop) (fieldDir b) T0 T ∧
      IsVariation (turnRate b * qop) (turnRate b * c 0) (fieldDir b) T (toM T0 c) (toT T0 c) dM dT :=
  ⟨_, _, _, direction_exists _ _ _ (fieldDir_unit hb),
    variation_exists (mul_ne_zero (turnRate_ne hb) hqop) (fieldDir_unit hb) _ _⟩

/-- hypotheses of C42: field along z, start along x, w arbitrary -/
example (qop w : ℝ) : ∃ T : ℝ → R3,
    IsDirection (turnRate ![0, 0, 2] * qop) (fieldDir ![0, 0, 2]) ![1, 0, 0] T ∧ (![0, 0, 2] : R3) ≠ 0 ∧
    cosDip ![1, 0, 0] ≠ 0 ∧ cosDip (T w) ≠ 0 ∧ dot ![1, 0, 0] ![1, 0, 0] = 1 := by
  have hb : (![0, 0, 2] : R3) ≠ 0 := fun h => by simpa using congrFun h 2
  have hf : fieldDir ![0, 0, 2] = ![0, 0, 1] := by
    have : Real.sqrt (dot ![0, 0, 2] ![0, 0, 2]) = 2 := by
      rw [show dot ![0, 0, 2] ![0, 0, 2] = (2 : ℝ) ^ 2 by simp [dot]; norm_num, Real.sqrt_sq (by norm_num)]
    refine ext3 ?_ ?_ ?_ <;> simp [fieldDir, this]
  refine ⟨_, direction_exists _ _ _ (fieldDir_unit hb), hb, by simp [cosDip], ?_, by simp [dot]⟩
  rw [hf]
  have hc : cosDip (rot ![0, 0, 1] (turnRate ![0, 0, 2] * qop * w) ![1, 0, 0]) = 1 := by
    simp only [cosDip, rot]
    generalize turnRate ![0, 0, 2] * qop * w = t
    have := Real.sin_sq_add_cos_sq t
    rw [Real.sqrt_eq_one]
    simp [dot, cross]
    linarith
  rw [hc]; norm_num

/-! ## C43 -/

theorem frameV_unit {T : R3} (hT : dot T T = 1) (h : cosDip T ≠ 0) : dot (frameV T) (frameV T) = 1 := by
  have e := frameU_dot_T T
  have e' := frameU_unit h
  simp only [frameV, dot, cross_0, cross_1, cross_2] at *
  linear_combination hT * (frameU T 0 * frameU T 0 + frameU T 1 * frameU T 1 + frameU T 2 * frameU T 2) + e' -
    (frameU T 0 * T 0 + frameU T 1 * T 1 + frameU T 2 * T 2) * e

theorem frameU_dot_V (T : R3) : dot (frameU T) (frameV T) = 0 := by
  simp only [frameV, dot, cross_0, cross_1, cross_2]; ring

theorem dot_const_zero (a : R3) : (dot a fun _ => 0) = 0 := by simp [dot]

theorem jacR_zero {q qp qop : ℝ} {h T : R3} (hT : dot T T = 1) (h0 : cosDip T ≠ 0) : jacR 0 q qp qop 0 0 h T T = 1 := by
  have a1 := frameU_dot_T T
  have a2 := frameV_dot_T T
  have a3 := frameU_unit h0
  have a4 := frameV_unit hT h0
  have a5 := frameU_dot_V T
  funext i j
  fin_cases i <;> fin_cases j <;>
    simp [jacR, dot_const_zero, a1, a2, a3, a4, a5, dot_comm T (frameU T), dot_comm T (frameV T), dot_comm (frameV T) (frameU T), h0]

/-- C43: over zero length, with equal directions at both ends and no energy loss, the Jacobian is the identity. -/
theorem C43_identity {b T : R3} (hb : b ≠ 0) {qop : ℝ} (hqop : qop ≠ 0) (hT : dot T T = 1) (h0 : cosDip T ≠ 0) :
    analyticalJacobian M5.zero 0 (fin qop) (V3.of T) (V3.of T) (V3.of b) 0 = M5.re (1 : Matrix (Fin 5) (Fin 5) ℝ) := by
  rw [zero_eq, analyticalJacobian_motion hb hqop h0 h0, mul_zero, jacR_zero hT h0]

/-- hypotheses of C43 -/
example : (![1, 2, 3] : R3) ≠ 0 ∧ dot ![3 / 5, 0, 4 / 5] ![3 / 5, 0, 4 / 5] = 1 ∧ cosDip ![3 / 5, 0, 4 / 5] ≠ 0 := by
  refine ⟨fun h => by simpa using congrFun h 0, by simp [dot]; norm_num, ?_⟩
  unfold cosDip
  exact (Real.sqrt_pos.mpr (by simp)).ne'

/-! ## C44 -/

/-- identity plus lever arms: `y_t` per dip angle and `x_t` per azimuth -/
def leverArms (l k : ℝ) : Matrix (Fin 5) (Fin 5) ℝ :=
  !![1, 0, 0, 0, 0; 0, 1, 0, 0, 0; 0, 0, 1, 0, 0; 0, 0, k, 1, 0; 0, l, 0, 0, 1]

theorem straight_model {b T0 T : R3} {qop w : ℝ} (hq : b = 0 ∨ qop = 0) (jac : M5) (loss : Dbl) :
    analyticalJacobian jac (fin w) (fin qop) (V3.of T0) (V3.of T) (V3.of b) loss =
      (jac.set 3 2 (fin (w * cosDip T0))).set 4 1 (fin w) := by
  have h0 : -Real.sqrt (dot b b) * kBr * qop = 0 := by
    rcases hq with h | h
    · rw [h]; simp [dot]
    · rw [h]; simp
  unfold analyticalJacobian
  simp only [convert_eq, ofV_r, fin_neg, fin_mul, zero_eq, fin_eqv, cif_pos h0, sqrt_xy_of]

/-- C44, where it holds: written into a matrix that already is the identity, the Jacobian for zero field or infinite
momentum is the identity plus lever arms.  Missing for C44: a freshly constructed matrix (see `C44_fresh_false`). -/
theorem C44_identity_partial {b T0 T : R3} {qop w : ℝ} (hq : b = 0 ∨ qop = 0) (loss : Dbl) :
    analyticalJacobian (M5.re (1 : Matrix (Fin 5) (Fin 5) ℝ)) (fin w) (fin qop) (V3.of T0) (V3.of T) (V3.of b) loss =
      M5.re (leverArms w (w * cosDip T0)) := by
  rw [straight_model hq]
  funext i j
  fin_cases i <;> fin_cases j <;> simp [M5.set, M5.re, leverArms]

/-- C44, without field: this is what the linearised equation of motion of a straight line gives. -/
theorem C44_variational_partial {T0 : R3} (hT0 : dot T0 T0 = 1) (h0 : cosDip T0 ≠ 0) (h : R3) (c : Fin 5 → ℝ)
    {T dM dT : ℝ → R3} (hT : IsDirection 0 h T0 T) (hV : IsVariation 0 0 h T (toM T0 c) (toT T0 c) dM dT) (w : ℝ) :
    leverArms w (w * cosDip T0) *ᵥ c = toCurvilinear 0 h (T w) (c 0) (dM w) (dT w) := by
  have eT : ∀ w, T w = T0 := by
    intro w
    funext i
    have := const_of_deriv_zero (f := fun w => T w i) (fun w => by simpa using hasDerivAt_pi.mp (hT.deriv w) i) w 0
    simpa [hT.start] using this
  have ed : ∀ w, dT w = toT T0 c := by
    intro w
    funext i
    have := const_of_deriv_zero (f := fun w => dT w i) (fun w => by simpa using hasDerivAt_pi.mp (hV.derivT w) i) w 0
    simpa [hV.startT] using this
  have em : dM w = toM T0 c + w • toT T0 c := by
    funext i
    have := const_of_deriv_zero (f := fun w => dM w i - w * toT T0 c i) (fun w => by
      have a := (hasDerivAt_pi.mp (hV.derivM w) i).sub ((hasDerivAt_id w).mul_const (toT T0 c i))
      rw [ed w] at a
      exact a.congr_deriv (by simp)) w 0
    simp only [hV.startM, zero_mul, sub_zero] at this
    simp only [Pi.add_apply, Pi.smul_apply, smul_eq_mul]
    linarith
  have a1 := frameU_dot_T T0
  have a2 := frameV_dot_T T0
  have a3 := frameU_unit h0
  have a4 := frameV_unit hT0 h0
  have a5 := frameU_dot_V T0
  rw [eT, ed, em]
  funext i
  fin_cases i <;>
    simp [leverArms, Matrix.mulVec, dotProduct, Fin.sum_univ_five, toCurvilinear, toM, toT, dot_add_right, dot_smul_right, a1, a2,
      a3, a4, a5, dot_comm (frameV T0) (frameU T0), h0] <;> ring

/-- C44: the lever-arm matrix is invertible. -/
theorem C44_invertible_partial (l k : ℝ) : (leverArms l k).det = 1 := by
  simp [leverArms, Matrix.det_succ_row_zero, Fin.sum_univ_succ, Fin.succAbove]

/-- C44, simplified propagator: on a matrix that already is the identity and without field it also gives the identity plus
lever arms, but for equal directions at both ends the lever arm of the azimuth lacks the factor cos(dip). -/
theorem C44_simplified_partial {T0 : R3} {qop loss : Dbl} {w : ℝ} :
    simplifiedJacobian (M5.re (1 : Matrix (Fin 5) (Fin 5) ℝ)) (fin w) qop (V3.of T0) (V3.of T0) (V3.of 0) loss =
      M5.re (leverArms w w) := by
  have e : (V3.of T0).z - (V3.of T0).z = fin 0 := by simp [V3.of, V3.re]
  have e2 : (V3.of (0 : R3)).z = fin 0 := rfl
  have e3 : (1 : Dbl) + fin 0 * fin 0 = fin 1 := by simp [one_eq]
  unfold simplifiedJacobian
  simp only [e, e2, e3, sqrt_fin zero_le_one, Real.sqrt_one]
  rw [one_eq, fin_div _ one_ne_zero]
  funext i j
  fin_cases i <;> fin_cases j <;> simp [M5.set, M5.re, leverArms, M5.unit, ofSci_eq]

/-- C44 fails: for zero field both propagators leave a singular matrix behind when given a freshly constructed one, whatever
the directions and the (finite) step length: its first row vanishes. -/
theorem C44_fresh_false (T0 T : R3) (qop w : ℝ) :
    (∃ J : Matrix (Fin 5) (Fin 5) ℝ,
      analyticalJacobian M5.zero (fin w) (fin qop) (V3.of T0) (V3.of T) (V3.of 0) 0 = M5.re J ∧ J.det = 0) ∧
    (∃ J : Matrix (Fin 5) (Fin 5) ℝ,
      simplifiedJacobian M5.zero (fin w) (fin qop) (V3.of T0) (V3.of T) (V3.of 0) 0 = M5.re J ∧ J.det = 0) := by
  constructor
  · refine ⟨!![0, 0, 0, 0, 0; 0, 0, 0, 0, 0; 0, 0, 0, 0, 0; 0, 0, w * cosDip T0, 0, 0; 0, w, 0, 0, 0], ?_, ?_⟩
    · rw [straight_model (Or.inl rfl)]
      funext i j
      fin_cases i <;> fin_cases j <;> simp [M5.set, M5.re, M5.zero, zero_eq]
    · exact Matrix.det_eq_zero_of_row_eq_zero 0 (fun j => by fin_cases j <;> rfl)
  · have e : (V3.of T0).z - (V3.of T).z = fin (T0 2 - T 2) := rfl
    have e2 : (V3.of (0 : R3)).z = fin 0 := rfl
    have hp : 0 < 1 + (T0 2 - T 2) * (T0 2 - T 2) := add_pos_of_pos_of_nonneg one_pos (mul_self_nonneg _)
    have e4 : (1 : Dbl) / Dbl.sqrt (1 + fin (T0 2 - T 2) * fin (T0 2 - T 2)) =
        fin (1 / Real.sqrt (1 + (T0 2 - T 2) * (T0 2 - T 2))) := by
      rw [one_eq, fin_mul, fin_add, sqrt_fin hp.le, fin_div _ (Real.sqrt_pos.mpr hp).ne']
    unfold simplifiedJacobian
    simp only [e, e2, e4]
    generalize 1 / Real.sqrt (1 + (T0 2 - T 2) * (T0 2 - T 2)) = k
    refine ⟨!![0, 0, 0, 0, 0; 0, 0, 0, 0, 0; 0, 0, 0, 0, 0; 0, 0, w * k, 0, 0; 0, w, 0, 0, 0], ?_, ?_⟩
    · funext i j
      fin_cases i <;> fin_cases j <;> simp [M5.set, M5.re, M5.zero, zero_eq, M5.unit, ofSci_eq]
    · exact Matrix.det_eq_zero_of_row_eq_zero 0 (fun j => by fin_cases j <;> rfl)

/-! ## C45 -/

/-- C45: for curved tracks two values of the energy-loss argument give matrices that differ in the first entry only, and there
by the difference of the arguments.  All vectors, the step and the matrix passed in may hold any values (also infinities and
NaN); only the branch for curved tracks has to be taken. -/
theorem C45_energyLoss (jac : M5) (dw qop : Dbl) (t0 t1 b : V3) (l l' : ℝ)
    (hq : ¬ Dbl.eqv (-b.r * convertBr2P_cm * qop) 0) :
    (∀ i j, (i, j) ≠ (0, 0) → analyticalJacobian jac dw qop t0 t1 b (fin l) i j = analyticalJacobian jac dw qop t0 t1 b (fin l') i j) ∧
    ∃ a a' : ℝ, analyticalJacobian jac dw qop t0 t1 b (fin l) 0 0 = fin a ∧
      analyticalJacobian jac dw qop t0 t1 b (fin l') 0 0 = fin a' ∧ a - a' = l - l' := by
  unfold analyticalJacobian
  simp only [cif_neg hq]
  constructor
  · intro i j h
    fin_cases i <;> fin_cases j <;> first | exact absurd rfl h | simp [M5.set]
  · refine ⟨1 + l, 1 + l', ?_, ?_, by ring⟩ <;> simp [M5.set, one_eq]

/-- C45: on straight tracks the argument is ignored. -/
theorem C45_straight (jac : M5) (dw qop : Dbl) (t0 t1 b : V3) (l l' : Dbl)
    (hq : Dbl.eqv (-b.r * convertBr2P_cm * qop) 0) :
    analyticalJacobian jac dw qop t0 t1 b l = analyticalJacobian jac dw qop t0 t1 b l' := by
  unfold analyticalJacobian
  simp only [cif_pos hq]

/-- C45: the simplified propagator ignores the argument altogether. -/
theorem C45_simplified (jac : M5) (dw qop : Dbl) (t0 t1 b : V3) (l l' : Dbl) :
    simplifiedJacobian jac dw qop t0 t1 b l = simplifiedJacobian jac dw qop t0 t1 b l' := rfl

/-- hypothesis of C45 -/
example : ¬ Dbl.eqv (-(V3.re 0 0 2).r * convertBr2P_cm * fin 1) 0 := by
  have : (V3.re 0 0 2).r = fin 2 := by
    simp only [V3.r, V3.re, fin_mul, fin_add]
    rw [show (0 * 0 + 0 * 0 + 2 * 2 : ℝ) = 2 ^ 2 by norm_num, sqrt_fin (by norm_num), Real.sqrt_sq (by norm_num)]
  rw [this, convert_eq, zero_eq, fin_neg, fin_mul, fin_mul, fin_eqv]
  have := kBr_pos
  intro h
  linarith

/-! ## C69, C70: propagation in steps, and back -/

/-- a shift along the track solves the variational equation -/
theorem variation_shift {q dq δ w1 : ℝ} {h : R3} {T dM dT : ℝ → R3} {T0 dM0 dT0 : R3} (hT : IsDirection q h T0 T)
    (hV : IsVariation q dq h T dM0 dT0 dM dT) :
    IsVariation q dq h (fun w => T (w1 + w)) (dM w1 + δ • T w1) (dT w1 + (δ * q) • cross h (T w1))
      (fun w => dM (w1 + w) + δ • T (w1 + w)) (fun w => dT (w1 + w) + (δ * q) • cross h (T (w1 + w))) := by
  have hTw : ∀ w, HasDerivAt (fun w => T (w1 + w)) (q • cross h (T (w1 + w))) w := fun w => (hT.deriv (w1 + w)).comp_const_add w1 w
  have hc : ∀ w, HasDerivAt (fun w => cross h (T (w1 + w))) (q • cross h (cross h (T (w1 + w)))) w := by
    intro w
    have hi := hasDerivAt_pi.mp (hTw w)
    refine hasDerivAt_ext3 (fun i => ?_)
    fin_cases i
    · exact (((hi 2).const_mul (h 1)).sub ((hi 1).const_mul (h 2))).congr_deriv (by simp; ring)
    · exact (((hi 0).const_mul (h 2)).sub ((hi 2).const_mul (h 0))).congr_deriv (by simp; ring)
    · exact (((hi 1).const_mul (h 0)).sub ((hi 0).const_mul (h 1))).congr_deriv (by simp; ring)
  refine ⟨by simp, by simp, fun w => ?_, fun w => ?_⟩
  · have a : HasDerivAt (fun w => dM (w1 + w)) (dT (w1 + w)) w := (hV.derivM (w1 + w)).comp_const_add w1 w
    refine (a.add ((hTw w).const_smul δ)).congr_deriv ?_
    rw [smul_smul]
  · have a : HasDerivAt (fun w => dT (w1 + w)) (dq • cross h (T (w1 + w)) + q • cross h (dT (w1 + w))) w := 
      (hV.derivT (w1 + w)).comp_const_add w1 w
    refine (a.add ((hc w).const_smul (δ * q))).congr_deriv ?_
    rw [cross_add, cross_smul]
    module

theorem direction_shift {q w1 : ℝ} {h T0 : R3} {T : ℝ → R3} (hT : IsDirection q h T0 T) :
    IsDirection q h (T w1) (fun w => T (w1 + w)) := by
  exact ⟨by simp, fun w => (hT.deriv (w1 + w)).comp_const_add w1 w⟩

/-- components in the frame of T -/
theorem frame_expand {T : R3} (hT : dot T T = 1) (h : cosDip T ≠ 0) (v : R3) (hv : dot T v = 0) :
    dot (frameU T) v • frameU T + dot (frameV T) v • frameV T = v := by
  have hc := cosDip_sq T
  have e0 : frameU T 0 = -T 1 / cosDip T := rfl
  have e1 : frameU T 1 = T 0 / cosDip T := rfl
  have e2 : frameU T 2 = 0 := rfl
  have hU := frameU_unit h
  have hUT := frameU_dot_T T
  -- Gram identity: the three vectors form an orthonormal basis
  have hV := frameV_unit hT h
  have hUV := frameU_dot_V T
  have hVT := frameV_dot_T T
  let w := v - (dot (frameU T) v • frameU T + dot (frameV T) v • frameV T)
  have w1 : dot (frameU T) w = 0 := by
    simp only [w, dot_sub_right, dot_add_right, dot_smul_right, hU, hUV]; ring
  have w2 : dot (frameV T) w = 0 := by
    simp only [w, dot_sub_right, dot_add_right, dot_smul_right, hV, dot_comm (frameV T) (frameU T), hUV]; ring
  have w3 : dot T w = 0 := by
    simp only [w, dot_sub_right, dot_add_right, dot_smul_right, hv, dot_comm T (frameU T), dot_comm T (frameV T), hUT, hVT]; ring
  have hw : w = 0 := by
    have hk := h
    generalize cosDip T = k at *
    unfold dot at w1 w3 w2 hT
    simp only [frameV, cross_0, cross_1, cross_2, e0, e1, e2] at w1 w2
    have hk2 : k * k ≠ 0 := mul_ne_zero hk hk
    have f1 : T 0 * w 1 = T 1 * w 0 := by field_simp at w1; linarith
    have f2 : -(T 0 * T 2) * w 0 - T 1 * T 2 * w 1 + k * k * w 2 = 0 := by rw [hc]; field_simp at w2; linarith
    have f3 : w 2 = 0 := by
      have : w 2 * (T 0 * T 0 + T 1 * T 1 + T 2 * T 2) = 0 := by rw [hc] at f2; linear_combination f2 + T 2 * w3
      rw [hT, mul_one] at this; exact this
    rw [f3, mul_zero, add_zero] at w3
    have g0 : k * k * w 0 = 0 := by rw [hc]; linear_combination T 0 * w3 - T 1 * f1
    have g1 : k * k * w 1 = 0 := by rw [hc]; linear_combination T 1 * w3 + T 0 * f1
    exact ext3 ((mul_eq_zero.mp g0).resolve_left hk2) ((mul_eq_zero.mp g1).resolve_left hk2) f3
  exact (sub_eq_zero.mp hw).symm

theorem direction_norm {q : ℝ} {h T0 : R3} {T : ℝ → R3} (hh : dot h h = 1) (hT : IsDirection q h T0 T) (hT0 : dot T0 T0 = 1)
    (w : ℝ) : dot (T w) (T w) = 1 := by
  rw [direction_unique hh hT, rot_norm h hh, hT0]

/-- the change of direction stays across the direction -/
theorem variation_across {q dq : ℝ} {h T0 dM0 dT0 : R3} {T dM dT : ℝ → R3} (hT : IsDirection q h T0 T)
    (hV : IsVariation q dq h T dM0 dT0 dM dT) (h0 : dot T0 dT0 = 0) (w : ℝ) : dot (T w) (dT w) = 0 := by
  have hc : ∀ w, HasDerivAt (fun w => dot (T w) (dT w)) 0 w := by
    intro w
    have hi := hasDerivAt_pi.mp (hT.deriv w)
    have hj := hasDerivAt_pi.mp (hV.derivT w)
    have a := (((hi 0).mul (hj 0)).add ((hi 1).mul (hj 1))).add ((hi 2).mul (hj 2))
    refine (a.congr_deriv ?_)
    simp only [Pi.add_apply, Pi.smul_apply, smul_eq_mul, cross_0, cross_1, cross_2]; ring
  have := const_of_deriv_zero hc w 0
  simp only [hT.start, hV.startT, h0] at this
  exact this

theorem dot_toT (T : R3) (c : Fin 5 → ℝ) : dot T (toT T c) = 0 := by
  unfold toT
  rw [dot_add_right, dot_smul_right, dot_smul_right, dot_comm, frameV_dot_T, dot_comm, frameU_dot_T]; ring

/-- the correction read off at T, as displacement and change of direction -/
theorem toM_toCurvilinear {q k : ℝ} {h T dM dT : R3} (hT : dot T T = 1) (hc : cosDip T ≠ 0) :
    toM T (toCurvilinear q h T k dM dT) = dM + (-dot T dM) • T := by
  refine frame_expand hT hc _ ?_
  rw [dot_add_right, dot_smul_right, hT]; ring

theorem toT_toCurvilinear {q k : ℝ} {h T dM dT : R3} (hT : dot T T = 1) (hc : cosDip T ≠ 0) (hd : dot T dT = 0) :
    toT T (toCurvilinear q h T k dM dT) = dT + (-dot T dM * q) • cross h T := by
  have := frame_expand hT hc (dT + (-dot T dM * q) • cross h T)
    (by rw [dot_add_right, dot_smul_right, hd, dot_cross_self]; ring)
  rw [← this, add_comm]
  simp only [toT, toCurvilinear]
  simp only [Matrix.cons_val, div_mul_cancel₀ _ hc]

theorem toCurvilinear_shift {q k δ : ℝ} {h T dM dT : R3} (hT : dot T T = 1) :
    toCurvilinear q h T k (dM + δ • T) (dT + (δ * q) • cross h T) = toCurvilinear q h T k dM dT := by
  unfold toCurvilinear
  have e : -dot T (dM + δ • T) = -dot T dM - δ := by rw [dot_add_right, dot_smul_right, hT]; ring
  simp only [e]
  rw [show dM + δ • T + (-dot T dM - δ) • T = dM + (-dot T dM) • T by module,
    show dT + (δ * q) • cross h T + ((-dot T dM - δ) * q) • cross h T = dT + (-dot T dM * q) • cross h T by module]

/-- C69: propagating over `w1` and then over `w2` is propagating over `w1 + w2`: the Jacobians multiply. -/
theorem C69_steps {b T0 : R3} (hb : b ≠ 0) {qop : ℝ} (hqop : qop ≠ 0) (hT0 : dot T0 T0 = 1) (h0 : cosDip T0 ≠ 0)
    {T : ℝ → R3} (hT : IsDirection (turnRate b * qop) (fieldDir b) T0 T) (w1 w2 : ℝ) (h1 : cosDip (T w1) ≠ 0)
    (h2 : cosDip (T (w1 + w2)) ≠ 0) :
    M5.mul (analyticalJacobian M5.zero (fin w2) (fin qop) (V3.of (T w1)) (V3.of (T (w1 + w2))) (V3.of b) 0)
        (analyticalJacobian M5.zero (fin w1) (fin qop) (V3.of T0) (V3.of (T w1)) (V3.of b) 0) =
      analyticalJacobian M5.zero (fin (w1 + w2)) (fin qop) (V3.of T0) (V3.of (T (w1 + w2))) (V3.of b) 0 := by
  have hh := fieldDir_unit hb
  have hn := direction_norm hh hT hT0
  obtain ⟨J1, e1, p1⟩ := C42_variational hb hqop hT0 h0 hT w1 h1
  obtain ⟨J2, e2, p2⟩ := C42_variational hb hqop (hn w1) h1 (direction_shift (w1 := w1) hT) w2 h2
  obtain ⟨J, e, p⟩ := C42_variational hb hqop hT0 h0 hT (w1 + w2) h2
  rw [e1, e2, e, M5.mul_re]
  congr 1
  refine Matrix.ext_of_mulVec_single fun i => ?_
  generalize (Pi.single i 1 : Fin 5 → ℝ) = c
  obtain ⟨dM, dT, hV⟩ : ∃ dM dT, IsVariation (turnRate b * qop) (turnRate b * c 0) (fieldDir b) T (toM T0 c) (toT T0 c) dM dT := by
    have hTe : T = fun w => rot (fieldDir b) (turnRate b * qop * w) T0 := funext fun w => direction_unique hh hT w
    rw [hTe]
    exact ⟨_, _, variation_exists (mul_ne_zero (turnRate_ne hb) hqop) hh _ _⟩
  rw [p c dM dT hV, ← Matrix.mulVec_mulVec, p1 c dM dT hV]
  have hs := variation_shift (δ := -dot (T w1) (dM w1)) (w1 := w1) hT hV
  have ha := variation_across hT hV (dot_toT T0 c) w1
  rw [← toM_toCurvilinear (q := turnRate b * qop) (k := c 0) (h := fieldDir b) (dT := dT w1) (hn w1) h1,
    ← toT_toCurvilinear (q := turnRate b * qop) (k := c 0) (h := fieldDir b) (hn w1) h1 ha] at hs
  rw [p2 _ _ _ hs, toCurvilinear_shift (hn _)]
  rfl

/-- C70: propagating by `w` and then back by `-w` gives the identity, in either order; so the Jacobian is invertible. -/
theorem C70_back {b T0 : R3} (hb : b ≠ 0) {qop : ℝ} (hqop : qop ≠ 0) (hT0 : dot T0 T0 = 1) (h0 : cosDip T0 ≠ 0)
    {T : ℝ → R3} (hT : IsDirection (turnRate b * qop) (fieldDir b) T0 T) (w : ℝ) (h1 : cosDip (T w) ≠ 0) :
    M5.mul (analyticalJacobian M5.zero (fin (-w)) (fin qop) (V3.of (T w)) (V3.of T0) (V3.of b) 0)
        (analyticalJacobian M5.zero (fin w) (fin qop) (V3.of T0) (V3.of (T w)) (V3.of b) 0) =
      M5.re (1 : Matrix (Fin 5) (Fin 5) ℝ) ∧
    M5.mul (analyticalJacobian M5.zero (fin w) (fin qop) (V3.of T0) (V3.of (T w)) (V3.of b) 0)
        (analyticalJacobian M5.zero (fin (-w)) (fin qop) (V3.of (T w)) (V3.of T0) (V3.of b) 0) =
      M5.re (1 : Matrix (Fin 5) (Fin 5) ℝ) := by
  have hn := direction_norm (fieldDir_unit hb) hT hT0
  have a := C69_steps hb hqop hT0 h0 hT w (-w) h1 (by rw [add_neg_cancel, hT.start]; exact h0)
  rw [add_neg_cancel, hT.start, ← zero_eq, C43_identity hb hqop hT0 h0] at a
  refine ⟨a, ?_⟩
  obtain ⟨J1, e1, -⟩ := C42_variational hb hqop hT0 h0 hT w h1
  have h2 : cosDip (T (w + -w)) ≠ 0 := by rw [add_neg_cancel, hT.start]; exact h0
  obtain ⟨J2, e2, -⟩ := C42_variational hb hqop (hn w) h1 (direction_shift (w1 := w) hT) (-w) h2
  simp only [add_neg_cancel, hT.start] at e2
  rw [e1, e2, M5.mul_re] at a ⊢
  rw [mul_eq_one_comm.mp (M5.re_injective a)]

/-! ## C71: the propagator moves along the helix -/

/-- direction of the helix, over the reals -/
def helixDir (om tl ph s : ℝ) : R3 :=
  ![Real.cos (ph - om * s) * Real.cos (Real.arctan tl), Real.sin (ph - om * s) * Real.cos (Real.arctan tl),
    Real.sin (Real.arctan tl)]

theorem helixDir_model (om tl ph d z s : ℝ) : calculateTangent (fin s) (hpR om tl ph d z) = V3.of (helixDir om tl ph s) :=
  calculateTangent_re

theorem helixDir_unit (om tl ph s : ℝ) : dot (helixDir om tl ph s) (helixDir om tl ph s) = 1 := by
  have h1 := Real.sin_sq_add_cos_sq (ph - om * s)
  have h2 := Real.sin_sq_add_cos_sq (Real.arctan tl)
  simp only [dot, helixDir, Matrix.cons_val]
  linear_combination Real.cos (Real.arctan tl) ^ 2 * h1 + h2

theorem helixDir_cosDip (om tl ph s : ℝ) : cosDip (helixDir om tl ph s) = Real.cos (Real.arctan tl) := by
  unfold cosDip
  have h1 := Real.sin_sq_add_cos_sq (ph - om * s)
  rw [show helixDir om tl ph s 0 * helixDir om tl ph s 0 + helixDir om tl ph s 1 * helixDir om tl ph s 1 =
    Real.cos (Real.arctan tl) ^ 2 by
      simp only [helixDir, Matrix.cons_val]; linear_combination Real.cos (Real.arctan tl) ^ 2 * h1]
  exact Real.sqrt_sq (Real.cos_arctan_pos tl).le

/-- C71: in a field along z, the direction of the helix as function of the 3D path length `w` (arc length `s = s0 + w cos λ`) obeys
the equation of motion that the propagation Jacobian linearises, with the charge/momentum computed by `calculateQoverP`. -/
theorem C71_helix_motion {om tl ph d z bz : ℝ} (hbz : bz ≠ 0) (s0 : ℝ) :
    ∃ qop : ℝ, calculateQoverP (hpR om tl ph d z) (fin bz) = fin qop ∧
      IsDirection (turnRate ![0, 0, bz] * qop) (fieldDir ![0, 0, bz]) (helixDir om tl ph s0)
        (fun w => helixDir om tl ph (s0 + w * Real.cos (Real.arctan tl))) := by
  refine ⟨_, qoverP_re hbz, by simp, fun w => ?_⟩
  have hn : Real.sqrt (dot ![0, 0, bz] ![0, 0, bz]) = |bz| := by
    rw [show dot ![0, 0, bz] ![0, 0, bz] = bz ^ 2 by simp [dot]; ring, Real.sqrt_sq_eq_abs]
  have ha := abs_pos.mpr hbz
  have hk := kBr_pos.ne'
  have hq : (turnRate ![0, 0, bz] * (Real.cos (Real.arctan tl) * om / (bz * kBr))) • fieldDir ![0, 0, bz] =
      ![0, 0, -(Real.cos (Real.arctan tl) * om)] := by
    unfold turnRate fieldDir
    rw [hn]
    refine ext3 ?_ ?_ ?_ <;> simp
    generalize |bz| = a at *
    field_simp
  have hc : ∀ (k : ℝ) (a v : R3), k • cross a v = cross (k • a) v := by
    intro k a v
    refine ext3 ?_ ?_ ?_ <;> simp only [Pi.smul_apply, smul_eq_mul, cross_0, cross_1, cross_2] <;> ring
  rw [hc, hq]
  generalize Real.cos (Real.arctan tl) = c at *
  have hl : HasDerivAt (fun w : ℝ => ph - om * (s0 + w * c)) (-(om * c)) w := by
    have := ((((hasDerivAt_id w).mul_const c).const_add s0).const_mul om).const_sub ph
    exact this.congr_deriv (by ring)
  refine hasDerivAt_ext3 fun i => ?_
  fin_cases i
  · exact (((Real.hasDerivAt_cos _).comp w hl).mul_const (Real.cos (Real.arctan tl))).congr_deriv (by simp [helixDir, cross]; ring)
  · exact (((Real.hasDerivAt_sin _).comp w hl).mul_const (Real.cos (Real.arctan tl))).congr_deriv (by simp [helixDir, cross]; ring)
  · exact (hasDerivAt_const w (Real.sin (Real.arctan tl))).congr_deriv (by simp [cross])

/-- C71, with C42: the Jacobian between two arc lengths of a helix, called with the tangents of the helix and its
charge/momentum, transports curvilinear corrections as the linearised equation of motion does. -/
theorem C71_helix_jacobian {om tl ph d z bz : ℝ} (hom : om ≠ 0) (hbz : bz ≠ 0) (s0 s1 : ℝ) :
    ∃ (qop : ℝ) (J : Matrix (Fin 5) (Fin 5) ℝ), calculateQoverP (hpR om tl ph d z) (fin bz) = fin qop ∧
      analyticalJacobian M5.zero (fin ((s1 - s0) / Real.cos (Real.arctan tl))) (calculateQoverP (hpR om tl ph d z) (fin bz))
        (calculateTangent (fin s0) (hpR om tl ph d z)) (calculateTangent (fin s1) (hpR om tl ph d z)) (V3.re 0 0 bz) 0 = M5.re J ∧
      ∀ (c : Fin 5 → ℝ) (dM dT : ℝ → R3),
        IsVariation (turnRate ![0, 0, bz] * qop) (turnRate ![0, 0, bz] * c 0) (fieldDir ![0, 0, bz])
          (fun w => helixDir om tl ph (s0 + w * Real.cos (Real.arctan tl))) (toM (helixDir om tl ph s0) c)
          (toT (helixDir om tl ph s0) c) dM dT →
        J *ᵥ c = toCurvilinear (turnRate ![0, 0, bz] * qop) (fieldDir ![0, 0, bz]) (helixDir om tl ph s1) (c 0)
          (dM ((s1 - s0) / Real.cos (Real.arctan tl))) (dT ((s1 - s0) / Real.cos (Real.arctan tl))) := by
  obtain ⟨qop, hq, hD⟩ := C71_helix_motion (om := om) (tl := tl) (ph := ph) (d := d) (z := z) hbz s0
  have hcl := (Real.cos_arctan_pos tl).ne'
  have hq0 : qop ≠ 0 := by
    rw [qoverP_re hbz] at hq
    rw [← (fin_inj _ _).mp hq]
    exact div_ne_zero (mul_ne_zero hcl hom) (mul_ne_zero hbz kBr_pos.ne')
  have hb : (![0, 0, bz] : R3) ≠ 0 := fun h => hbz (by simpa using congrFun h 2)
  have he : s0 + (s1 - s0) / Real.cos (Real.arctan tl) * Real.cos (Real.arctan tl) = s1 := by field_simp; ring
  have key := C42_variational hb hq0 (helixDir_unit om tl ph s0) (by rw [helixDir_cosDip]; exact hcl) hD
    ((s1 - s0) / Real.cos (Real.arctan tl)) (by rw [helixDir_cosDip]; exact hcl)
  rw [he] at key
  obtain ⟨J, hJ, hP⟩ := key
  refine ⟨qop, J, hq, ?_, hP⟩
  rw [hq, helixDir_model, helixDir_model]
  exact hJ

end Verif
