import Verif.Props.Propagation
import Mathlib.Analysis.SpecialFunctions.Trigonometric.Bounds

/-!
# C111: the simplified propagator
-/

noncomputable section

namespace Verif

open Dbl Matrix Spec

/-- The linearised motion for small angles with bending `-b` per path length: the corrections of charge/momentum and dip do not change,
the azimuth turns with the change of curvature, the offsets grow with the angles. -/
structure SmallAngle (b : ℝ) (c : Fin 5 → ℝ) (f : ℝ → Fin 5 → ℝ) : Prop where
  start : f 0 = c
  curvature : ∀ w, HasDerivAt (fun w => f w 0) 0 w
  dip : ∀ w, HasDerivAt (fun w => f w 1) 0 w
  azimuth : ∀ w, HasDerivAt (fun w => f w 2) (-b * f w 0) w
  xt : ∀ w, HasDerivAt (fun w => f w 3) (f w 2) w
  yt : ∀ w, HasDerivAt (fun w => f w 4) (f w 1) w

/-- the simplified matrix with bending `b` over the path length `w`, with factor `k` -/
def simpK (b w k : ℝ) : Matrix (Fin 5) (Fin 5) ℝ :=
  !![1, 0, 0, 0, 0; 0, 1, 0, 0, 0; -b * w, 0, 1, 0, 0; -(1 / 2) * b * w * w * k, 0, w * k, 1, 0; 0, w, 0, 0, 1]

abbrev simpR (b w : ℝ) : Matrix (Fin 5) (Fin 5) ℝ := simpK b w 1

theorem simplified_k {T0 T b : R3} {qop loss : Dbl} {w : ℝ} :
    simplifiedJacobian (M5.re (1 : Matrix (Fin 5) (Fin 5) ℝ)) (fin w) qop (V3.of T0) (V3.of T) (V3.of b) loss =
      M5.re (simpK (b 2) w (1 / Real.sqrt (1 + (T0 2 - T 2) * (T0 2 - T 2)))) := by
  have e : (V3.of T0).z - (V3.of T).z = fin (T0 2 - T 2) := by simp [V3.of, V3.re]
  have e2 : (V3.of b).z = fin (b 2) := rfl
  have hp : 0 < 1 + (T0 2 - T 2) * (T0 2 - T 2) := add_pos_of_pos_of_nonneg one_pos (mul_self_nonneg _)
  generalize T0 2 - T 2 = d at *
  unfold simplifiedJacobian
  simp only [e, e2]
  rw [one_eq, fin_mul, fin_add, sqrt_fin hp.le, fin_div _ (Real.sqrt_pos.mpr hp).ne']
  generalize 1 / Real.sqrt (1 + d * d) = k
  funext i j
  fin_cases i <;> fin_cases j <;> simp [M5.set, M5.re, simpK, M5.unit, ofSci_eq]
  norm_num

theorem simplified_re {T0 T b : R3} (hz : T0 2 = T 2) {qop loss : Dbl} {w : ℝ} :
    simplifiedJacobian (M5.re (1 : Matrix (Fin 5) (Fin 5) ℝ)) (fin w) qop (V3.of T0) (V3.of T) (V3.of b) loss =
      M5.re (simpR (b 2) w) := by
  rw [simplified_k, hz, sub_self, mul_zero, add_zero, Real.sqrt_one, div_one]

theorem simpR_apply (b w : ℝ) (c : Fin 5 → ℝ) :
    simpR b w *ᵥ c = ![c 0, c 1, -b * w * c 0 + c 2, -(1 / 2) * b * w * w * c 0 + w * c 2 + c 3, w * c 1 + c 4] := by
  funext i
  fin_cases i <;> simp [simpR, simpK, Matrix.mulVec, dotProduct, Fin.sum_univ_five]

/-- C111 (partial): between directions with the same z component, on the identity matrix, the simplified propagator carries the
corrections according to the linearised motion for small angles, with the z component of the field as bending.  Missing: the scale of
the bending (`C111_scale_false`), other directions (`C111_direction_false`). -/
theorem C111_motion_partial {T0 : R3} {T : ℝ → R3} {b : R3} (hz : ∀ w, T0 2 = T w 2) (qop loss : Dbl) :
    ∃ J : ℝ → Matrix (Fin 5) (Fin 5) ℝ,
      (∀ w, simplifiedJacobian (M5.re (1 : Matrix (Fin 5) (Fin 5) ℝ)) (fin w) qop (V3.of T0) (V3.of (T w)) (V3.of b) loss = M5.re (J w)) ∧
      ∀ c, SmallAngle (b 2) c fun w => J w *ᵥ c := by
  refine ⟨simpR (b 2), fun w => simplified_re (hz w), fun c => ?_⟩
  constructor
  · rw [simpR_apply]
    funext i
    fin_cases i <;> simp
  · intro w; simp only [simpR_apply]; exact hasDerivAt_const _ _
  · intro w; simp only [simpR_apply]; exact hasDerivAt_const _ _
  · intro w; simp only [simpR_apply]
    have h := (((hasDerivAt_id w).const_mul (-b 2)).mul_const (c 0)).add_const (c 2)
    exact h.congr_deriv (by simp)
  · intro w; simp only [simpR_apply]
    have h1 := (((hasDerivAt_id w).const_mul (-(1 / 2) * b 2)).mul (hasDerivAt_id w)).mul_const (c 0)
    have h := (h1.add ((hasDerivAt_id w).mul_const (c 2))).add_const (c 3)
    refine h.congr_deriv ?_
    simp
    ring
  · intro w; simp only [simpR_apply]
    have h := ((hasDerivAt_id w).mul_const (c 1)).add_const (c 4)
    exact h.congr_deriv (by simp)

/-- C111 (partial): between directions with the same z component the simplified Jacobians of two steps multiply to that of the sum,
and a step back undoes a step. -/
theorem C111_steps_partial {T0 T1 T2 b : R3} (h1 : T0 2 = T1 2) (h2 : T1 2 = T2 2) (qop loss : Dbl) (w1 w2 : ℝ) :
    M5.mul (simplifiedJacobian (M5.re (1 : Matrix (Fin 5) (Fin 5) ℝ)) (fin w2) qop (V3.of T1) (V3.of T2) (V3.of b) loss)
        (simplifiedJacobian (M5.re (1 : Matrix (Fin 5) (Fin 5) ℝ)) (fin w1) qop (V3.of T0) (V3.of T1) (V3.of b) loss) =
      simplifiedJacobian (M5.re (1 : Matrix (Fin 5) (Fin 5) ℝ)) (fin (w1 + w2)) qop (V3.of T0) (V3.of T2) (V3.of b) loss ∧
    M5.mul (simplifiedJacobian (M5.re (1 : Matrix (Fin 5) (Fin 5) ℝ)) (fin (-w1)) qop (V3.of T1) (V3.of T0) (V3.of b) loss)
        (simplifiedJacobian (M5.re (1 : Matrix (Fin 5) (Fin 5) ℝ)) (fin w1) qop (V3.of T0) (V3.of T1) (V3.of b) loss) =
      M5.re (1 : Matrix (Fin 5) (Fin 5) ℝ) := by
  rw [simplified_re h1, simplified_re h2, simplified_re (h1.trans h2), simplified_re h1.symm, M5.mul_re, M5.mul_re]
  constructor
  all_goals
    congr 1
    refine Matrix.ext_of_mulVec_single fun i => ?_
    generalize (Pi.single i 1 : Fin 5 → ℝ) = c
    simp only [← Matrix.mulVec_mulVec, simpR_apply, Matrix.one_mulVec]
    funext j
    fin_cases j <;> simp <;> ring

/-- C111 is false: for different z components of the directions two steps do not multiply to that of the sum.  (The factor
1 / √(1 + Δ²) is computed from the difference Δ of the z components, instead of a slope.) -/
theorem C111_direction_false :
    ∃ T0 T1 T2 : R3, dot T0 T0 = 1 ∧ dot T1 T1 = 1 ∧ dot T2 T2 = 1 ∧ ∀ (qop loss : Dbl) (b : R3),
      M5.mul (simplifiedJacobian (M5.re (1 : Matrix (Fin 5) (Fin 5) ℝ)) (fin 1) qop (V3.of T1) (V3.of T2) (V3.of b) loss)
          (simplifiedJacobian (M5.re (1 : Matrix (Fin 5) (Fin 5) ℝ)) (fin 1) qop (V3.of T0) (V3.of T1) (V3.of b) loss) ≠
        simplifiedJacobian (M5.re (1 : Matrix (Fin 5) (Fin 5) ℝ)) (fin 2) qop (V3.of T0) (V3.of T2) (V3.of b) loss := by
  refine ⟨![1, 0, 0], ![0, 0, 1], ![1, 0, 0], by simp [dot], by simp [dot], by simp [dot], fun qop loss b h => ?_⟩
  rw [simplified_k, simplified_k, simplified_k, M5.mul_re] at h
  have h32 := congrFun (congrFun h 3) 2
  simp [M5.re, simpK, Matrix.mul_apply, Fin.sum_univ_five] at h32
  norm_num at h32
  have h2 : Real.sqrt 2 * Real.sqrt 2 = 2 := Real.mul_self_sqrt (by norm_num)
  have h3 : 0 < Real.sqrt 2 := Real.sqrt_pos.mpr (by norm_num)
  field_simp at h32
  nlinarith

/-- C111 is false: across a field along z, the bending of the simplified propagator (the element for the azimuth and charge/momentum) is
more than 300 times that of the motion in the field, given by the analytical propagator.  The constant for the conversion of units
is missing. -/
theorem C111_scale_false {β qop w : ℝ} (hβ : β ≠ 0) (hq : qop ≠ 0) (hw : w ≠ 0) {T : ℝ → R3}
    (hT : IsDirection (turnRate ![0, 0, β] * qop) (fieldDir ![0, 0, β]) ![1, 0, 0] T) (loss : ℝ) :
    ∃ A S : Matrix (Fin 5) (Fin 5) ℝ,
      analyticalJacobian M5.zero (fin w) (fin qop) (V3.of ![1, 0, 0]) (V3.of (T w)) (V3.of ![0, 0, β]) (fin loss) = M5.re A ∧
      simplifiedJacobian (M5.re (1 : Matrix (Fin 5) (Fin 5) ℝ)) (fin w) (fin qop) (V3.of ![1, 0, 0]) (V3.of (T w)) (V3.of ![0, 0, β])
        (fin loss) = M5.re S ∧ 300 * |A 2 0| < |S 2 0| := by
  have hb : (![0, 0, β] : R3) ≠ 0 := fun h => hβ (by simpa using congrFun h 2)
  have hr : Real.sqrt (dot ![0, 0, β] ![0, 0, β]) = |β| := by
    simp [dot, Real.sqrt_mul_self_eq_abs]
  have hh := fieldDir_unit hb
  have hd : fieldDir ![0, 0, β] = ![0, 0, β / |β|] := by
    unfold fieldDir
    rw [hr]
    funext i
    fin_cases i <;> simp [div_eq_inv_mul]
  obtain ⟨σ, hσ⟩ : ∃ σ, σ = β / |β| := ⟨_, rfl⟩
  have hσ2 : σ * σ = 1 := by
    rw [hσ, div_mul_div_comm, abs_mul_abs_self, div_self (mul_ne_zero hβ hβ)]
  rw [← hσ] at hd
  obtain ⟨q, hqd⟩ : ∃ q, q = turnRate ![0, 0, β] * qop := ⟨_, rfl⟩
  have e := direction_unique hh hT w
  rw [hd, ← hqd] at e
  have e' : T w = ![Real.cos (q * w), Real.sin (q * w) * σ, 0] := by
    rw [e]
    funext i
    fin_cases i <;> simp [rot, cross, dot]
  have hc : Real.cos (q * w) * Real.cos (q * w) + Real.sin (q * w) * σ * (Real.sin (q * w) * σ) = 1 := by
    have := Real.sin_sq_add_cos_sq (q * w)
    rw [show Real.sin (q * w) * σ * (Real.sin (q * w) * σ) = Real.sin (q * w) ^ 2 * (σ * σ) by ring, hσ2]
    linarith
  have c0 : cosDip (![1, 0, 0] : R3) ≠ 0 := by simp [cosDip]
  have c1 : cosDip (T w) = 1 := by
    rw [e']
    unfold cosDip
    simp only [Matrix.cons_val_zero, Matrix.cons_val_one]
    rw [hc, Real.sqrt_one]
  have hS : (![1, 0, 0] : R3) 2 = T w 2 := by rw [e']; rfl
  refine ⟨_, _, analyticalJacobian_motion hb hq c0 (by rw [c1]; exact one_ne_zero), simplified_re hS, ?_⟩
  have hK : turnRate ![0, 0, β] ≠ 0 := turnRate_ne hb
  have hq0 : q ≠ 0 := by rw [hqd]; exact mul_ne_zero hK hq
  have a20 : jacR 0 (turnRate ![0, 0, β] * qop) (turnRate ![0, 0, β]) qop (turnRate ![0, 0, β] * qop * w) loss
      (fieldDir ![0, 0, β]) ![1, 0, 0] (T w) 2 0 = σ * Real.sin (q * w) / qop := by
    rw [← hqd, hd]
    have hV : dot ![0, 0, σ] (frameV (T w)) = σ := by
      unfold frameV frameU
      rw [c1, e']
      simp [dot, cross]
      linear_combination σ * hc
    have hTd : dot (T w) (fun i => -(dot ![0, 0, σ] (T w) * (q * w - Real.sin (q * w)) * (![0, 0, σ] : R3) i +
        Real.sin (q * w) * (![1, 0, 0] : R3) i + (1 - Real.cos (q * w)) * cross ![0, 0, σ] ![1, 0, 0] i) / q) =
        -Real.sin (q * w) / q := by
      rw [e']
      simp [dot, cross]
      field_simp
      linear_combination (-Real.sin (q * w) * (1 - Real.cos (q * w))) * hσ2
    simp only [jacR]
    show -turnRate ![0, 0, β] * dot ![0, 0, σ] (frameV (T w)) * dot (T w) _ * (1 / cosDip (T w)) = _
    rw [hV, hTd, c1, hqd]
    field_simp
  rw [a20]
  show _ < |-β * w|
  have hs : |Real.sin (q * w)| ≤ |q * w| := Real.abs_sin_le_abs
  have hσ1 : |σ| = 1 := by
    have : |σ| * |σ| = 1 := by rw [← abs_mul, hσ2, abs_one]
    nlinarith [abs_nonneg σ]
  have hqa : |q| = |β| * kBr * |qop| := by
    rw [hqd, turnRate, hr, abs_mul, abs_mul, abs_neg, abs_abs, abs_of_pos kBr_pos]
  have hqp : 0 < |qop| := abs_pos.mpr hq
  have hβw : 0 < |β| * |w| := mul_pos (abs_pos.mpr hβ) (abs_pos.mpr hw)
  rw [abs_div, abs_mul, hσ1, one_mul, abs_mul, abs_neg]
  have h1 : |Real.sin (q * w)| / |qop| ≤ |β| * kBr * |w| := by
    rw [div_le_iff₀ hqp]
    refine hs.trans (le_of_eq ?_)
    rw [abs_mul, hqa]
    ring
  have hk : 300 * kBr < 1 := by unfold kBr; norm_num
  calc 300 * (|Real.sin (q * w)| / |qop|) ≤ 300 * (|β| * kBr * |w|) := by linarith
    _ = 300 * kBr * (|β| * |w|) := by ring
    _ < 1 * (|β| * |w|) := mul_lt_mul_of_pos_right hk hβw
    _ = _ := one_mul _

/-- hypotheses of C111: motion in the transverse plane -/
example : ∃ T, IsDirection (turnRate ![0, 0, 2] * 3) (fieldDir ![0, 0, 2]) ![1, 0, 0] T :=
  ⟨_, direction_exists _ _ _ (fieldDir_unit fun h => by simpa using congrFun h 2)⟩

/-- hypothesis of C111: a helix along z -/
example : ∀ w : ℝ, (![3 / 5, 0, 4 / 5] : R3) 2 = (![3 / 5 * Real.cos w, 3 / 5 * Real.sin w, 4 / 5] : R3) 2 := fun _ => rfl

end Verif
