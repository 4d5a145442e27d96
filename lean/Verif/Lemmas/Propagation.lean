import Verif.Model.Propagation
import Verif.Lemmas.Motion
import Verif.Lemmas.Containers
import Verif.Props.LocalFrames
import Verif.Props.Momentum

/-! Helper lemmas: the analytical propagation Jacobian over the reals. -/

noncomputable section

namespace Verif

open Dbl Matrix Spec

theorem ofV_dot (a b : R3) : (V3.of a).dot (V3.of b) = fin (dot a b) := by
  simp only [V3.dot, V3.of, V3.re, fin_mul, fin_add, dot]

theorem ofV_cross (a b : R3) : (V3.of a).cross (V3.of b) = V3.of (cross a b) := by
  simp only [V3.cross, V3.of, V3.re, fin_mul, fin_sub, cross_0, cross_1, cross_2]

theorem ofV_r (a : R3) : (V3.of a).r = fin (Real.sqrt (dot a a)) := by
  simp only [V3.r, V3.of, V3.re, fin_mul, fin_add, dot]
  exact sqrt_fin (add_nonneg (add_nonneg (mul_self_nonneg _) (mul_self_nonneg _)) (mul_self_nonneg _))

theorem ofV_unit (a : R3) (h : Real.sqrt (dot a a) ≠ 0) : (V3.of a).unit = V3.of ((1 / Real.sqrt (dot a a)) • a) := by
  simp only [V3.unit, ofV_r]
  simp only [V3.of, V3.re, fin_div _ h, Pi.smul_apply, smul_eq_mul]
  congr 2 <;> ring

theorem sqrt_xy_of (a : R3) : Dbl.sqrt ((V3.of a).x * (V3.of a).x + (V3.of a).y * (V3.of a).y) = fin (cosDip a) := by
  simp only [V3.of, V3.re, fin_mul, fin_add]
  exact sqrt_fin (add_nonneg (mul_self_nonneg _) (mul_self_nonneg _))

theorem ofV_trans (a : R3) : (V3.of a).trans = fin (cosDip a) := sqrt_xy_of a

theorem frameU_model (a : R3) (h : cosDip a ≠ 0) :
    (⟨-(1 / (V3.of a).trans) * (V3.of a).y, 1 / (V3.of a).trans * (V3.of a).x, fin 0⟩ : V3) = V3.of (frameU a) := by
  rw [ofV_trans, one_eq, fin_div _ h]
  simp only [V3.of, V3.re, fin_neg, fin_mul, frameU]
  congr 2 <;> simp <;> ring

theorem frameV_model (a : R3) (h : cosDip a ≠ 0) :
    (⟨-(V3.of a).z * (1 / (V3.of a).trans * (V3.of a).x), (V3.of a).z * (-(1 / (V3.of a).trans) * (V3.of a).y),
      (V3.of a).x * (1 / (V3.of a).trans * (V3.of a).x) - (V3.of a).y * (-(1 / (V3.of a).trans) * (V3.of a).y)⟩ : V3) =
      V3.of (frameV a) := by
  rw [ofV_trans, one_eq, fin_div _ h]
  simp only [V3.of, V3.re, fin_neg, fin_mul, fin_sub, frameV, cross_0, cross_1, cross_2]
  have e0 : frameU a 0 = -a 1 / cosDip a := rfl
  have e1 : frameU a 1 = a 0 / cosDip a := rfl
  have e2 : frameU a 2 = 0 := rfl
  rw [e0, e1, e2]
  congr 2 <;> ring

/-- row 0 is kept except for the first entry; the others -/
def jacR (A : Matrix (Fin 5) (Fin 5) ℝ) (q qp qop θ loss : ℝ) (h T0 T : R3) : Matrix (Fin 5) (Fin 5) ℝ :=
  let U0 := frameU T0; let V0 := frameV T0; let U := frameU T; let V := frameV T
  let c := Real.cos θ; let s := Real.sin θ
  let g := dot h T
  let dx : R3 := fun i => -(g * (θ - s) * h i + s * T0 i + (1 - c) * cross h T0 i) / q
  let k := 1 / cosDip T
  ![![1 + loss, A 0 1, A 0 2, A 0 3, A 0 4],
    ![-qp * -dot h U * dot T dx,
      c * dot V0 V + s * dot (cross h V0) V + (1 - c) * dot h V0 * dot h V +
        -dot h U * (-s * dot T V0 + (1 - c) * dot (cross h T) V0 - g * (θ - s) * dot h V0),
      cosDip T0 * (c * dot U0 V + s * dot (cross h U0) V + (1 - c) * dot h U0 * dot h V +
        -dot h U * (-s * dot T U0 + (1 - c) * dot (cross h T) U0 - g * (θ - s) * dot h U0)),
      -q * -dot h U * dot T U0, -q * -dot h U * dot T V0],
    ![-qp * dot h V * dot T dx * k,
      k * (c * dot V0 U + s * dot (cross h V0) U + (1 - c) * dot h V0 * dot h U +
        dot h V * (-s * dot T V0 + (1 - c) * dot (cross h T) V0 - g * (θ - s) * dot h V0)),
      k * cosDip T0 * (c * dot U0 U + s * dot (cross h U0) U + (1 - c) * dot h U0 * dot h U +
        dot h V * (-s * dot T U0 + (1 - c) * dot (cross h T) U0 - g * (θ - s) * dot h U0)),
      -q * dot h V * dot T U0 * k, -q * dot h V * dot T V0 * k],
    ![1 / qop * dot U dx,
      (s * dot V0 U + (1 - c) * dot (cross h V0) U + (θ - s) * dot h U * dot h V0) / q,
      (s * dot U0 U + (1 - c) * dot (cross h U0) U + (θ - s) * dot h U * dot h U0) * cosDip T0 / q,
      dot U0 U, dot V0 U],
    ![1 / qop * dot V dx,
      (s * dot V0 V + (1 - c) * dot (cross h V0) V + (θ - s) * dot h V * dot h V0) / q,
      (s * dot U0 V + (1 - c) * dot (cross h U0) V + (θ - s) * dot h V * dot h U0) * cosDip T0 / q,
      dot U0 V, dot V0 V]]

theorem dx_model (g t s c q : ℝ) (hq : q ≠ 0) (h T0 a : R3) :
    (⟨-(fin g * fin t * (V3.of h).x + fin s * (V3.of T0).x + fin c * (V3.of a).x) / fin q,
      -(fin g * fin t * (V3.of h).y + fin s * (V3.of T0).y + fin c * (V3.of a).y) / fin q,
      -(fin g * fin t * (V3.of h).z + fin s * (V3.of T0).z + fin c * (V3.of a).z) / fin q⟩ : V3) =
    V3.of (fun i => -(g * t * h i + s * T0 i + c * a i) / q) := by
  simp only [V3.of, V3.re, fin_neg, fin_mul, fin_add, fin_div _ hq]

theorem analyticalJacobian_re {A : Matrix (Fin 5) (Fin 5) ℝ} {w qop loss : ℝ} {T0 T b : R3} (hb : Real.sqrt (dot b b) ≠ 0)
    (hqop : qop ≠ 0) (h0 : cosDip T0 ≠ 0) (h1 : cosDip T ≠ 0) :
    analyticalJacobian (M5.re A) (fin w) (fin qop) (V3.of T0) (V3.of T) (V3.of b) (fin loss) =
      M5.re (jacR A (-Real.sqrt (dot b b) * kBr * qop) (-Real.sqrt (dot b b) * kBr) qop
        (-Real.sqrt (dot b b) * kBr * qop * w) loss ((1 / Real.sqrt (dot b b)) • b) T0 T) := by
  have hq : -Real.sqrt (dot b b) * kBr * qop ≠ 0 := mul_ne_zero (mul_ne_zero (neg_ne_zero.mpr hb) kBr_pos.ne') hqop
  unfold analyticalJacobian
  simp only [convert_eq, ofV_r, ofV_unit b hb, fin_neg, fin_mul, zero_eq, fin_eqv, cif_neg hq]
  rw [frameU_model T0 h0, frameU_model T h1, frameV_model T0 h0, frameV_model T h1]
  generalize -Real.sqrt (dot b b) * kBr * qop = q at *
  generalize -Real.sqrt (dot b b) * kBr = qp at *
  generalize (1 / Real.sqrt (dot b b)) • b = h at *
  simp only [ofV_dot, ofV_cross, sqrt_xy_of, sin_fin, cos_fin, one_eq, fin_sub, fin_div _ hqop, fin_div _ h1]
  rw [dx_model _ _ _ _ _ hq]
  simp only [ofV_dot, fin_neg, fin_mul, fin_add, fin_sub, fin_div _ hq]
  funext i j
  fin_cases i <;> fin_cases j <;> rfl

end Verif
