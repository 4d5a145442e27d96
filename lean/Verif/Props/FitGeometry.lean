import Verif.Props.GblPoints
import Verif.Props.GblExample
import Verif.Props.Propagation

/-!
# C87, C88: what the fitter assumes about projection and scattering

The Jacobians act on corrections (q/p, dip angle, azimuth, displacements along U and V), see C42.  General Broken Lines takes the
measurement matrix as the map from the displacements (along U, V) to the offsets in the measurement directions, and the
scattering matrix as the inverse covariance of the second and third component.
-/

open Classical

noncomputable section

namespace Verif

open Dbl Traj Spec Matrix

variable {om tl ph d z : ℝ}

/-! ## C87 -/

/-- direction of a track at its reference point -/
def dirOf (tl ph : ℝ) : R3 :=
  ![Real.cos ph * Real.cos (Real.arctan tl), Real.sin ph * Real.cos (Real.arctan tl), Real.sin (Real.arctan tl)]

theorem dirOf_tangent : calculateTangent 0 (hpR om tl ph d z) = V3.of (dirOf tl ph) := by
  rw [zero_eq, calculateTangent_re]
  simp [V3.of, dirOf]

theorem dirOf_cosDip : cosDip (dirOf tl ph) = Real.cos (Real.arctan tl) := by
  have h : dirOf tl ph 0 * dirOf tl ph 0 + dirOf tl ph 1 * dirOf tl ph 1 = Real.cos (Real.arctan tl) ^ 2 := by
    simp only [dirOf, cons_val_zero, cons_val_one]
    linear_combination Real.cos (Real.arctan tl) ^ 2 * Real.sin_sq_add_cos_sq ph
  unfold cosDip
  rw [h, Real.sqrt_sq (Real.cos_arctan_pos tl).le]

theorem dirOf_unit : dot (dirOf tl ph) (dirOf tl ph) = 1 := by
  simp only [dot, dirOf, cons_val_zero, cons_val_one, cons_val]
  linear_combination Real.cos (Real.arctan tl) ^ 2 * Real.sin_sq_add_cos_sq ph + Real.sin_sq_add_cos_sq (Real.arctan tl)

/-- the frame used for the projection is the one of the specification -/
theorem dirOf_frame : calculateLocalCurvilinearSystem 0 (hpR om tl ph d z) =
    (V3.of (frameU (dirOf tl ph)), V3.of (frameV (dirOf tl ph))) := by
  have hc := (Real.cos_arctan_pos tl).ne'
  have h := Real.sin_sq_add_cos_sq ph
  have h0 : frameU (dirOf tl ph) = ![-Real.sin ph, Real.cos ph, 0] := by
    unfold frameU
    rw [dirOf_cosDip]
    congr 1
    · simp only [dirOf, cons_val_one, cons_val_zero]; field_simp
    · congr 1
      simp only [dirOf, cons_val_zero]; field_simp
  rw [zero_eq, curvSystem_re, frameV, h0, mul_zero, sub_zero]
  simp only [V3.of, V3.re, cross, dirOf, cons_val_zero, cons_val_one, cons_val, Prod.mk.injEq, V3.mk.injEq, fin_inj, true_and]
  refine ⟨by ring, by ring, ?_⟩
  linear_combination (-Real.cos (Real.arctan tl)) * h

/-- offsets `a`, `b` of a measurement in directions `m`, `m'` that belong to a displacement of the track by `du`, `dv` along U and
V: the displaced track, a line along T, meets the plane of `m` and `m'` there -/
def Offset (T m m' : R3) (du dv a b : ℝ) : Prop := ∃ w : ℝ, a • m + b • m' = du • frameU T + dv • frameV T + w • T

theorem offset_dots {T m m' : R3} (hT : dot T T = 1) (hc : cosDip T ≠ 0) {du dv a b : ℝ} (h : Offset T m m' du dv a b) :
    a * dot m (frameU T) + b * dot m' (frameU T) = du ∧ a * dot m (frameV T) + b * dot m' (frameV T) = dv := by
  obtain ⟨w, h⟩ := h
  have hU : dot (a • m + b • m') (frameU T) = dot (du • frameU T + dv • frameV T + w • T) (frameU T) := by rw [h]
  have hV : dot (a • m + b • m') (frameV T) = dot (du • frameU T + dv • frameV T + w • T) (frameV T) := by rw [h]
  have e1 := frameU_unit hc
  have e2 := frameV_unit hT hc
  have e3 := frameU_dot_V T
  have e4 := frameU_dot_T T
  have e5 := frameV_dot_T T
  simp only [dot, Pi.add_apply, Pi.smul_apply, smul_eq_mul] at *
  constructor
  · linear_combination hU + du * e1 + dv * e3 + w * e4
  · linear_combination hV + du * e3 + dv * e2 + w * e5

/-- C87: the projection computed for an element maps displacements to offsets only after transposition. -/
theorem projection_transposed {m m' : R3} {proj : Fin 4 → Dbl}
    (h : calculateLocalToMeasurementProjectionMatrix (calculateLocalCurvilinearSystem 0 (hpR om tl ph d z)).1
      (calculateLocalCurvilinearSystem 0 (hpR om tl ph d z)).2 [V3.of m, V3.of m'] = .ok proj) :
    ∃ P : Matrix (Fin 2) (Fin 2) ℝ, proj = ![fin (P 0 0), fin (P 0 1), fin (P 1 0), fin (P 1 1)] ∧
      P * !![dot m (frameU (dirOf tl ph)), dot m (frameV (dirOf tl ph)); dot m' (frameU (dirOf tl ph)), dot m' (frameV (dirOf tl ph))] = 1 ∧
      ∀ du dv a b : ℝ, Offset (dirOf tl ph) m m' du dv a b → ![a, b] = Pᵀ *ᵥ ![du, dv] := by
  rw [dirOf_frame] at h
  have hd : (!![dot3 m (frameU (dirOf tl ph)), dot3 m (frameV (dirOf tl ph));
      dot3 m' (frameU (dirOf tl ph)), dot3 m' (frameV (dirOf tl ph))]).det ≠ 0 := by
    intro hd
    obtain ⟨msg, hmsg⟩ := C23_singular m m' _ _ hd
    rw [hmsg] at h
    cases h
  obtain ⟨P, h1, h2, -⟩ := C23_inverse m m' _ _ hd
  rw [h1] at h
  injection h with h
  refine ⟨P, h.symm, h2, fun du dv a b hab => ?_⟩
  obtain ⟨q1, q2⟩ := offset_dots dirOf_unit (by rw [dirOf_cosDip]; exact (Real.cos_arctan_pos tl).ne') hab
  have hA : (!![dot m (frameU (dirOf tl ph)), dot m (frameV (dirOf tl ph));
      dot m' (frameU (dirOf tl ph)), dot m' (frameV (dirOf tl ph))])ᵀ *ᵥ ![a, b] = ![du, dv] := by
    funext i
    fin_cases i
    · simp [Matrix.mulVec, dotProduct, Fin.sum_univ_two]; linarith
    · simp [Matrix.mulVec, dotProduct, Fin.sum_univ_two]; linarith
  have h3 : Pᵀ * (!![dot m (frameU (dirOf tl ph)), dot m (frameV (dirOf tl ph));
      dot m' (frameU (dirOf tl ph)), dot m' (frameV (dirOf tl ph))])ᵀ = 1 := by
    have h4 := mul_eq_one_comm.mp h2
    rw [← Matrix.transpose_mul]
    exact (congrArg Matrix.transpose h4).trans Matrix.transpose_one
  rw [← hA, Matrix.mulVec_mulVec, h3, Matrix.one_mulVec]

/-- the measurement handed to the fitter for the element added by a call -/
theorem point_meas {env : Env} {t : Traj} {pos : V3} {p q : Dbl} {surf : Surface} {id : ℕ} {sc : Bool}
    (h : (t.step env (.measurement pos [p, q] surf id sc)).2 = .ok true) :
    ∃ (e : Element) (proj : Fin 4 → Dbl) (R : Fin 2 → Dbl),
      (t.step env (.measurement pos [p, q] surf id sc)).1.elems = t.withStart.elems ++ [e] ∧
      calculateLocalToMeasurementProjectionMatrix (calculateLocalCurvilinearSystem 0 e.tp.hp).1
        (calculateLocalCurvilinearSystem 0 e.tp.hp).2 [surf.u pos, surf.v pos] = .ok proj ∧
      ∀ j, ∃ pt, gblPoint { e with jac := some j } = .ok pt ∧
        pt.meas = some (![![proj 0, proj 1], ![proj 2, proj 3]], R, ![p, q]) := by
  obtain ⟨back, e, h1, h2, h3⟩ := measurement_step h
  obtain ⟨hit, tp, w, proj, r1, r2, r3, r4, rfl⟩ := measurement_ok h3
  refine ⟨_, proj, _, h2, r4, fun j => ⟨_, gblPoint_eq (l' := [p, q]) (q := hitQMS env t.mass surf hit tp *
    hitQMS env t.mass surf hit tp) (a := 0) (b := 0) (p0 := p) (p1 := q)
    (l := if sc then [hitQMS env t.mass surf hit tp * hitQMS env t.mass surf hit tp, 0, 0] else [])
    rfl rfl rfl rfl rfl ?_ ?_, rfl⟩⟩
  · cases sc <;> rfl
  · intro hs
    have : sc = true := hs
    subst this
    rfl

/-- C87: the matrix handed to the fitter for a new measurement is the transpose of the map from displacements of the track to
offsets of the measurement. -/
theorem C87_transposed {env : Env} {t : Traj} {pos : V3} {p q : Dbl} {surf : Surface} {id : ℕ} {sc : Bool}
    (h : (t.step env (.measurement pos [p, q] surf id sc)).2 = .ok true) :
    ∃ e : Element, (t.step env (.measurement pos [p, q] surf id sc)).1.elems = t.withStart.elems ++ [e] ∧
      ∀ {om tl ph d z : ℝ} {m m' : R3}, e.tp.hp = hpR om tl ph d z → surf.u pos = V3.of m → surf.v pos = V3.of m' →
        ∃ (P : Matrix (Fin 2) (Fin 2) ℝ) (R : Fin 2 → Dbl),
          (∀ j, ∃ pt, gblPoint { e with jac := some j } = .ok pt ∧ pt.meas = some (fun i k => fin (P i k), R, ![p, q])) ∧
          P.det ≠ 0 ∧ ∀ du dv a b : ℝ, Offset (dirOf tl ph) m m' du dv a b → ![a, b] = Pᵀ *ᵥ ![du, dv] := by
  obtain ⟨e, proj, R, h1, h2, h3⟩ := point_meas h
  refine ⟨e, h1, fun {om tl ph d z m m'} he hu hv => ?_⟩
  rw [he, hu, hv] at h2
  obtain ⟨P, rfl, hP, hoff⟩ := projection_transposed h2
  refine ⟨P, R, fun j => ?_, ?_, hoff⟩
  · obtain ⟨pt, q1, q2⟩ := h3 j
    refine ⟨pt, q1, ?_⟩
    rw [q2]
    congr 2
    funext i k
    fin_cases i <;> fin_cases k <;> rfl
  · intro h0
    have := congrArg Matrix.det hP
    rw [Matrix.det_mul, h0, zero_mul, Matrix.det_one] at this
    exact zero_ne_one this

/-- C87 (partial): if the first measurement direction makes the same angle with V as the second one with U, the matrix is correct.
Missing for C87: all other directions. -/
theorem C87_symmetric_partial {env : Env} {t : Traj} {pos : V3} {p q : Dbl} {surf : Surface} {id : ℕ} {sc : Bool}
    (h : (t.step env (.measurement pos [p, q] surf id sc)).2 = .ok true) :
    ∃ e : Element, (t.step env (.measurement pos [p, q] surf id sc)).1.elems = t.withStart.elems ++ [e] ∧
      ∀ {om tl ph d z : ℝ} {m m' : R3}, e.tp.hp = hpR om tl ph d z → surf.u pos = V3.of m → surf.v pos = V3.of m' →
        dot m (frameV (dirOf tl ph)) = dot m' (frameU (dirOf tl ph)) →
        ∃ (P : Matrix (Fin 2) (Fin 2) ℝ) (R : Fin 2 → Dbl),
          (∀ j, ∃ pt, gblPoint { e with jac := some j } = .ok pt ∧ pt.meas = some (fun i k => fin (P i k), R, ![p, q])) ∧
          ∀ du dv a b : ℝ, Offset (dirOf tl ph) m m' du dv a b → ![a, b] = P *ᵥ ![du, dv] := by
  obtain ⟨e, proj, R, h1, h2, h3⟩ := point_meas h
  refine ⟨e, h1, fun {om tl ph d z m m'} he hu hv hs => ?_⟩
  rw [he, hu, hv] at h2
  obtain ⟨P, rfl, hP, hoff⟩ := projection_transposed h2
  refine ⟨P, R, fun j => ?_, fun du dv a b hab => ?_⟩
  · obtain ⟨pt, q1, q2⟩ := h3 j
    refine ⟨pt, q1, ?_⟩
    rw [q2]
    congr 2
    funext i k
    fin_cases i <;> fin_cases k <;> rfl
  · have hsym : (!![dot m (frameU (dirOf tl ph)), dot m (frameV (dirOf tl ph));
        dot m' (frameU (dirOf tl ph)), dot m' (frameV (dirOf tl ph))])ᵀ = !![dot m (frameU (dirOf tl ph)), dot m (frameV (dirOf tl ph));
        dot m' (frameU (dirOf tl ph)), dot m' (frameV (dirOf tl ph))] := by
      ext i k
      fin_cases i <;> fin_cases k <;> simp [hs]
    have hPt : Pᵀ = P := by
      have h4 := congrArg Matrix.transpose (mul_eq_one_comm.mp hP)
      rw [Matrix.transpose_mul, hsym, Matrix.transpose_one] at h4
      have h5 := mul_eq_one_comm.mp hP
      calc Pᵀ = Pᵀ * (_ * P) := by rw [h5, mul_one]
        _ = P := by rw [← mul_assoc, h4, one_mul]
    rw [hoff du dv a b hab, hPt]

theorem expand_all {T : R3} (hT : dot T T = 1) (hc : cosDip T ≠ 0) (m : R3) :
    m = dot m (frameU T) • frameU T + dot m (frameV T) • frameV T + dot m T • T := by
  have h4 := frameU_dot_T T
  have h5 := frameV_dot_T T
  have h := frame_expand hT hc (m - dot m T • T) (by
    simp only [dot, Pi.sub_apply, Pi.smul_apply, smul_eq_mul] at *
    linear_combination (-(m 0 * T 0 + m 1 * T 1 + m 2 * T 2)) * hT)
  have e1 : dot (frameU T) (m - dot m T • T) = dot m (frameU T) := by
    simp only [dot, Pi.sub_apply, Pi.smul_apply, smul_eq_mul] at *
    linear_combination (-(m 0 * T 0 + m 1 * T 1 + m 2 * T 2)) * h4
  have e2 : dot (frameV T) (m - dot m T • T) = dot m (frameV T) := by
    simp only [dot, Pi.sub_apply, Pi.smul_apply, smul_eq_mul] at *
    linear_combination (-(m 0 * T 0 + m 1 * T 1 + m 2 * T 2)) * h5
  rw [e1, e2] at h
  rw [h, sub_add_cancel]

open Example in
/-- C87 is false: a measurement on the disk of the example, in the directions x and y. -/
theorem C87_false (pos : V3) (p q : Dbl) (id : ℕ) (sc : Bool) : ∃ (surf : Surface) (e : Element) (P : Matrix (Fin 2) (Fin 2) ℝ)
    (R : Fin 2 → Dbl) (om tl ph d z du dv a b : ℝ),
    ((make tp).step env (.measurement pos [p, q] surf id sc)).2 = .ok true ∧
    ((make tp).step env (.measurement pos [p, q] surf id sc)).1.elems = (make tp).withStart.elems ++ [e] ∧
    e.tp.hp = hpR om tl ph d z ∧ surf.u pos = V3.of ![1, 0, 0] ∧ surf.v pos = V3.of ![0, 1, 0] ∧
    (∀ j, ∃ pt, gblPoint { e with jac := some j } = .ok pt ∧ pt.meas = some (fun i k => fin (P i k), R, ![p, q])) ∧
    Offset (dirOf tl ph) ![1, 0, 0] ![0, 1, 0] du dv a b ∧ ![a, b] ≠ P *ᵥ ![du, dv] := by
  obtain ⟨c, fn, -, hcos, hc⟩ := added_at pos [p, q] id sc
  obtain ⟨e, he, hhp⟩ := hc 0 (by norm_num)
  have h : ((make tp).step env (.measurement pos [p, q] (diskT 0) id sc)).2 = .ok true := by rw [he]
  obtain ⟨e', proj, R, h1, h2, h3⟩ := point_meas h
  have hee : e' = e := by
    rw [he] at h1
    simpa using h1.symm
  subst hee
  have hu : (diskT 0).u pos = V3.of ![1, 0, 0] := by simp [diskT, diskB, V3.of, V3.re]
  have hv : (diskT 0).v pos = V3.of ![0, 1, 0] := by simp [diskT, diskB, V3.of, V3.re]
  rw [hhp, hu, hv] at h2
  obtain ⟨P, rfl, hP, -⟩ := projection_transposed h2
  have hT : dot (dirOf 1 fn) (dirOf 1 fn) = 1 := dirOf_unit
  have hcd : cosDip (dirOf 1 fn) ≠ 0 := by rw [dirOf_cosDip]; exact (Real.cos_arctan_pos 1).ne'
  have hc1 : 0 < Real.cos fn := by rw [hcos]; exact Real.cos_one_pos
  have hfr := dirOf_frame (om := 0) (tl := 1) (ph := fn) (d := 0) (z := 0)
  rw [zero_eq, curvSystem_re] at hfr
  simp only [V3.of, V3.re, Prod.mk.injEq, V3.mk.injEq, fin_inj, mul_zero, sub_zero] at hfr
  obtain ⟨⟨-, hU, -⟩, hV, -, -⟩ := hfr
  refine ⟨diskT 0, e', P, R, _, 1, fn, 0, 0, dot ![1, 0, 0] (frameU (dirOf 1 fn)), dot ![1, 0, 0] (frameV (dirOf 1 fn)), 1, 0, h, h1,
    hhp, hu, hv, fun j => ?_, ⟨dot ![1, 0, 0] (dirOf 1 fn), ?_⟩, fun hbad => ?_⟩
  · obtain ⟨pt, q1, q2⟩ := h3 j
    refine ⟨pt, q1, ?_⟩
    rw [q2]
    congr 2
    funext i k
    fin_cases i <;> fin_cases k <;> rfl
  · rw [one_smul, zero_smul, add_zero]
    exact expand_all hT hcd _
  · have hA := mul_eq_one_comm.mp hP
    have h5 := congrArg (fun x => !![dot ![1, 0, 0] (frameU (dirOf 1 fn)), dot ![1, 0, 0] (frameV (dirOf 1 fn));
      dot ![0, 1, 0] (frameU (dirOf 1 fn)), dot ![0, 1, 0] (frameV (dirOf 1 fn))] *ᵥ x) hbad
    simp only [Matrix.mulVec_mulVec] at h5
    rw [hA, Matrix.one_mulVec] at h5
    have h6 := congrFun h5 1
    simp [Matrix.mulVec, dotProduct, Fin.sum_univ_two, dot, ← hU, ← hV] at h6
    have := mul_pos hc1 (Real.sqrt_pos.2 (two_pos (α := ℝ)))
    linarith

/-! ## C88 -/

/-- the change of dip angle and azimuth that belongs to a deflection by the angles `a` and `b` towards U and V -/
def Kink (T : R3) (a b dlam dphi : ℝ) : Prop := toT T ![0, dlam, dphi, 0, 0] = a • frameU T + b • frameV T

/-- a matrix that maps deflections to changes of dip angle and azimuth -/
def IsKinkMap (T : R3) (L : Matrix (Fin 2) (Fin 2) ℝ) : Prop := ∀ a b : ℝ, Kink T a b ((L *ᵥ ![a, b]) 0) ((L *ᵥ ![a, b]) 1)

theorem kinkMap_iff {T : R3} (hT : dot T T = 1) (hc : cosDip T ≠ 0) (L : Matrix (Fin 2) (Fin 2) ℝ) :
    IsKinkMap T L ↔ L = !![0, 1; 1 / cosDip T, 0] := by
  have e1 := frameU_unit hc
  have e2 := frameV_unit hT hc
  have e3 := frameU_dot_V T
  constructor
  · intro h
    have key : ∀ a b, (L *ᵥ ![a, b]) 0 = b ∧ (L *ᵥ ![a, b]) 1 = a / cosDip T := by
      intro a b
      have hk := h a b
      unfold Kink toT at hk
      generalize (L *ᵥ ![a, b]) 0 = x at *
      generalize (L *ᵥ ![a, b]) 1 = y at *
      simp only [cons_val_one, cons_val, cons_val_zero] at hk
      have hU : dot (x • frameV T + (y * cosDip T) • frameU T) (frameU T) = dot (a • frameU T + b • frameV T) (frameU T) := by rw [hk]
      have hV : dot (x • frameV T + (y * cosDip T) • frameU T) (frameV T) = dot (a • frameU T + b • frameV T) (frameV T) := by rw [hk]
      simp only [dot, Pi.add_apply, Pi.smul_apply, smul_eq_mul] at hU hV e1 e2 e3
      constructor
      · linear_combination hV + (b - x) * e2 + (a - y * cosDip T) * e3
      · rw [eq_div_iff hc]
        linear_combination hU + (a - y * cosDip T) * e1 + (b - x) * e3
    ext i k
    have k1 := key 1 0
    have k2 := key 0 1
    simp [Matrix.mulVec, dotProduct, Fin.sum_univ_two] at k1 k2
    fin_cases i <;> fin_cases k <;> simp [k1, k2]
  · rintro rfl a b
    unfold Kink toT
    simp only [cons_val_one, cons_val, cons_val_zero]
    have h1 : (!![0, 1; 1 / cosDip T, 0] *ᵥ ![a, b]) 0 = b := by simp [Matrix.mulVec, dotProduct, Fin.sum_univ_two]
    have h2 : (!![0, 1; 1 / cosDip T, 0] *ᵥ ![a, b]) 1 * cosDip T = a := by
      simp [Matrix.mulVec, dotProduct, Fin.sum_univ_two]
      field_simp
    rw [h1, h2, add_comm]

/-- C88: scattering by two independent angles of variance q = qms² gives changes of dip angle and azimuth with covariance q L Lᵀ.
The matrix handed to the fitter times this covariance is not 1 but diag(1, 1/cos²λ). -/
theorem C88_value {T : R3} (hT : dot T T = 1) (hc : cosDip T ≠ 0) {qms : ℝ} (hq : qms ≠ 0) {L : Matrix (Fin 2) (Fin 2) ℝ}
    (hL : IsKinkMap T L) : ∃ M : Matrix (Fin 2) (Fin 2) ℝ,
      scatteringPrecision (fin qms * fin qms) 0 0 = (fun i k => fin (M i k)) ∧
      M * (qms ^ 2 • (L * Lᵀ)) = !![1, 0; 0, 1 / cosDip T ^ 2] := by
  refine ⟨!![1 / qms ^ 2, 0; 0, 1 / qms ^ 2], ?_, ?_⟩
  · rw [C53_scatterer hq]
    funext i k
    fin_cases i <;> fin_cases k <;> rfl
  · rw [(kinkMap_iff hT hc L).1 hL]
    ext i k
    fin_cases i <;> fin_cases k <;> simp [Matrix.mul_apply, Matrix.vecMul, dotProduct, Matrix.transpose_apply, Fin.sum_univ_two] <;>
      field_simp

/-- the scattering of a new measurement on a scatterer, in terms of the track -/
theorem scat_point {env : Env} {t : Traj} {pos : V3} {p q : Dbl} {surf : Surface} {id : ℕ}
    (h : (t.step env (.measurement pos [p, q] surf id true)).2 = .ok true) :
    ∃ (back e : Element) (hit : Hit) (tp : TP) (w : Dbl), t.withStart.elems.getLast? = some back ∧
      (t.step env (.measurement pos [p, q] surf id true)).1.elems = t.withStart.elems ++ [e] ∧
      intersectWithSurface surf back.tp.hp back.tp.rp 0 V3.zero 1 false = .ok hit ∧
      moveHelixTo back.tp hit.xx false = .ok (tp, w) ∧
      ∀ j, ∃ pt, gblPoint { e with jac := some j } = .ok pt ∧
        pt.scat = some (![0, 0], scatteringPrecision (hitQMS env t.mass surf hit tp * hitQMS env t.mass surf hit tp) 0 0) := by
  obtain ⟨back, e, hit, tp, w, h1, h2, h3, -, h5, h6, -⟩ := C52_measurement_partial h
  refine ⟨back, e, hit, tp, w, h1, h2, h3, h5, fun j => ?_⟩
  obtain ⟨pt, q1, q2⟩ := h6 p q j rfl
  exact ⟨pt, q1, by rw [q2.scat, if_pos rfl]⟩

/-- C88 (partial): for a track without dip the matrix handed to the fitter for a scatterer is the inverse of the covariance of the
changes of dip angle and azimuth.  Missing for C88: tracks with a dip angle (`C88_false`). -/
theorem C88_flat_partial {env : Env} {t : Traj} {surf : Surface} (h : (t.step env (.scatterer surf)).2 = .ok true) :
    ∃ (back e : Element) (hit : Hit) (tp : TP) (w : Dbl), t.withStart.elems.getLast? = some back ∧
      (t.step env (.scatterer surf)).1.elems = t.withStart.elems ++ [e] ∧
      intersectWithSurface surf back.tp.hp back.tp.rp 0 V3.zero 1 true = .ok hit ∧
      moveHelixTo back.tp hit.xx false = .ok (tp, w) ∧
      ∀ {om ph d z qms : ℝ}, tp.hp = hpR om 0 ph d z → hitQMS env t.mass surf hit tp = fin qms → qms ≠ 0 →
        ∃ M : Matrix (Fin 2) (Fin 2) ℝ,
          (∀ j, ∃ pt, gblPoint { e with jac := some j } = .ok pt ∧ pt.scat = some (![0, 0], fun i k => fin (M i k))) ∧
          ∀ L, IsKinkMap (dirOf 0 ph) L → M * (qms ^ 2 • (L * Lᵀ)) = 1 := by
  obtain ⟨back, e, hit, tp, w, h1, h2, h3, -, h5, h6⟩ := C52_scatterer h
  refine ⟨back, e, hit, tp, w, h1, h2, h3, h5, fun {om ph d z qms} _ hq hq0 => ?_⟩
  have hc : cosDip (dirOf 0 ph) = 1 := by rw [dirOf_cosDip, Real.arctan_zero, Real.cos_zero]
  obtain ⟨M, m1, m2⟩ := C88_value (T := dirOf 0 ph) dirOf_unit (by rw [hc]; exact one_ne_zero) hq0
    ((kinkMap_iff dirOf_unit (by rw [hc]; exact one_ne_zero) _).2 rfl)
  refine ⟨M, fun j => ⟨_, h6 j, ?_⟩, fun L hL => ?_⟩
  · rw [hq, m1]
  · rw [(kinkMap_iff dirOf_unit (by rw [hc]; exact one_ne_zero) L).1 hL, m2, hc]
    ext i k
    fin_cases i <;> fin_cases k <;> simp

open Example in
/-- C88 is false: a measurement on the thick disk of the example, for a track with the dip angle π/4. -/
theorem C88_false (pos : V3) (p q : Dbl) (id : ℕ) : ∃ (surf : Surface) (e : Element) (hit : Hit) (tp' : TP) (w : Dbl)
    (M L : Matrix (Fin 2) (Fin 2) ℝ) (om tl ph d z qms : ℝ),
    ((make tp).step env (.measurement pos [p, q] surf id true)).2 = .ok true ∧
    ((make tp).step env (.measurement pos [p, q] surf id true)).1.elems = (make tp).withStart.elems ++ [e] ∧
    intersectWithSurface surf tp.hp tp.rp 0 V3.zero 1 false = .ok hit ∧ moveHelixTo tp hit.xx false = .ok (tp', w) ∧
    tp'.hp = hpR om tl ph d z ∧ hitQMS env pionMass surf hit tp' = fin qms ∧ 0 < qms ∧
    (∀ j, ∃ pt, gblPoint { e with jac := some j } = .ok pt ∧ pt.scat = some (![0, 0], fun i k => fin (M i k))) ∧
    IsKinkMap (dirOf tl ph) L ∧ M * (qms ^ 2 • (L * Lᵀ)) ≠ 1 := by
  obtain ⟨th, h9, hadd⟩ := added_thick pos [p, q] id true
  obtain ⟨back, e, hit, tp', w, r1, r2, r3, r4, r5⟩ := scat_point hadd
  have hb : back = Element.start (fin 0) tp 0 := by
    have hw : (make tp).withStart.elems = [Element.start (fin 0) tp 0] := by
      unfold withStart
      rw [if_pos (show (make tp).elems = [] from rfl)]
      simp only [addElement, make, List.nil_append]
      rw [show calculateSfromXY V3.zero.x V3.zero.y tp.hp tp.rp = fin 0 from start_zero]
    rw [hw] at r1
    simpa using r1.symm
  subst hb
  obtain ⟨hit', h1, h2, h3, h4⟩ := disk_hit (ib := fun _ => true) 0 0 1 one_pos false (fun h => by cases h)
  have r3' : intersectWithSurface (diskT th) tp.hp tp.rp 0 V3.zero 1 false = .ok hit := r3
  have hh : hit = hit' := by
    have : intersectWithSurface (diskT th) tp.hp tp.rp 0 V3.zero 1 false = .ok hit' := h1
    rw [this] at r3'
    injection r3' with r3'
    exact r3'.symm
  subst hh
  obtain ⟨fn, k, -, -, -, h5⟩ := move_to_track (om := 1) (tl := 1) (ph := 0) (d := 0) (z := 0) (rx := 0) (ry := 0) (rz := 0)
    (sv := 1) M5.zero one_ne_zero (by rw [mul_one, abs_one]; linarith [Real.pi_gt_three])
  rw [← h4] at h5
  have h5' : moveHelixTo tp hit.xx false = _ := h5
  have r4' : moveHelixTo tp hit.xx false = .ok (tp', w) := r4
  have r4'' := r4'
  rw [h5'] at r4''
  injection r4'' with r4''
  injection r4'' with r4'' _
  subst r4''
  obtain ⟨qms, hq, hqe⟩ := qms_thick fn th hit.xx ((diskT th).globalToLocal hit.xx) h9
  have hqm : hitQMS env pionMass (diskT th) hit ⟨M5.zero, hpR 1 1 fn 0 0, hit.xx⟩ = fin qms := hqe
  have hcd : cosDip (dirOf 1 fn) ≠ 0 := by rw [dirOf_cosDip]; exact (Real.cos_arctan_pos 1).ne'
  have hL := (kinkMap_iff (T := dirOf 1 fn) dirOf_unit hcd _).2 rfl
  obtain ⟨M, m1, m2⟩ := C88_value dirOf_unit hcd hq.ne' hL
  refine ⟨diskT th, e, hit, _, w, M, _, 1, 1, fn, 0, 0, qms, hadd, r2, r3', r4', rfl, hqm, hq, fun j => ?_, hL, ?_⟩
  · obtain ⟨pt, q1, q2⟩ := r5 j
    refine ⟨pt, q1, ?_⟩
    rw [q2, show (make tp).mass = pionMass from rfl, hqm, m1]
  · rw [m2]
    intro hbad
    have h6 := congrFun (congrFun hbad 1) 1
    rw [dirOf_cosDip, Real.arctan_one, Real.cos_pi_div_four] at h6
    simp only [Matrix.of_apply, cons_val_one, cons_val_zero, Matrix.one_apply_eq, div_pow, Real.sq_sqrt (show (0 : ℝ) ≤ 2 by norm_num)] at h6
    norm_num at h6

end Verif
