import Verif.Lemmas.RoundedPropagation

/-!
# C142: the propagation Jacobian in double precision

The theorems compare the matrix computed in double precision with the matrix of the exact formulas (which C42 compares with the equation of
motion).  The columns are in units of q/p, 1, 1, 1/q, 1/q and the rows in units of q/p, 1, 1/cos λ, 1/q, 1/q, where q is the rate of turn.
-/

open Classical

noncomputable section

namespace Verif

open Dbl Rnd Spec Rounded

variable {fl : ℝ → ℝ} {lm : Libm} {w qop loss : ℝ} {T0 T b : R3}

/-- directions of length at most 1.001, not closer to the z axis than 2^-100, a field and a momentum between 2^-100 and 2^100, at most 4 rad of turn -/
structure JacRange (w qop loss : ℝ) (T0 T b : R3) : Prop where
  t0 : dot T0 T0 ≤ (1001 / 1000) ^ 2
  t1 : dot T T ≤ (1001 / 1000) ^ 2
  c0 : 1 / 2 ^ 100 ≤ cosDip T0
  c1 : 1 / 2 ^ 100 ≤ cosDip T
  b0 : 1 / 2 ^ 100 ≤ √(dot b b)
  b1 : √(dot b b) ≤ 2 ^ 100
  q0 : 1 / 2 ^ 100 ≤ |qop|
  q1 : |qop| ≤ 2 ^ 100
  turn : |turnRate b * qop * w| ≤ 4
  hl : |loss| ≤ 1

/-- units of the rows: q/p, angle, angle over cos λ, radius, radius -/
def jacRow (qop : ℝ) (T b : R3) : Fin 5 → ℝ := ![|qop|, 1, 1 / cosDip T, 1 / |turnRate b * qop|, 1 / |turnRate b * qop|]

/-- units of the columns: q/p, angle, angle, radius, radius -/
def jacCol (qop : ℝ) (b : R3) : Fin 5 → ℝ := ![|qop|, 1, 1, 1 / |turnRate b * qop|, 1 / |turnRate b * qop|]

theorem cosDip_le {v : R3} (h : dot v v ≤ (1001 / 1000) ^ 2) : cosDip v ≤ 1001 / 1000 := by
  refine Real.sqrt_le_iff.2 ⟨by norm_num, ?_⟩
  unfold dot at h
  linarith [mul_self_nonneg (v 2)]

theorem vec_ap {v : R3} (h : dot v v ≤ (1001 / 1000) ^ 2) : ApV 0 1 (V3.of v) (V3.of v) (1001 / 1000) 0 := by
  have B : ∀ i, |v i| ≤ 1001 / 1000 := by
    intro i
    refine abs_le_of_sq_le_sq ?_ (by norm_num)
    unfold dot at h
    fin_cases i <;> simp only [Fin.zero_eta, Fin.mk_one, Fin.reduceFinMk, Fin.isValue] <;> nlinarith [sq_nonneg (v 0), sq_nonneg (v 1), sq_nonneg (v 2)]
  refine ⟨Ap.unit (B 0), Ap.unit (B 1), Ap.unit (B 2), fun x y z hv => ?_⟩
  simp only [V3.of, V3.re, V3.mk.injEq, fin.injEq] at hv
  obtain ⟨rfl, rfl, rfl⟩ := hv
  unfold dot at h
  rw [mul_one]
  linarith

theorem ap_near {k : ℕ} {S c : ℝ} {a a' : Dbl} (h : Ap k S a a' 16 4000) (hc : S = c) :
    ∃ r x, a = fin r ∧ a' = fin x ∧ |r - x| ≤ 1 / 2 ^ 41 * c ∧ |x| ≤ 16 * c := by
  have S0 := h.pos
  obtain ⟨r, x, h1, h2, h3, h4⟩ := h.val
  subst hc
  refine ⟨r, x, h1, h2, h3.trans ?_, h4⟩
  have : (4000 : ℝ) * (1 / 2 ^ 53) ≤ 1 / 2 ^ 41 := by norm_num
  have := mul_le_mul_of_nonneg_right this S0.le
  linarith

/-- C142, where it holds: every entry differs from the exact one by at most 2^-41 in the units of its row and column, and is at most 16 in these units;
the rest of the first row stays.  Missing for C142: entries that are small in these units, as for small turning angles (see `C142_doubled`). -/
theorem C142_partial (h : NearestF 53 1074 fl) (hl : IsLibm lm) (hr : JacRange w qop loss T0 T b) (jac : M5) :
    (∀ j, j ≠ 0 → Rnd.analyticalJacobian fl lm jac (fin w) (fin qop) (V3.of T0) (V3.of T) (V3.of b) (fin loss) 0 j = jac 0 j ∧
      Verif.analyticalJacobian jac (fin w) (fin qop) (V3.of T0) (V3.of T) (V3.of b) (fin loss) 0 j = jac 0 j) ∧
    ∀ i j, (i = 0 → j = 0) → ∃ r x, Rnd.analyticalJacobian fl lm jac (fin w) (fin qop) (V3.of T0) (V3.of T) (V3.of b) (fin loss) i j = fin r ∧
      Verif.analyticalJacobian jac (fin w) (fin qop) (V3.of T0) (V3.of T) (V3.of b) (fin loss) i j = fin x ∧
      |r - x| ≤ 1 / 2 ^ 41 * (jacRow qop T b i / jacCol qop b j) ∧ |x| ≤ 16 * (jacRow qop T b i / jacCol qop b j) := by
  have k0 := kBr_pos
  have Bp : 0 < √(dot b b) := lt_of_lt_of_le (by positivity) hr.b0
  have Qp : 0 < |qop| := lt_of_lt_of_le (by positivity) hr.q0
  have qn : qop ≠ 0 := abs_pos.1 Qp
  have T0p : 0 < cosDip T0 := lt_of_lt_of_le (by positivity) hr.c0
  have Tp : 0 < cosDip T := lt_of_lt_of_le (by positivity) hr.c1
  have c0' := cosDip_le hr.t0
  have c1' := cosDip_le hr.t1
  have c0'' : cosDip T0 ≤ 2 ^ 100 := c0'.trans (by norm_num)
  have c1'' : cosDip T ≤ 2 ^ 100 := c1'.trans (by norm_num)
  have Sq : √(dot b b) * kBr * |qop| = |turnRate b * qop| := by
    rw [abs_mul, turnRate, neg_mul, abs_neg, abs_of_pos (show 0 < √(dot b b) * kBr by positivity)]
  have Sqp : 0 < √(dot b b) * kBr * |qop| := by positivity
  -- inputs
  have hhn := unit_ap h hr.b0 hr.b1
  have hts := vec_ap hr.t0
  have hte := vec_ap hr.t1
  have hu1 := frameU_ap h hr.c0 c0''
  have hu2 := frameU_ap h hr.c1 c1''
  have hv1 := frameV_ap h hu1 zero_eq hr.t0
  have hv2 := frameV_ap h hu2 zero_eq hr.t1
  have hqp : Ap 109 (√(dot b b) * kBr) (mulD fl (-rV fl (V3.of b)) (convD fl)) (-(V3.of b).r * convertBr2P_cm) 1 (1004 / 100) :=
    (Ap.mul h (r_ap h hr.b0 hr.b1).neg (conv_ap h) (by norm_num) (by norm_num) (by norm_num) (by norm_num)).mono (by norm_num) (by norm_num)
  have gq : Ap 100 |qop| (fin qop) (fin qop) 1 0 := Ap.given hr.q0 hr.q1 (by rw [one_mul])
  have hq : Ap 209 (√(dot b b) * kBr * |qop|) (mulD fl (mulD fl (-rV fl (V3.of b)) (convD fl)) (fin qop))
      (-(V3.of b).r * convertBr2P_cm * fin qop) 1 (1106 / 100) :=
    (Ap.mul h hqp gq (by norm_num) (by norm_num) (by norm_num) (by norm_num)).mono (by norm_num) (by norm_num)
  have hy : -(V3.of b).r * convertBr2P_cm * fin qop = fin (turnRate b * qop) := by
    rw [ofV_r, convertBr2P_cm, fin_neg, fin_mul, fin_mul]
    rfl
  have hS : √(dot b b) * kBr * |qop| ≤ |turnRate b * qop| := Sq.le
  obtain ⟨i1, i2⟩ := scale_inv hq.lo hq.hi
  have gw : Ap 209 (1 / (√(dot b b) * kBr * |qop|)) (fin w) (fin w) 4 0 := by
    refine Ap.given i1 i2 ?_
    have := hr.turn
    rw [abs_mul, ← Sq] at this
    rw [mul_one_div, le_div_iff₀ Sqp]
    linarith
  have hth : Ap 0 1 (mulD fl (mulD fl (mulD fl (-rV fl (V3.of b)) (convD fl)) (fin qop)) (fin w))
      (-(V3.of b).r * convertBr2P_cm * fin qop * fin w) 4 (483 / 10) :=
    ((Ap.mul h hq gw (by norm_num) (by norm_num) (by norm_num) (by norm_num)).rescale (l := 0) (T := 1) (c := 1)
      (by rw [mul_one_div_cancel Sqp.ne', one_mul]) (by norm_num) (by norm_num)).mono (by norm_num) (by norm_num)
  have hs := (Ap.sin hl hth).mono (B' := 1) (e' := 257 / 5) le_rfl (by norm_num)
  have hc := (Ap.cos hl hth).mono (B' := 1) (e' := 257 / 5) le_rfl (by norm_num)
  have one : Ap 0 1 (1 : Dbl) 1 1 0 := Ap.unit (by simp)
  have hp := (Ap.divr h one gq rfl le_rfl (by norm_num) (by norm_num) (by norm_num) (by norm_num)).mono (B' := 1) (e' := 11 / 10) le_rfl (by norm_num)
  have hcs := ((trans_ap h hr.c0 c0'').rescale (l := 0) (T := 1) (c := 1001 / 1000) (by rw [mul_one]; exact c0') (by norm_num) (by norm_num)).mono
    (B' := 1001 / 1000) (e' := 41 / 10) (by norm_num) (by norm_num)
  have hci := (Ap.divr h one (trans_ap h hr.c1 c1'') (sqrt_xy_of T) (le_abs_self _) (by norm_num) (by norm_num) (by norm_num) (by norm_num)).mono
    (B' := 1) (e' := 51 / 10) le_rfl (by norm_num)
  have hloss : Ap 0 1 (addD fl 1 (fin loss)) (1 + fin loss) 16 4000 :=
    (Ap.add h one (Ap.unit hr.hl) (by norm_num) (by norm_num) (by norm_num)).mono (by norm_num) (by norm_num)
  obtain ⟨⟨r10, r11, r12, r13, r14⟩, ⟨r20, r21, r22, r23, r24⟩, ⟨r30, r31, r32, r33, r34⟩, ⟨r40, r41, r42, r43, r44⟩⟩ :=
    jac_core h hhn hts hte hu1 hu2 hv1 hv2 hth hs hc (hq.mono le_rfl (by norm_num)) hy hS (hqp.mono le_rfl (by norm_num)) hp hcs hci rfl rfl rfl rfl rfl rfl
      rfl rfl rfl rfl rfl rfl rfl rfl rfl rfl rfl rfl rfl rfl
  -- the branch
  have nq' : ¬ Dbl.eqv (-(V3.of b).r * convertBr2P_cm * fin qop) 0 := by
    rw [hy, zero_eq, fin_eqv]
    exact abs_pos.1 (Sq ▸ Sqp)
  have nq : ¬ Dbl.eqv (mulD fl (mulD fl (-rV fl (V3.of b)) (convD fl)) (fin qop)) 0 := by
    obtain ⟨r, x, e1, e2, e3, -⟩ := hq.val
    rw [e2] at hy
    injection hy with hy
    rw [e1, zero_eq, fin_eqv]
    rintro rfl
    rw [zero_sub, abs_neg, hy, ← Sq] at e3
    have : (1106 / 100 : ℝ) * (1 / 2 ^ 53) < 1 := by norm_num
    nlinarith
  have s1 : √(dot b b) * kBr * (1 / (√(dot b b) * kBr * |qop|)) = 1 / |qop| := by field_simp
  unfold Rnd.analyticalJacobian Verif.analyticalJacobian
  simp only [cif_neg nq, cif_neg nq']
  constructor
  · intro j hj
    fin_cases j
    · exact absurd rfl hj
    all_goals exact ⟨rfl, rfl⟩
  · intro i j hij
    fin_cases i <;> fin_cases j
    · exact ap_near hloss (by simp [jacRow, jacCol, Qp.ne'])
    · simp at hij
    · simp at hij
    · simp at hij
    · simp at hij
    · exact ap_near r10 (by rw [s1]; simp [jacRow, jacCol])
    · exact ap_near r11 (by simp [jacRow, jacCol])
    · exact ap_near r12 (by simp [jacRow, jacCol])
    · exact ap_near r13 (by rw [Sq]; simp [jacRow, jacCol])
    · exact ap_near r14 (by rw [Sq]; simp [jacRow, jacCol])
    · exact ap_near r20 (by rw [s1]; simp [jacRow, jacCol]; ring)
    · exact ap_near r21 (by simp [jacRow, jacCol])
    · exact ap_near r22 (by simp [jacRow, jacCol])
    · exact ap_near r23 (by rw [Sq]; simp [jacRow, jacCol]; rw [← mul_inv, div_inv_eq_mul]; ring)
    · exact ap_near r24 (by rw [Sq]; simp [jacRow, jacCol]; rw [← mul_inv, div_inv_eq_mul]; ring)
    · exact ap_near r30 (by rw [Sq]; simp [jacRow, jacCol]; ring)
    · exact ap_near r31 (by rw [Sq]; simp [jacRow, jacCol])
    · exact ap_near r32 (by rw [Sq]; simp [jacRow, jacCol])
    · exact ap_near r33 (Eq.symm (div_self (show (1 : ℝ) / |turnRate b * qop| ≠ 0 by rw [← Sq]; positivity)))
    · exact ap_near r34 (Eq.symm (div_self (show (1 : ℝ) / |turnRate b * qop| ≠ 0 by rw [← Sq]; positivity)))
    · exact ap_near r40 (by rw [Sq]; simp [jacRow, jacCol]; ring)
    · exact ap_near r41 (by rw [Sq]; simp [jacRow, jacCol])
    · exact ap_near r42 (by rw [Sq]; simp [jacRow, jacCol])
    · exact ap_near r43 (Eq.symm (div_self (show (1 : ℝ) / |turnRate b * qop| ≠ 0 by rw [← Sq]; positivity)))
    · exact ap_near r44 (Eq.symm (div_self (show (1 : ℝ) / |turnRate b * qop| ≠ 0 by rw [← Sq]; positivity)))

/-- hypotheses of C142: 2 GeV in 3.5 T, a step of 1 m -/
example : JacRange 100 (1 / 2) (1 / 10) ![3 / 5, 0, 4 / 5] ![0, 3 / 5, 4 / 5] ![0, 0, 7 / 2] := by
  have c : √(dot ![0, 0, 7 / 2] ![0, 0, 7 / 2]) = 7 / 2 := by
    rw [show dot ![0, 0, 7 / 2] ![0, 0, 7 / 2] = (7 / 2 : ℝ) ^ 2 by simp [dot]; norm_num, Real.sqrt_sq (by norm_num)]
  have d0 : cosDip ![3 / 5, 0, 4 / 5] = 3 / 5 := by
    rw [cosDip, show (![3 / 5, 0, 4 / 5] : R3) 0 * (![3 / 5, 0, 4 / 5] : R3) 0 + (![3 / 5, 0, 4 / 5] : R3) 1 * (![3 / 5, 0, 4 / 5] : R3) 1 = (3 / 5 : ℝ) ^ 2 by
      simp; norm_num, Real.sqrt_sq (by norm_num)]
  have d1 : cosDip ![0, 3 / 5, 4 / 5] = 3 / 5 := by
    rw [cosDip, show (![0, 3 / 5, 4 / 5] : R3) 0 * (![0, 3 / 5, 4 / 5] : R3) 0 + (![0, 3 / 5, 4 / 5] : R3) 1 * (![0, 3 / 5, 4 / 5] : R3) 1 = (3 / 5 : ℝ) ^ 2 by
      simp; norm_num, Real.sqrt_sq (by norm_num)]
  refine ⟨by simp [dot]; norm_num, by simp [dot]; norm_num, by rw [d0]; norm_num, by rw [d1]; norm_num, by rw [c]; norm_num, by rw [c]; norm_num,
    by rw [abs_of_pos (by norm_num)]; norm_num, by rw [abs_of_pos (by norm_num)]; norm_num, ?_, by rw [abs_of_pos (by norm_num)]; norm_num⟩
  rw [turnRate, c, kBr, abs_le]
  constructor <;> norm_num

/-! ## small angles -/

/-- each entry within one half of its exact value, for numbers of type `double` -/
def C142_claim (fl : ℝ → ℝ) (lm : Libm) : Prop :=
  ∀ (w qop loss : ℝ) (T0 T b : R3) (jac : M5), JacRange w qop loss T0 T b → RepF 53 1074 w → RepF 53 1074 qop → RepF 53 1074 loss →
    (∀ i, RepF 53 1074 (T0 i) ∧ RepF 53 1074 (T i) ∧ RepF 53 1074 (b i)) → ∀ i j, (i = 0 → j = 0) →
    ∃ r x, Rnd.analyticalJacobian fl lm jac (fin w) (fin qop) (V3.of T0) (V3.of T) (V3.of b) (fin loss) i j = fin r ∧
      Verif.analyticalJacobian jac (fin w) (fin qop) (V3.of T0) (V3.of T) (V3.of b) (fin loss) i j = fin x ∧ |r - x| ≤ 1 / 2 * |x|

section
variable {at2 : ℝ → ℝ → ℝ} {q : ℝ}

theorem jac_small_computed (h : NearestF 53 1074 fl) (hc : CorrectLib fl lm at2) (jac : M5)
    (hq : mulD fl (mulD fl (-rV fl (V3.of ![0, 0, 1])) (convD fl)) (fin (1 / 2 ^ 24)) = fin q) (qr : RepF 53 1074 q) (q0 : q ≠ 0) (q1 : |q| ≤ 1 / 2 ^ 30) :
    Rnd.analyticalJacobian fl lm jac (fin 1) (fin (1 / 2 ^ 24)) (V3.of ![1, 0, 0]) (V3.of ![1, q, 0]) (V3.of ![0, 0, 1]) (fin 0) 3 0 =
      fin (fl (2 ^ 24 * q)) := by
  have q2 : |q| ≤ 100 := q1.trans (by norm_num)
  have f0 : fl 0 = 0 := h.fix repF_zero
  have f1 : fl 1 = 1 := h.fix repF_one
  have fm1 : fl (-1) = -1 := h.fix (repF_neg repF_one)
  have fq : fl q = q := h.fix qr
  have R : ∀ {t : ℝ}, |t| ≤ 100 → rnd fl 1024 (fin t) = fin (fl t) := fun ht => rnd_small h ht
  have r0 : rnd fl 1024 (fin 0) = fin 0 := by rw [R (by simp), f0]
  have r1 : rnd fl 1024 (fin 1) = fin 1 := by rw [R (by simp), f1]
  have rm1 : rnd fl 1024 (fin (-1)) = fin (-1) := by rw [R (by simp), fm1]
  have rq : rnd fl 1024 (fin q) = fin q := by rw [R q2, fq]
  have rmq : rnd fl 1024 (fin (-q)) = fin (-q) := by rw [R (by rwa [abs_neg]), h.fix (repF_neg qr)]
  have sq1 : q ^ 2 ≤ (1 / 2 ^ 30) ^ 2 := sq_le_sq' (by linarith [(abs_le.1 q1).1]) (by linarith [(abs_le.1 q1).2])
  have sqn := sq_nonneg q
  -- the square of the slope is lost
  have rs : rnd fl 1024 (fin (1 + fl (q * q))) = fin 1 := by
    have k := h.double (q * q)
    rw [abs_mul_self] at k
    have k' : |fl (q * q)| ≤ 1 / 2 ^ 58 := k.trans (by norm_num at sq1 ⊢; linarith)
    have e : fl (1 + fl (q * q)) = 1 := by
      refine h.back repF_one ?_
      rw [add_sub_cancel_left, abs_one]
      exact (mul_le_mul_of_nonneg_right k' (by positivity)).trans (by norm_num)
    rw [R, e]
    refine (abs_add_le _ _).trans ?_
    rw [abs_one]
    have : (1 : ℝ) / 2 ^ 58 ≤ 1 := by norm_num
    linarith
  have rqq : rnd fl 1024 (fin (q * q)) = fin (fl (q * q)) := R (by rw [abs_mul_self]; norm_num at sq1; linarith)
  -- sine and cosine
  have hs : lm.sin q = q := by
    rw [hc.sin]
    refine h.back qr ?_
    have k := Real.sin_bound (x := q) (q1.trans (by norm_num))
    have k2 : |Real.sin q - q| ≤ |q| ^ 3 := by
      have k3 : |Real.sin q - q| ≤ |Real.sin q - (q - q ^ 3 / 6)| + |q ^ 3 / 6| := by
        have := abs_sub (Real.sin q - (q - q ^ 3 / 6)) (q ^ 3 / 6)
        refine le_trans (le_of_eq ?_) this
        congr 1
        ring
      rw [abs_div, abs_pow, abs_of_pos (show (0 : ℝ) < 6 by norm_num)] at k3
      have k4 : |q| ^ 5 ≤ |q| ^ 3 := pow_le_pow_of_le_one (abs_nonneg q) (q1.trans (by norm_num)) (by norm_num)
      have := pow_nonneg (abs_nonneg q) 3
      linarith
    have k5 : |q| ^ 3 = |q| ^ 2 * |q| := by ring
    rw [sq_abs] at k5
    rw [k5] at k2
    have k6 : q ^ 2 * 2 ^ (53 + 3) ≤ 1 := (mul_le_mul_of_nonneg_right sq1 (by positivity)).trans (by norm_num)
    calc |Real.sin q - q| * 2 ^ (53 + 3) ≤ q ^ 2 * |q| * 2 ^ (53 + 3) := mul_le_mul_of_nonneg_right k2 (by positivity)
      _ = q ^ 2 * 2 ^ (53 + 3) * |q| := by ring
      _ ≤ 1 * |q| := mul_le_mul_of_nonneg_right k6 (abs_nonneg q)
      _ = |q| := one_mul _
  have hcos : lm.cos q = 1 := by
    rw [hc.cos]
    refine h.back repF_one ?_
    have c1 := Real.one_sub_sq_div_two_le_cos (x := q)
    have c2 := Real.cos_le_one q
    rw [abs_one, abs_of_nonpos (by linarith)]
    norm_num at sq1 ⊢
    linarith
  have rp : rnd fl 1024 (fin (2 ^ 24)) = fin (2 ^ 24) := by
    have : RepF 53 1074 (2 ^ 24 : ℝ) := rep_dyadic (2 ^ 24) 0 (by norm_num) (by norm_num) (by norm_num)
    rw [rnd_double h, h.fix this]
    rw [abs_of_pos (by norm_num)]
    exact pow_le_pow_right₀ (by norm_num) (by norm_num)
  have rr : rnd fl 1024 (fin (2 ^ 24 * q)) = fin (fl (2 ^ 24 * q)) := by
    refine R ?_
    rw [abs_mul, abs_of_pos (by norm_num)]
    norm_num at q1 ⊢
    linarith
  have s1 : Dbl.sqrt (fin 1) = fin 1 := by rw [sqrt_fin zero_le_one, Real.sqrt_one]
  have nq : ¬ Dbl.eqv (fin q) 0 := by
    rw [zero_eq, fin_eqv]
    exact q0
  have hn : unitV fl (V3.of ![0, 0, 1]) = ⟨fin 0, fin 0, fin 1⟩ := by
    simp [unitV, rV, dotV, V3.of, V3.re, mulD, addD, divD, sqrtD, fin_mul, fin_add, r0, r1, s1, fin_div]
  have htr : transV fl (V3.of ![1, q, 0]) = fin 1 := by
    simp only [transV, V3.of, V3.re, mulD, addD, sqrtD, Matrix.cons_val_zero, Matrix.cons_val_one, fin_mul, mul_one, r1, rqq, fin_add, rs, s1]
  have hpav : divD fl 1 (fin (1 / 2 ^ 24)) = fin (2 ^ 24) := by
    rw [divD, one_eq, fin_div _ (by norm_num), one_div_one_div, rp]
  unfold Rnd.analyticalJacobian
  simp only [hq, cif_neg nq, hn, htr, hpav]
  simp [M5.set]
  simp [V3.of, V3.re, dotV, crossV, jacDx, sinD, cosD, hs, hcos, mulD, addD, subD, divD, fin_mul, fin_add, fin_sub, fin_neg, fin_div, r0, r1, rm1, rq, rmq,
    q0, rr]

theorem jac_small_exact (hq : |q + kBr * (1 / 2 ^ 24)| ≤ 1 / 1000 * (kBr * (1 / 2 ^ 24))) :
    ∃ x, Verif.analyticalJacobian M5.zero (fin 1) (fin (1 / 2 ^ 24)) (V3.of ![1, 0, 0]) (V3.of ![1, q, 0]) (V3.of ![0, 0, 1]) (fin 0) 3 0 = fin x ∧
      |x| ≤ 51 / 100 * kBr ∧ x ≠ 0 := by
  have k0 := kBr_pos
  have k1 : kBr ≤ 1 := by unfold kBr; norm_num
  have cd1 : 1 ≤ cosDip ![1, q, 0] := by
    refine Real.one_le_sqrt.2 ?_
    simp only [Matrix.cons_val_zero, Matrix.cons_val_one]
    linarith [mul_self_nonneg q]
  have db : √(dot ![0, 0, 1] ![0, 0, 1]) = 1 := by simp [dot]
  have bn : (![0, 0, 1] : R3) ≠ 0 := fun h => by simpa using congrFun h 2
  have e := analyticalJacobian_motion (w := 1) (qop := 1 / 2 ^ 24) (loss := 0) (T0 := ![1, 0, 0]) (T := ![1, q, 0]) bn (by norm_num) (by simp [cosDip])
    (by linarith)
  obtain ⟨K, hK⟩ : ∃ K, K = kBr * (1 / 2 ^ 24) := ⟨_, rfl⟩
  have Kp : 0 < K := by rw [hK]; positivity
  have Ks : K ≤ 1 / 2 ^ 24 := by
    rw [hK]
    exact mul_le_of_le_one_left (by positivity) k1
  rw [← hK] at hq
  obtain ⟨N, hN⟩ : ∃ N, N = -q * Real.sin K - (1 - Real.cos K) := ⟨_, rfl⟩
  have e2 : Verif.analyticalJacobian M5.zero (fin 1) (fin (1 / 2 ^ 24)) (V3.of ![1, 0, 0]) (V3.of ![1, q, 0]) (V3.of ![0, 0, 1]) (fin 0) 3 0 =
      fin (-(2 ^ 24 * (N / (K * cosDip ![1, q, 0])))) := by
    rw [e, turnRate, fieldDir, db]
    have c0 : cosDip ![1, q, 0] ≠ 0 := by linarith
    have e3 : (-1 : ℝ) * kBr * (1 / 2 ^ 24) = -K := by rw [hK]; ring
    rw [e3]
    simp only [M5.re, jacR, hN]
    simp [frameU, dot, cross_0, cross_1, cross_2]
    field_simp
    ring
  have B : 0 < N ∧ N ≤ 51 / 100 * K ^ 2 := by
    obtain ⟨q1, q2⟩ := abs_le.1 hq
    have s1 : Real.sin K ≤ K := Real.sin_le Kp.le
    have s2 := Real.sin_gt_sub_cube Kp
    have c1 := Real.one_sub_sq_div_two_le_cos (x := K)
    have c2 := (abs_le.1 (Real.cos_bound (x := K) (by rw [abs_of_pos Kp]; exact Ks.trans (by norm_num)))).2
    rw [abs_of_pos Kp] at c2
    have K2 : K ^ 2 ≤ 1 / 1000 := by nlinarith
    have K4 : K ^ 4 ≤ 1 / 1000 * K ^ 2 := by nlinarith [sq_nonneg K]
    have s0 : 0 < Real.sin K := by nlinarith
    constructor
    · have : (999 / 1000 * K) * (K - K ^ 3 / 6) ≤ -q * Real.sin K := mul_le_mul (by linarith) s2.le (by nlinarith) (by linarith)
      rw [hN]
      nlinarith
    · have : -q * Real.sin K ≤ (1001 / 1000 * K) * K := mul_le_mul (by linarith) s1 s0.le (by positivity)
      rw [hN]
      nlinarith
  obtain ⟨B1, B2⟩ := B
  have cp : 0 < cosDip ![1, q, 0] := by linarith
  refine ⟨_, e2, ?_, ?_⟩
  · rw [abs_neg, abs_of_pos (by positivity)]
    have : N / (K * cosDip ![1, q, 0]) ≤ 51 / 100 * K := by
      rw [div_le_iff₀ (by positivity)]
      have := mul_le_mul_of_nonneg_left cd1 (show 0 ≤ 51 / 100 * K * K by positivity)
      linarith
    have e4 : kBr = 2 ^ 24 * K := by rw [hK]; ring
    rw [e4]
    linarith
  · have : 0 < 2 ^ 24 * (N / (K * cosDip ![1, q, 0])) := by positivity
    linarith

/-- C142 is false: in a field of 1 T along z and a step of 1 cm, with a charge over momentum of 2^-24/GeV, the cosine of the turning angle is 1 in
double precision; the dependence of the offset on the curvature comes out twice too large. -/
theorem C142_doubled (h : NearestF 53 1074 fl) (hc : CorrectLib fl lm at2) :
    ∃ (q r x : ℝ), RepF 53 1074 q ∧ JacRange 1 (1 / 2 ^ 24) 0 ![1, 0, 0] ![1, q, 0] ![0, 0, 1] ∧
      Rnd.analyticalJacobian fl lm M5.zero (fin 1) (fin (1 / 2 ^ 24)) (V3.of ![1, 0, 0]) (V3.of ![1, q, 0]) (V3.of ![0, 0, 1]) (fin 0) 3 0 = fin r ∧
      Verif.analyticalJacobian M5.zero (fin 1) (fin (1 / 2 ^ 24)) (V3.of ![1, 0, 0]) (V3.of ![1, q, 0]) (V3.of ![0, 0, 1]) (fin 0) 3 0 = fin x ∧
      x ≠ 0 ∧ 9 / 10 * |x| ≤ |r - x| := by
  have k0 := kBr_pos
  have k1 : kBr ≤ 1 / 2 ^ 8 := by unfold kBr; norm_num
  have db : √(dot ![0, 0, 1] ![0, 0, 1]) = 1 := by simp [dot]
  have b0 : 1 / 2 ^ 100 ≤ √(dot ![0, 0, 1] ![0, 0, 1]) := by rw [db]; norm_num
  have b1 : √(dot ![0, 0, 1] ![0, 0, 1]) ≤ 2 ^ 100 := by rw [db]; norm_num
  have gq : Ap 100 (1 / 2 ^ 24 : ℝ) (fin (1 / 2 ^ 24)) (fin (1 / 2 ^ 24)) 1 0 :=
    Ap.given (by norm_num) (by norm_num) (by rw [one_mul, abs_of_pos (by norm_num)])
  have hq := Ap.mul h (Ap.mul h (r_ap h b0 b1).neg (conv_ap h) (by norm_num) (by norm_num) (by norm_num) (by norm_num)) gq
    (by norm_num) (by norm_num) (by norm_num) (by norm_num)
  obtain ⟨q, y, e1, e2, e3, -⟩ := hq.val
  have ey : y = -(kBr * (1 / 2 ^ 24)) := by
    rw [ofV_r, db, convertBr2P_cm, fin_neg, fin_mul, fin_mul] at e2
    injection e2 with e2
    rw [← e2, kBr]
    ring
  have qr : RepF 53 1074 q := by
    obtain ⟨p, -, p1, -, -, -⟩ := (Ap.mul h (r_ap h b0 b1).neg (conv_ap h) (by norm_num) (by norm_num) (by norm_num) (by norm_num)).val
    rw [p1, mulD, fin_mul] at e1
    unfold rnd at e1
    simp only at e1
    split at e1
    · injection e1 with e1
      rw [← e1]
      exact h.rep _
    · exact absurd e1 (by simp)
  rw [ey, sub_neg_eq_add, db, one_mul] at e3
  have q1 : |q + kBr * (1 / 2 ^ 24)| ≤ 1 / 1000 * (kBr * (1 / 2 ^ 24)) := by
    refine e3.trans ?_
    have : (0 : ℝ) < kBr * (1 / 2 ^ 24) := by positivity
    norm_num
    linarith
  obtain ⟨l1, l2⟩ := abs_le.1 q1
  have Kp : (0 : ℝ) < kBr * (1 / 2 ^ 24) := by positivity
  have Ks : kBr * (1 / 2 ^ 24) ≤ 1 / 2 ^ 32 := by
    have := mul_le_mul_of_nonneg_right k1 (show (0 : ℝ) ≤ 1 / 2 ^ 24 by positivity)
    exact this.trans (by norm_num)
  have q3 : |q| ≤ 1 / 2 ^ 30 := by
    rw [abs_of_neg (by linarith)]
    norm_num at Ks l1 ⊢
    linarith
  have hr := jac_small_computed h hc M5.zero e1 qr (by intro hz; rw [hz] at l2; linarith) q3
  obtain ⟨x, x1, x2, x3⟩ := jac_small_exact q1
  refine ⟨q, fl (2 ^ 24 * q), x, qr, ?_, hr, x1, x3, ?_⟩
  · have q4 : q * q ≤ 1 / 2 ^ 60 := by
      rw [← abs_mul_abs_self]
      exact (mul_le_mul q3 q3 (abs_nonneg _) (by positivity)).trans (by norm_num)
    refine ⟨by simp [dot]; norm_num, ?_, by simp [cosDip]; norm_num, ?_, b0, b1, ?_, ?_, ?_, by simp⟩
    · simp only [dot, Matrix.cons_val_zero, Matrix.cons_val_one, Matrix.cons_val]
      norm_num at q4 ⊢
      linarith
    · refine le_trans (by norm_num) (Real.one_le_sqrt.2 ?_)
      simp only [Matrix.cons_val_zero, Matrix.cons_val_one]
      linarith [mul_self_nonneg q]
    · rw [abs_of_pos (by positivity)]; norm_num
    · rw [abs_of_pos (by positivity)]; norm_num
    · rw [turnRate, db, mul_one, neg_mul, one_mul, neg_mul, abs_neg, abs_of_pos Kp]
      exact Ks.trans (by norm_num)
  · have k := h.err (by norm_num) (2 ^ 24 * q)
    have n1 : 2 ^ 24 * q ≤ -(999 / 1000 * kBr) := by
      norm_num at l2 ⊢
      linarith
    have n2 : -(1001 / 1000 * kBr) ≤ 2 ^ 24 * q := by
      norm_num at l1 ⊢
      linarith
    have n3 : |2 ^ 24 * q| ≤ 2 * kBr := by
      rw [abs_of_neg (by linarith)]
      linarith
    have n4 : (1 : ℝ) / 2 ^ (1074 + 1) ≤ 1 / 1000 * kBr := by
      have : (1 : ℝ) / 2 ^ (1074 + 1) ≤ 1 / 2 ^ 20 := one_div_le_one_div_of_le (by positivity) (pow_le_pow_right₀ (by norm_num) (by norm_num))
      refine this.trans ?_
      unfold kBr
      norm_num
    have n5 : |2 ^ 24 * q| / 2 ^ 53 ≤ 1 / 1000 * kBr := by
      rw [div_le_iff₀ (by positivity)]
      norm_num at n3 ⊢
      linarith
    have n6 : fl (2 ^ 24 * q) - 2 ^ 24 * q ≤ 1 / 1000 * kBr + 1 / 1000 * kBr := (abs_le.1 (k.trans (add_le_add n5 n4))).2
    clear k n4 n5
    generalize fl (2 ^ 24 * q) = z at *
    have n7 : 99 / 100 * kBr ≤ |z| := by
      rw [abs_of_neg (by linarith)]
      linarith
    have n8 := abs_sub_abs_le_abs_sub z x
    linarith

theorem C142_false (h : NearestF 53 1074 fl) (hc : CorrectLib fl lm at2) : ¬ C142_claim fl lm := by
  intro hC
  obtain ⟨q, r, x, qr, hr, e1, e2, x0, hx⟩ := C142_doubled h hc
  obtain ⟨r', x', e3, e4, hx'⟩ := hC 1 (1 / 2 ^ 24) 0 ![1, 0, 0] ![1, q, 0] ![0, 0, 1] M5.zero hr repF_one
    (rep_dyadic 1 24 (by norm_num) (by norm_num) (by norm_num)) repF_zero (fun i => by
      fin_cases i
      · exact ⟨repF_one, repF_one, repF_zero⟩
      · exact ⟨repF_zero, qr, repF_zero⟩
      · exact ⟨repF_zero, repF_zero, repF_one⟩) 3 0 (by simp)
  rw [e1] at e3
  rw [e2] at e4
  injection e3 with e3
  injection e4 with e4
  subst e3 e4
  have := abs_pos.2 x0
  linarith

end

/-! ## straight tracks -/

/-- the length of a field is a number -/
theorem rV_fin (h : NearestF 53 1074 fl) (hb : √(dot b b) ≤ 2 ^ 100) : ∃ r, rV fl (V3.of b) = fin r ∧ |r| ≤ 2 ^ 203 := by
  have nn : ∀ {t : ℝ}, 0 ≤ t → 0 ≤ fl t ∧ fl t ≤ 2 * t := by
    intro t ht
    have k := h.near t 0 repF_zero
    rw [zero_sub, abs_neg, abs_of_nonneg ht] at k
    obtain ⟨k1, k2⟩ := abs_le.1 k
    constructor <;> linarith
  have d0 : 0 ≤ dot b b := add_nonneg (add_nonneg (mul_self_nonneg _) (mul_self_nonneg _)) (mul_self_nonneg _)
  have hd : dot b b ≤ 2 ^ 200 := by
    rw [Real.sqrt_le_left (by positivity), ← pow_mul] at hb
    exact hb
  unfold dot at hd d0
  have p0 := mul_self_nonneg (b 0)
  have p1 := mul_self_nonneg (b 1)
  have p2 := mul_self_nonneg (b 2)
  obtain ⟨a0, a1⟩ := nn p0
  obtain ⟨b0, b1⟩ := nn p1
  obtain ⟨c0, c1⟩ := nn p2
  obtain ⟨d0, d1⟩ := nn (add_nonneg a0 b0)
  obtain ⟨e0, e1⟩ := nn (add_nonneg d0 c0)
  obtain ⟨f0, f1⟩ := nn (Real.sqrt_nonneg (fl (fl (fl (b 0 * b 0) + fl (b 1 * b 1)) + fl (b 2 * b 2))))
  have R : ∀ {t : ℝ}, 0 ≤ t → t ≤ 2 ^ 203 → rnd fl 1024 (fin t) = fin (fl t) := by
    intro t t0 t1
    refine rnd_double h ?_
    rw [abs_of_nonneg t0]
    exact t1.trans (pow_le_pow_right₀ (by norm_num) (by norm_num))
  have P : (2 : ℝ) ^ 203 = 8 * 2 ^ 200 := by norm_num
  have P1 : (1 : ℝ) ≤ 2 ^ 200 := one_le_pow₀ (by norm_num)
  have s1 : √(fl (fl (fl (b 0 * b 0) + fl (b 1 * b 1)) + fl (b 2 * b 2))) ≤ 4 * 2 ^ 200 := by
    refine Real.sqrt_le_iff.2 ⟨by positivity, ?_⟩
    have : (8 : ℝ) * 2 ^ 200 ≤ (4 * 2 ^ 200) ^ 2 := by nlinarith
    linarith
  refine ⟨fl √(fl (fl (fl (b 0 * b 0) + fl (b 1 * b 1)) + fl (b 2 * b 2))), ?_, ?_⟩
  rotate_left
  · rw [abs_of_nonneg f0]
    linarith
  · simp only [rV, dotV, V3.of, V3.re, mulD, addD, sqrtD, fin_mul]
    rw [R p0 (by linarith), R p1 (by linarith), R p2 (by linarith), fin_add, R (add_nonneg a0 b0) (by linarith), fin_add,
      R (add_nonneg d0 c0) (by linarith), sqrt_fin e0, R (Real.sqrt_nonneg _) (by linarith)]

/-- C142: without field or for infinite momentum the lever arms are the length of the step and its horizontal part, the latter within 6 units in the
last place; all other entries stay. -/
theorem C142_straight (h : NearestF 53 1074 fl) (hq : b = 0 ∨ qop = 0) (hb : √(dot b b) ≤ 2 ^ 100)
    (t0 : dot T0 T0 ≤ (1001 / 1000) ^ 2) (c0 : 1 / 2 ^ 100 ≤ cosDip T0) (w0 : 1 / 2 ^ 100 ≤ |w|) (w1 : |w| ≤ 2 ^ 100) (jac : M5) (loss : Dbl) :
    ∃ x, |x - w * cosDip T0| ≤ 6 / 2 ^ 53 * |w * cosDip T0| ∧
      Rnd.analyticalJacobian fl lm jac (fin w) (fin qop) (V3.of T0) (V3.of T) (V3.of b) loss = (jac.set 3 2 (fin x)).set 4 1 (fin w) ∧
      Verif.analyticalJacobian jac (fin w) (fin qop) (V3.of T0) (V3.of T) (V3.of b) loss = (jac.set 3 2 (fin (w * cosDip T0))).set 4 1 (fin w) := by
  have T0p : 0 < cosDip T0 := lt_of_lt_of_le (by positivity) c0
  have c0' : cosDip T0 ≤ 2 ^ 100 := (cosDip_le t0).trans (by norm_num)
  have gw : Ap 100 |w| (fin w) (fin w) 1 0 := Ap.given w0 w1 (by rw [one_mul])
  have m := Ap.mul h gw (trans_ap h c0 c0') (by norm_num) (by norm_num) (by norm_num) (by norm_num)
  rw [sqrt_xy_of, fin_mul] at m
  obtain ⟨x, y, e1, e2, e3, -⟩ := m.val
  injection e2 with e2
  subst e2
  refine ⟨x, ?_, ?_, straight_model hq jac loss⟩
  · rw [abs_mul, abs_of_pos T0p]
    have : 0 < |w| * cosDip T0 := mul_pos (lt_of_lt_of_le (by positivity) w0) T0p
    norm_num at e3 ⊢
    linarith
  · have z : Dbl.eqv (mulD fl (mulD fl (-rV fl (V3.of b)) (convD fl)) (fin qop)) 0 := by
      obtain ⟨c, c', c1, c3, c2, -⟩ := (conv_ap h).val
      have f0 : rnd fl 1024 (fin 0) = fin 0 := by rw [rnd_small h (by simp), h.fix repF_zero]
      rw [c1]
      rcases hq with rfl | rfl
      · have : rV fl (V3.of 0) = fin 0 := by
          simp [rV, dotV, V3.of, V3.re, mulD, addD, sqrtD, f0, sqrt_fin]
        rw [this]
        simp [mulD, f0, zero_eq, fin_eqv]
      · obtain ⟨r, r1, r2⟩ := rV_fin h hb
        have hc : |c| ≤ 1 := by
          have e : convertBr2P_cm = fin kBr := rfl
          rw [c3] at e
          injection e with e
          rw [e] at c2
          have k := abs_near c2
          have k1 : kBr ≤ 1 / 2 := by unfold kBr; norm_num
          rw [abs_of_pos kBr_pos] at k
          norm_num at k
          linarith
        have s1 : |-r * c| ≤ 2 ^ 1000 := by
          rw [abs_mul, abs_neg]
          refine (mul_le_mul r2 hc (abs_nonneg _) (by positivity)).trans ?_
          rw [mul_one]
          exact pow_le_pow_right₀ (by norm_num) (by norm_num)
        rw [r1, fin_neg]
        simp only [mulD, fin_mul, rnd_double h s1, mul_zero, f0, zero_eq, fin_eqv]
    unfold Rnd.analyticalJacobian
    simp only [cif_pos z, e1]

/-- hypotheses of the straight case -/
example : ∃ fl, NearestF 53 1074 fl ∧ ((0 : R3) = 0 ∨ (2 : ℝ) = 0) ∧ √(dot 0 0) ≤ 2 ^ 100 ∧ dot ![0, 1, 0] ![0, 1, 0] ≤ (1001 / 1000) ^ 2 ∧
    1 / 2 ^ 100 ≤ cosDip ![0, 1, 0] ∧ (1 / 2 ^ 100 : ℝ) ≤ |10| ∧ |(10 : ℝ)| ≤ 2 ^ 100 := by
  obtain ⟨fl, h⟩ := exists_nearestF 53 1074
  refine ⟨fl, h, Or.inl rfl, by simp [dot], by simp [dot]; norm_num, by simp [cosDip]; norm_num, ?_, ?_⟩ <;> rw [abs_of_pos (by norm_num)] <;> norm_num

end Verif
