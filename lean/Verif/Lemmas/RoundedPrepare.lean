import Verif.Lemmas.RoundedPropagationWide
import Verif.Props.RoundedPropagation

/-!
# The Jacobian for directions, path and charge over momentum with errors
-/

open Classical

noncomputable section

namespace Verif

open Dbl Spec

namespace Rnd

variable {fl : ℝ → ℝ} {lm : Libm} {v : R3} {a : V3}

/-- a computed direction: errors of the transverse components in units of the transverse length -/
structure DirNear (a : V3) (v : R3) : Prop where
  x : Ap 100 (cosDip v) a.x (fin (v 0)) 1 840
  y : Ap 100 (cosDip v) a.y (fin (v 1)) 1 840
  z : Ap 0 1 a.z (fin (v 2)) (1001 / 1000) 840

theorem DirNear.vec (hd : DirNear a v) (h : dot v v ≤ (1001 / 1000) ^ 2) : ApV 0 1 a (V3.of v) (1001 / 1000) 850 := by
  have c := cosDip_le h
  refine ⟨?_, ?_, hd.z.mono le_rfl (by norm_num), fun x y z hv => ?_⟩
  · exact (hd.x.rescale (l := 0) (T := 1) (c := 1001 / 1000) (by rw [mul_one]; exact c) (by norm_num) (by norm_num)).mono (by norm_num) (by norm_num)
  · exact (hd.y.rescale (l := 0) (T := 1) (c := 1001 / 1000) (by rw [mul_one]; exact c) (by norm_num) (by norm_num)).mono (by norm_num) (by norm_num)
  · simp only [V3.of, V3.re, V3.mk.injEq, fin.injEq] at hv
    obtain ⟨rfl, rfl, rfl⟩ := hv
    unfold dot at h
    rw [mul_one]
    linarith

theorem DirNear.trans (h : NearestF 53 1074 fl) (hd : DirNear a v) :
    Ap 100 (cosDip v) (transV fl a) (Dbl.sqrt ((V3.of v).x * (V3.of v).x + (V3.of v).y * (V3.of v).y)) 1 3370 := by
  have T0 := hd.x.pos
  have sq : cosDip v * cosDip v = v 0 * v 0 + v 1 * v 1 := Real.mul_self_sqrt (add_nonneg (mul_self_nonneg _) (mul_self_nonneg _))
  have p0 := Ap.mul h hd.x hd.x (by norm_num) (by norm_num) (by norm_num) (by norm_num)
  have p1 := Ap.mul h hd.y hd.y (by norm_num) (by norm_num) (by norm_num) (by norm_num)
  have s := Ap.addB h p0 p1 (D := 1) (fun t ht => by
    simp only [fin_mul, fin_add, fin.injEq] at ht
    rw [← ht, ← sq, one_mul, abs_of_pos (by positivity)]) (by norm_num) (by norm_num) (by norm_num)
  exact (Ap.sqrt h s (k := 100) (by norm_num) (by norm_num) (by rw [fin_mul, fin_mul, fin_add, sq]) hd.x.lo hd.x.hi).mono le_rfl (by norm_num)

theorem DirNear.frameU (h : NearestF 53 1074 fl) (hd : DirNear a v) :
    ApV 0 1 ⟨mulD fl (-divD fl 1 (transV fl a)) a.y, mulD fl (divD fl 1 (transV fl a)) a.x, 0⟩
      ⟨-(1 / (V3.of v).trans) * (V3.of v).y, 1 / (V3.of v).trans * (V3.of v).x, 0⟩ 1 4300 := by
  have T0 := hd.x.pos
  have sq : cosDip v * cosDip v = v 0 * v 0 + v 1 * v 1 + 0 * 0 := by
    rw [mul_zero, add_zero]
    exact Real.mul_self_sqrt (add_nonneg (mul_self_nonneg _) (mul_self_nonneg _))
  have g : Ap 100 (1 / cosDip v) (divD fl 1 (transV fl a)) (1 / (V3.of v).trans) 1 3376 := by
    have := Ap.divr h (Ap.unit (B := 1) (x := 1) (by simp)) (hd.trans h) (sqrt_xy_of v) (le_abs_self _) (by norm_num) (by norm_num) (by norm_num)
      (by norm_num)
    rw [← one_eq] at this
    exact this.mono le_rfl (by norm_num)
  have D : ∀ {b b' c c' : Dbl}, Ap 100 (1 / cosDip v) b b' 1 3376 → Ap 100 (cosDip v) c c' 1 840 → Ap 0 1 (mulD fl b c) (b' * c') 1 4300 := by
    intro b b' c c' hb hc
    have := Ap.mul h hb hc (by norm_num) (by norm_num) (by norm_num) (by norm_num)
    exact (this.rescale (l := 0) (T := 1) (c := 1) (by rw [one_div_mul_cancel T0.ne', one_mul]) (by norm_num) (by norm_num)).mono (by norm_num)
      (by norm_num)
  refine ⟨D g.neg hd.y, D g hd.x, ?_, fun x y z hv => ?_⟩
  · rw [zero_eq]
    exact (Ap.unit (B := 0) (x := 0) (by simp)).mono (by norm_num) (by norm_num)
  · rw [ofV_trans, one_eq, fin_div _ T0.ne', zero_eq] at hv
    simp only [V3.of, V3.re, V3.mk.injEq, fin.injEq, fin_mul, fin_neg] at hv
    obtain ⟨rfl, rfl, rfl⟩ := hv
    refine le_of_eq ?_
    field_simp
    linarith

theorem DirNear.frameV (h : NearestF 53 1074 fl) (hd : DirNear a v) {u u' : V3} (hu : ApV 0 1 u u' 1 4300) (hz : u'.z = fin 0)
    (hv : dot v v ≤ (1001 / 1000) ^ 2) :
    ApV 0 1 ⟨mulD fl (-a.z) u.y, mulD fl a.z u.x, subD fl (mulD fl a.x u.y) (mulD fl a.y u.x)⟩
      ⟨-(V3.of v).z * u'.y, (V3.of v).z * u'.x, (V3.of v).x * u'.y - (V3.of v).y * u'.x⟩ (1001 / 1000) 10350 := by
  have ha := hd.vec hv
  obtain ⟨x, y, z, rfl, hl⟩ := hu.get
  simp only [fin.injEq] at hz
  subst hz
  have len : (-v 2 * y) ^ 2 + (v 2 * x) ^ 2 + (v 0 * y - v 1 * x) ^ 2 ≤ (1001 / 1000 * 1) ^ 2 := by
    rw [mul_one]
    have l1 : (v 0 * y - v 1 * x) ^ 2 ≤ (v 0 ^ 2 + v 1 ^ 2) * (x ^ 2 + y ^ 2) := by nlinarith [sq_nonneg (v 0 * x + v 1 * y)]
    have l2 : (v 0 ^ 2 + v 1 ^ 2 + v 2 ^ 2) * (x ^ 2 + y ^ 2) ≤ (1001 / 1000) ^ 2 * 1 := by
      refine mul_le_mul ?_ (by linarith [sq_nonneg (0 : ℝ)]) (by positivity) (by norm_num)
      unfold dot at hv
      linarith
    nlinarith
  have p : ∀ {c c' d d' : Dbl}, Ap 0 1 c c' (1001 / 1000) 850 → Ap 0 1 d d' 1 4300 → Ap 0 1 (mulD fl c d) (c' * d') (1001 / 1000) 5157 := by
    intro c c' d d' hc hd
    exact (Ap.mulr h hc hd (by norm_num) (by norm_num) (by norm_num) (by norm_num)).mono (by norm_num) (by norm_num)
  refine ⟨(p ha.z.neg hu.y).mono le_rfl (by norm_num), (p ha.z hu.x).mono le_rfl (by norm_num), ?_, ?_⟩
  · have p1 := p ha.x hu.y
    have p2 := p ha.y hu.x
    refine (Ap.subB h p1 p2 (D := 1001 / 1000) (fun t ht => ?_) (by norm_num) (by norm_num) (by norm_num)).mono le_rfl (by norm_num)
    simp only [V3.of, V3.re, fin_mul, fin_sub, fin.injEq] at ht
    rw [← ht]
    refine abs_le_of_sq_le_sq ?_ (by norm_num)
    linarith [sq_nonneg (-v 2 * y), sq_nonneg (v 2 * x)]
  · intro a b c he
    simp only [V3.of, V3.re, V3.mk.injEq, fin.injEq, fin_mul, fin_neg, fin_sub] at he
    obtain ⟨rfl, rfl, rfl⟩ := he
    exact len

theorem apW_near {k : ℕ} {S c : ℝ} {a a' : Dbl} (h : Ap k S a a' 16 4096000) (hc : S = c) :
    ∃ r x, a = fin r ∧ a' = fin x ∧ |r - x| ≤ 1 / 2 ^ 31 * c ∧ |x| ≤ 16 * c := by
  have S0 := h.pos
  obtain ⟨r, x, h1, h2, h3, h4⟩ := h.val
  subst hc
  refine ⟨r, x, h1, h2, h3.trans ?_, h4⟩
  have : (4096000 : ℝ) * (1 / 2 ^ 53) ≤ 1 / 2 ^ 31 := by norm_num
  have := mul_le_mul_of_nonneg_right this S0.le
  linarith

/-- the Jacobian for inputs with errors: below the first row -/
theorem jac_wide {w qop : ℝ} {T0 T b : R3} {wD qD : Dbl} {t0 t1 : V3} (h : NearestF 53 1074 fl) (hl : IsLibm lm) (hr : JacRange w qop 0 T0 T b)
    (hw : Ap 209 (1 / |turnRate b * qop|) wD (fin w) 4 4000) (hQ : Ap 100 |qop| qD (fin qop) 1 1024) (ht0 : DirNear t0 T0) (ht1 : DirNear t1 T)
    (jac : M5) (loss loss' : Dbl) :
    (∀ j, Rnd.analyticalJacobian fl lm jac wD qD t0 t1 (V3.of b) loss' 0 j = if j = 0 then addD fl 1 loss' else jac 0 j) ∧
    (∀ j, Verif.analyticalJacobian jac (fin w) (fin qop) (V3.of T0) (V3.of T) (V3.of b) loss 0 j = if j = 0 then 1 + loss else jac 0 j) ∧
    ∀ i j, i ≠ 0 → ∃ r x, Rnd.analyticalJacobian fl lm jac wD qD t0 t1 (V3.of b) loss' i j = fin r ∧
      Verif.analyticalJacobian jac (fin w) (fin qop) (V3.of T0) (V3.of T) (V3.of b) loss i j = fin x ∧
      |r - x| ≤ 1 / 2 ^ 31 * (jacRow qop T b i / jacCol qop b j) ∧ |x| ≤ 16 * (jacRow qop T b i / jacCol qop b j) := by
  have k0 := kBr_pos
  have Bp : 0 < √(dot b b) := lt_of_lt_of_le (by positivity) hr.b0
  have Qp : 0 < |qop| := lt_of_lt_of_le (by positivity) hr.q0
  have qn : qop ≠ 0 := abs_pos.1 Qp
  have T0p : 0 < cosDip T0 := lt_of_lt_of_le (by positivity) hr.c0
  have Tp : 0 < cosDip T := lt_of_lt_of_le (by positivity) hr.c1
  have c0' := cosDip_le hr.t0
  have Sq : √(dot b b) * kBr * |qop| = |turnRate b * qop| := by
    rw [abs_mul, turnRate, neg_mul, abs_neg, abs_of_pos (show 0 < √(dot b b) * kBr by positivity)]
  have Sqp : 0 < √(dot b b) * kBr * |qop| := by positivity
  rw [← Sq] at hw
  -- inputs
  have hhn := (unit_ap h hr.b0 hr.b1).mono (N' := 1) (e' := 8) le_rfl (by norm_num) (by norm_num)
  have hts := ht0.vec hr.t0
  have hte := ht1.vec hr.t1
  have hu1 := ht0.frameU h
  have hu2 := ht1.frameU h
  have hv1 := ht0.frameV h hu1 zero_eq hr.t0
  have hv2 := ht1.frameV h hu2 zero_eq hr.t1
  have hqp : Ap 109 (√(dot b b) * kBr) (mulD fl (-rV fl (V3.of b)) (convD fl)) (-(V3.of b).r * convertBr2P_cm) 1 (1004 / 100) :=
    (Ap.mul h (r_ap h hr.b0 hr.b1).neg (conv_ap h) (by norm_num) (by norm_num) (by norm_num) (by norm_num)).mono (by norm_num) (by norm_num)
  have hq : Ap 209 (√(dot b b) * kBr * |qop|) (mulD fl (mulD fl (-rV fl (V3.of b)) (convD fl)) qD)
      (-(V3.of b).r * convertBr2P_cm * fin qop) 1 1036 :=
    (Ap.mul h hqp hQ (by norm_num) (by norm_num) (by norm_num) (by norm_num)).mono (by norm_num) (by norm_num)
  have hy : -(V3.of b).r * convertBr2P_cm * fin qop = fin (turnRate b * qop) := by
    rw [ofV_r, convertBr2P_cm, fin_neg, fin_mul, fin_mul]
    rfl
  have hS : √(dot b b) * kBr * |qop| ≤ |turnRate b * qop| := Sq.le
  have hth : Ap 0 1 (mulD fl (mulD fl (mulD fl (-rV fl (V3.of b)) (convD fl)) qD) wD)
      (-(V3.of b).r * convertBr2P_cm * fin qop * fin w) 4 (247296 / 5) :=
    ((Ap.mul h hq hw (by norm_num) (by norm_num) (by norm_num) (by norm_num)).rescale (l := 0) (T := 1) (c := 1)
      (by rw [mul_one_div_cancel Sqp.ne', one_mul]) (by norm_num) (by norm_num)).mono (by norm_num) (by norm_num)
  have hs := (Ap.sin hl hth).mono (B' := 1) (e' := 263168 / 5) le_rfl (by norm_num)
  have hc := (Ap.cos hl hth).mono (B' := 1) (e' := 263168 / 5) le_rfl (by norm_num)
  have one : Ap 0 1 (1 : Dbl) 1 1 0 := Ap.unit (by simp)
  have hp := (Ap.divr h one hQ rfl le_rfl (by norm_num) (by norm_num) (by norm_num) (by norm_num)).mono (B' := 1) (e' := 5632 / 5) le_rfl (by norm_num)
  have hcs := ((ht0.trans h).rescale (l := 0) (T := 1) (c := 1001 / 1000) (by rw [mul_one]; exact c0') (by norm_num) (by norm_num)).mono
    (B' := 1001 / 1000) (e' := 20992 / 5) (by norm_num) (by norm_num)
  have hci := (Ap.divr h one (ht1.trans h) (sqrt_xy_of T) (le_abs_self _) (by norm_num) (by norm_num) (by norm_num) (by norm_num)).mono
    (B' := 1) (e' := 26112 / 5) le_rfl (by norm_num)
  obtain ⟨⟨r10, r11, r12, r13, r14⟩, ⟨r20, r21, r22, r23, r24⟩, ⟨r30, r31, r32, r33, r34⟩, ⟨r40, r41, r42, r43, r44⟩⟩ :=
    jac_coreW h hhn hts hte hu1 hu2 hv1 hv2 hth hs hc (hq.mono le_rfl (by norm_num)) hy hS (hqp.mono le_rfl (by norm_num)) hp hcs hci rfl rfl rfl rfl rfl rfl
      rfl rfl rfl rfl rfl rfl rfl rfl rfl rfl rfl rfl rfl rfl
  -- the branch
  have nq' : ¬ Dbl.eqv (-(V3.of b).r * convertBr2P_cm * fin qop) 0 := by
    rw [hy, zero_eq, fin_eqv]
    exact abs_pos.1 (Sq ▸ Sqp)
  have nq : ¬ Dbl.eqv (mulD fl (mulD fl (-rV fl (V3.of b)) (convD fl)) qD) 0 := by
    obtain ⟨r, x, e1, e2, e3, -⟩ := hq.val
    rw [e2] at hy
    injection hy with hy
    rw [e1, zero_eq, fin_eqv]
    rintro rfl
    rw [zero_sub, abs_neg, hy, ← Sq] at e3
    have : (1036 : ℝ) * (1 / 2 ^ 53) < 1 := by norm_num
    nlinarith
  have s1 : √(dot b b) * kBr * (1 / (√(dot b b) * kBr * |qop|)) = 1 / |qop| := by field_simp
  unfold Rnd.analyticalJacobian Verif.analyticalJacobian
  simp only [cif_neg nq, cif_neg nq']
  refine ⟨?_, ?_, ?_⟩
  · intro j
    fin_cases j <;> rfl
  · intro j
    fin_cases j <;> rfl
  · intro i j hij
    fin_cases i <;> fin_cases j
    · simp at hij
    · simp at hij
    · simp at hij
    · simp at hij
    · simp at hij
    · exact apW_near r10 (by rw [s1]; simp [jacRow, jacCol])
    · exact apW_near r11 (by simp [jacRow, jacCol])
    · exact apW_near r12 (by simp [jacRow, jacCol])
    · exact apW_near r13 (by rw [Sq]; simp [jacRow, jacCol])
    · exact apW_near r14 (by rw [Sq]; simp [jacRow, jacCol])
    · exact apW_near r20 (by rw [s1]; simp [jacRow, jacCol]; ring)
    · exact apW_near r21 (by simp [jacRow, jacCol])
    · exact apW_near r22 (by simp [jacRow, jacCol])
    · exact apW_near r23 (by rw [Sq]; simp [jacRow, jacCol]; rw [← mul_inv, div_inv_eq_mul]; ring)
    · exact apW_near r24 (by rw [Sq]; simp [jacRow, jacCol]; rw [← mul_inv, div_inv_eq_mul]; ring)
    · exact apW_near r30 (by rw [Sq]; simp [jacRow, jacCol]; ring)
    · exact apW_near r31 (by rw [Sq]; simp [jacRow, jacCol])
    · exact apW_near r32 (by rw [Sq]; simp [jacRow, jacCol])
    · exact apW_near r33 (Eq.symm (div_self (show (1 : ℝ) / |turnRate b * qop| ≠ 0 by rw [← Sq]; positivity)))
    · exact apW_near r34 (Eq.symm (div_self (show (1 : ℝ) / |turnRate b * qop| ≠ 0 by rw [← Sq]; positivity)))
    · exact apW_near r40 (by rw [Sq]; simp [jacRow, jacCol]; ring)
    · exact apW_near r41 (by rw [Sq]; simp [jacRow, jacCol])
    · exact apW_near r42 (by rw [Sq]; simp [jacRow, jacCol])
    · exact apW_near r43 (Eq.symm (div_self (show (1 : ℝ) / |turnRate b * qop| ≠ 0 by rw [← Sq]; positivity)))
    · exact apW_near r44 (Eq.symm (div_self (show (1 : ℝ) / |turnRate b * qop| ≠ 0 by rw [← Sq]; positivity)))

end Rnd

end Verif
